import Verif.Model.ResnetFan
import Verif.Lemmas.BaseModel
import Verif.Lemmas.Fan

/-! # Helper lemmas for the default fan of a RESNET unit -/

set_option linter.unusedSectionVars false
set_option linter.unusedSimpArgs false

namespace Resdx.ResnetFan

open BaseModel Fan Spec

theorem pySet_eq_ok {α : Type} {l l' : List α} {i : Nat} {v : α} :
    pySet l i v = .ok l' ↔ i < l.length ∧ l' = l.set i v := by
  unfold pySet
  split <;> simp_all [eq_comm]

/-- `b'` is `b` with further settings appended. -/
def Ext (b b' : Base) : Prop := (∃ t, b'.airflow = b.airflow ++ t) ∧ b'.designESP = b.designESP ∧ b'.sysConst = b.sysConst

theorem Ext.refl (b : Base) : Ext b b := ⟨⟨[], by simp⟩, rfl, rfl⟩

theorem Ext.trans {a b c : Base} (h1 : Ext a b) (h2 : Ext b c) : Ext a c := by
  obtain ⟨⟨t, ht⟩, h3, h4⟩ := h1
  obtain ⟨⟨s, hs⟩, h5, h6⟩ := h2
  exact ⟨⟨t ++ s, by rw [hs, ht]; simp⟩, by rw [h5, h3], by rw [h6, h4]⟩

theorem Ext.get {b b' : Base} (h : Ext b b') {k : Nat} {a : ℝ} (hk : b.airflow[k]? = some a) : b'.airflow[k]? = some a := by
  obtain ⟨⟨t, ht⟩, -⟩ := h
  have := (List.getElem?_eq_some_iff.1 hk).1
  rw [ht, List.getElem?_append_left this, hk]

/-- The power at a setting does not change when further settings are appended. -/
def Local (power : Base → Int → Option ℝ → Py ℝ) : Prop :=
  ∀ (b b' : Base) (k : Nat) (p : Option ℝ), Ext b b' → k < b.airflow.length → power b' k p = power b k p

theorem airflow_local {b b' : Base} (h : Ext b b') {k : Nat} (hk : k < b.airflow.length) (p : Option ℝ) :
    resnetAirflow b' k p = resnetAirflow b k p := by
  have h1 : b.airflow[k]? = some b.airflow[k] := by simp
  have h2 := h.get h1
  have h3 := (List.getElem?_eq_some_iff.1 h2).1
  unfold resnetAirflow
  rw [pyGetI_nat hk, pyGetI_nat h3]
  obtain ⟨_, h4⟩ := List.getElem?_eq_some_iff.1 h2
  rw [h4]

theorem ratio_local {b b' : Base} (h : Ext b b') {k : Nat} (hk : k < b.airflow.length) (p : Option ℝ) :
    resnetAirflowRatio b' k 0 p = resnetAirflowRatio b k 0 p := by
  unfold resnetAirflowRatio
  rw [airflow_local h hk]
  have h0 : (0 : Int) = ((0 : Nat) : Int) := rfl
  rw [h0, airflow_local h (by omega : 0 < b.airflow.length)]

theorem psc_local (u : Units ℝ) : Local (resnetPSCPower u) := by
  intro b b' k p h hk
  unfold resnetPSCPower resnetPSCEfficacy
  rw [airflow_local h hk, ratio_local h hk]

theorem bpm_local (u : Units ℝ) (brentq : Brentq) : Local (resnetBPMPower u brentq) := by
  intro b b' k p h hk
  have ho : resnetOperatingPressure brentq b' k = resnetOperatingPressure brentq b k := by
    unfold resnetOperatingPressure operatingPressure Base.systemFlow
    obtain ⟨-, h1, h2⟩ := id h
    have : ∀ x : ℝ, resnetAirflow b' k (some x) = resnetAirflow b k (some x) := fun x => airflow_local h hk _
    simp only [h1, h2, this]
  unfold resnetBPMPower resnetBPMEfficacy
  rw [airflow_local h hk, ho]
  simp only [ratio_local h hk]

theorem motor_local (u : Units ℝ) (brentq : Brentq) (psc : Bool) : Local (motorPower u brentq psc) := by
  cases psc
  · exact bpm_local u brentq
  · exact psc_local u

/-- The airflow of speed `i` is set to its capacity times its airflow per capacity. -/
def HasAirflow (s : Side) (i : Nat) (a : ℝ) : Prop :=
  ∃ q r, s.caps[i]? = some q ∧ s.perCap[i]? = some r ∧ a = q * r ∧ s.airflow[i]? = some (some a)

/-- The design-pressure setting of speed `i`. -/
def D1 (s : Side) (b : Base) (i : Nat) : Prop :=
  ∃ (a : ℝ) (k : Nat), HasAirflow s i a ∧ s.fanSpeed[i]? = some (some (k : Int)) ∧ b.airflow[k]? = some a

/-- The rated-pressure setting of speed `i`. -/
def D2 (power : Base → Int → Option ℝ → Py ℝ) (s : Side) (b : Base) (i : Nat) : Prop :=
  ∃ (a : ℝ) (k : Nat) (p w : ℝ), HasAirflow s i a ∧ s.ratedFanSpeed[i]? = some (some (k : Int)) ∧ b.airflow[k]? = some a ∧
    s.esp[i]? = some (some p) ∧ power b k (some p) = .ok w ∧ s.power[i]? = some (some w)

theorem D1.ext {s : Side} {b b' : Base} {i : Nat} (h : D1 s b i) (he : Ext b b') : D1 s b' i := by
  obtain ⟨a, k, h1, h2, h3⟩ := h
  exact ⟨a, k, h1, h2, he.get h3⟩

theorem D2.ext {power : Base → Int → Option ℝ → Py ℝ} (hp : Local power) {s : Side} {b b' : Base} {i : Nat} (h : D2 power s b i)
    (he : Ext b b') : D2 power s b' i := by
  obtain ⟨a, k, p, w, h1, h2, h3, h4, h5, h6⟩ := h
  refine ⟨a, k, p, w, h1, h2, he.get h3, h4, ?_, h6⟩
  rw [hp b b' k (some p) he (List.getElem?_eq_some_iff.1 h3).1, h5]

theorem add_ok {b b' : Base} {a : ℝ} (hb : AlignedBase b) (h : add b a = .ok b') :
    Ext b b' ∧ AlignedBase b' ∧ b'.n - 1 = (b.airflow.length : Int) ∧ b'.airflow[b.airflow.length]? = some a := by
  have h1 := exec_eq_ok h
  have h2 := Base.add_aligned hb h1
  obtain ⟨-, rfl⟩ := Base.addSpeed_ok h1
  refine ⟨⟨⟨[a], rfl⟩, rfl, rfl⟩, h2, ?_, by simp⟩
  simp [hb.1]

/-- Nothing about speed `j` differs between two sides. -/
def SameAt (s s' : Side) (j : Nat) : Prop :=
  s'.caps = s.caps ∧ s'.perCap = s.perCap ∧ s'.airflow[j]? = s.airflow[j]? ∧ s'.power[j]? = s.power[j]? ∧ s'.esp[j]? = s.esp[j]? ∧
  s'.fanSpeed[j]? = s.fanSpeed[j]? ∧ s'.ratedFanSpeed[j]? = s.ratedFanSpeed[j]?

theorem SameAt.refl (s : Side) (j : Nat) : SameAt s s j := ⟨rfl, rfl, rfl, rfl, rfl, rfl, rfl⟩

theorem SameAt.trans {s t r : Side} {j : Nat} (h1 : SameAt s t j) (h2 : SameAt t r j) : SameAt s r j := by
  obtain ⟨a1, a2, a3, a4, a5, a6, a7⟩ := h1
  obtain ⟨b1, b2, b3, b4, b5, b6, b7⟩ := h2
  exact ⟨b1.trans a1, b2.trans a2, b3.trans a3, b4.trans a4, b5.trans a5, b6.trans a6, b7.trans a7⟩

theorem HasAirflow.same {s s' : Side} {j : Nat} {a : ℝ} (h : HasAirflow s j a) (hs : SameAt s s' j) : HasAirflow s' j a := by
  obtain ⟨q, r, h1, h2, h3, h4⟩ := h
  obtain ⟨a1, a2, a3, -⟩ := hs
  exact ⟨q, r, by rw [a1, h1], by rw [a2, h2], h3, by rw [a3, h4]⟩

theorem D1.same {s s' : Side} {b : Base} {j : Nat} (h : D1 s b j) (hs : SameAt s s' j) : D1 s' b j := by
  obtain ⟨a, k, h1, h2, h3⟩ := h
  exact ⟨a, k, h1.same hs, by rw [hs.2.2.2.2.2.1, h2], h3⟩

theorem D2.same {power : Base → Int → Option ℝ → Py ℝ} {s s' : Side} {b : Base} {j : Nat} (h : D2 power s b j) (hs : SameAt s s' j) :
    D2 power s' b j := by
  obtain ⟨a, k, p, w, h1, h2, h3, h4, h5, h6⟩ := h
  obtain ⟨_, _, _, a4, a5, a6, a7⟩ := id hs
  exact ⟨a, k, p, w, h1.same hs, by rw [a7, h2], h3, by rw [a5, h4], h5, by rw [a4, h6]⟩

theorem setAirflow_ok {s s' : Side} {i : Nat} (h : setAirflow s i = .ok s') :
    (∃ a, HasAirflow s' i a) ∧ (∀ j, j ≠ i → SameAt s s' j) ∧ s'.caps = s.caps ∧ s'.perCap = s.perCap := by
  unfold setAirflow at h
  simp only [bind_eq_ok, pyGet_eq_ok, pySet_eq_ok, pure_eq_ok, Except.ok.injEq] at h
  obtain ⟨q, h1, r, h2, l, ⟨h3, rfl⟩, rfl⟩ := h
  refine ⟨⟨q * r, q, r, h1, h2, rfl, by simp [h3]⟩, fun j hj => ⟨rfl, rfl, ?_, rfl, rfl, rfl, rfl⟩, rfl, rfl⟩
  simp [List.getElem?_set, Ne.symm hj]

theorem mark_ok {s s' : Side} {b : Base} {i : Nat} (h : mark s b i = .ok s') :
    s'.fanSpeed[i]? = some (some (b.n - 1)) ∧ (∀ j, j ≠ i → SameAt s s' j) ∧ s'.caps = s.caps ∧ s'.perCap = s.perCap ∧
    s'.airflow = s.airflow ∧ s'.power = s.power ∧ s'.esp = s.esp ∧ s'.ratedFanSpeed = s.ratedFanSpeed := by
  unfold mark at h
  simp only [bind_eq_ok, pySet_eq_ok, pure_eq_ok, Except.ok.injEq] at h
  obtain ⟨l, ⟨h3, rfl⟩, rfl⟩ := h
  refine ⟨by simp [h3], fun j hj => ⟨rfl, rfl, rfl, rfl, rfl, ?_, rfl⟩, rfl, rfl, rfl, rfl, rfl, rfl⟩
  simp [List.getElem?_set, Ne.symm hj]

theorem addDesign_ok {s s' : Side} {b b' : Base} {i : Nat} {a : ℝ} (hb : AlignedBase b) (ha : HasAirflow s i a)
    (h : addDesign s b i = .ok (s', b')) :
    Ext b b' ∧ AlignedBase b' ∧ D1 s' b' i ∧ HasAirflow s' i a ∧ (∀ j, j ≠ i → SameAt s s' j) ∧ s'.caps = s.caps ∧ s'.perCap = s.perCap := by
  unfold addDesign at h
  simp only [bind_eq_ok, numAt_eq_ok, pure_eq_ok, Except.ok.injEq, Prod.mk.injEq] at h
  obtain ⟨x, h1, b1, h2, s1, h3, rfl, rfl⟩ := h
  obtain ⟨q, r, k1, k2, k3, k4⟩ := id ha
  have hx : x = a := by rw [k4] at h1; simpa using h1.symm
  subst hx
  obtain ⟨e1, e2, e3, e4⟩ := add_ok hb h2
  obtain ⟨m1, m2, m3, m4, m5, -⟩ := mark_ok h3
  have ha' : HasAirflow s1 i x := ⟨q, r, by rw [m3, k1], by rw [m4, k2], k3, by rw [m5, k4]⟩
  exact ⟨e1, e2, ⟨x, b.airflow.length, ha', by rw [m1, e3], e4⟩, ha', m2, m3, m4⟩

theorem addRated_ok {power : Base → Int → Option ℝ → Py ℝ} {fullESP full : ℝ} {s s' : Side} {b b' : Base} {i : Nat} {a : ℝ}
    (hb : AlignedBase b) (ha : HasAirflow s i a) (h : addRated power fullESP s b i full = .ok (s', b')) :
    Ext b b' ∧ AlignedBase b' ∧ D2 power s' b' i ∧ (∀ j, j ≠ i → SameAt s s' j) ∧ s'.caps = s.caps ∧ s'.perCap = s.perCap ∧
    s'.airflow = s.airflow ∧ s'.fanSpeed = s.fanSpeed ∧ full ≠ 0 ∧ s'.esp[i]? = some (some (fullESP * (a / full) ^ 2)) := by
  unfold addRated ratedPressure at h
  simp only [bind_eq_ok, numAt_eq_ok, pure_eq_ok, Except.ok.injEq, Prod.mk.injEq, pySet_eq_ok, pdiv_eq_ok] at h
  obtain ⟨x, h1, p, ⟨y, ⟨h2, rfl⟩, rfl⟩, e, ⟨h3, rfl⟩, b1, h4, rs, ⟨h5, rfl⟩, w, h6, pw, ⟨h7, rfl⟩, rfl, rfl⟩ := h
  obtain ⟨q, r, k1, k2, k3, k4⟩ := id ha
  have hx : x = a := by rw [k4] at h1; simpa using h1.symm
  subst hx
  obtain ⟨e1, e2, e3, e4⟩ := add_ok hb h4
  refine ⟨e1, e2, ⟨x, b.airflow.length, _, w, ⟨q, r, k1, k2, k3, k4⟩, by simp [h5, e3], e4, by simp [h3]; rfl, by rw [← e3]; exact h6, by simp [h7]⟩,
    fun j hj => ⟨rfl, rfl, rfl, ?_, ?_, rfl, ?_⟩, rfl, rfl, rfl, rfl, h2, by simp [h3]⟩ <;> simp [List.getElem?_set, Ne.symm hj]

theorem otherSpeed_ok {power : Base → Int → Option ℝ → Py ℝ} (hp : Local power) {fullESP : ℝ} {fs i : Nat} {s s' : Side} {b b' : Base}
    (hb : AlignedBase b) (h : otherSpeed power fullESP fs s b i = .ok (s', b')) :
    Ext b b' ∧ AlignedBase b' ∧ (i ≠ fs → D1 s' b' i ∧ D2 power s' b' i) ∧ (∀ j, j ≠ i ∨ j = fs → SameAt s s' j) ∧
    s'.caps = s.caps ∧ s'.perCap = s.perCap := by
  unfold otherSpeed at h
  split at h
  · rename_i hi
    simp only [Except.ok.injEq, Prod.mk.injEq] at h
    obtain ⟨rfl, rfl⟩ := h
    exact ⟨Ext.refl _, hb, fun h => absurd hi h, fun j _ => SameAt.refl _ _, rfl, rfl⟩
  · rename_i hi
    simp only [bind_eq_ok] at h
    obtain ⟨s1, h1, ⟨s2, b2⟩, h2, h3⟩ := h
    simp only [bind_eq_ok] at h3
    obtain ⟨full, -, h4⟩ := h3
    obtain ⟨⟨a, ha⟩, m1, m2, m3⟩ := setAirflow_ok h1
    obtain ⟨x1, x2, x3, x4, x5, x6, x7⟩ := addDesign_ok hb ha h2
    obtain ⟨y1, y2, y3, y4, y5, y6, y7, y8, -⟩ := addRated_ok x2 x4 h4
    refine ⟨x1.trans y1, y2, fun _ => ⟨?_, y3⟩, fun j hj => ?_, by rw [y5, x6, m2], by rw [y6, x7, m3]⟩
    · obtain ⟨a', k, w1, w2, w3⟩ := x3.ext y1
      obtain ⟨q, r, v1, v2, v3, v4⟩ := w1
      exact ⟨a', k, ⟨q, r, by rw [y5, v1], by rw [y6, v2], v3, by rw [y7, v4]⟩, by rw [y8, w2], w3⟩
    · have hj' : j ≠ i := by
        rcases hj with hj | rfl
        · exact hj
        · exact fun e => hi e.symm
      exact (m1 j hj').trans ((x5 j hj').trans (y4 j hj'))

theorem otherSpeeds_ok {power : Base → Int → Option ℝ → Py ℝ} (hp : Local power) {fullESP : ℝ} {fs : Nat} :
    ∀ (l : List Nat) (s s' : Side) (b b' : Base), l.Nodup → AlignedBase b → otherSpeeds power fullESP fs l s b = .ok (s', b') →
    Ext b b' ∧ AlignedBase b' ∧ (∀ i ∈ l, i ≠ fs → D1 s' b' i ∧ D2 power s' b' i) ∧ (∀ j, j ∉ l ∨ j = fs → SameAt s s' j) ∧
    s'.caps = s.caps ∧ s'.perCap = s.perCap := by
  intro l
  induction l with
  | nil =>
    intro s s' b b' _ hb h
    simp only [otherSpeeds, Except.ok.injEq, Prod.mk.injEq] at h
    obtain ⟨rfl, rfl⟩ := h
    exact ⟨Ext.refl _, hb, by simp, fun j _ => SameAt.refl _ _, rfl, rfl⟩
  | cons i l ih =>
    intro s s' b b' hnd hb h
    simp only [otherSpeeds, bind_eq_ok] at h
    obtain ⟨⟨s1, b1⟩, h1, h2⟩ := h
    obtain ⟨x1, x2, x3, x4, x5, x6⟩ := otherSpeed_ok hp hb h1
    obtain ⟨hn1, hn2⟩ := List.nodup_cons.1 hnd
    obtain ⟨y1, y2, y3, y4, y5, y6⟩ := ih s1 s' b1 b' hn2 x2 h2
    refine ⟨x1.trans y1, y2, fun j hj hfs => ?_, fun j hj => ?_, by rw [y5, x5], by rw [y6, x6]⟩
    · rcases List.mem_cons.1 hj with rfl | hj
      · obtain ⟨z1, z2⟩ := x3 hfs
        have hs := y4 j (.inl hn1)
        exact ⟨(z1.ext y1).same hs, (z2.ext hp y1).same hs⟩
      · exact y3 j hj hfs
    · have h1 : j ≠ i ∨ j = fs := by
        rcases hj with hj | hj
        · exact .inl fun e => hj (by simp [e])
        · exact .inr hj
      have h2 : j ∉ l ∨ j = fs := by
        rcases hj with hj | hj
        · exact .inl fun e => hj (by simp [e])
        · exact .inr hj
      exact (x4 j h1).trans (y4 j h2)

theorem init_single {u : Units ℝ} {d : ℝ} {b : Base} (h : resnetInit u [d] = .ok b) : AlignedBase b ∧ b.airflow = [d] ∧ b.n = 1 ∧ d ≠ 0 := by
  unfold resnetInit at h
  simp only [bind_eq_ok] at h
  obtain ⟨b0, h1, h2⟩ := h
  obtain ⟨a0, k1, k2, k3, rfl⟩ := start_eq_ok h1
  have h3 := exec_eq_ok h2
  have hd : d = a0 := by simpa using k1
  subst hd
  have k2' : ([] : List ℝ).headD d ≠ 0 := k2
  simp only [addAll, PyM.bind_run, PyM.pure_run, Base.addSpeed_run, if_neg k2'] at h3
  simp only [Prod.mk.injEq, true_and] at h3
  subst h3
  exact ⟨⟨by simp, by simp⟩, rfl, by simp, k2⟩

theorem fullSpeeds_ok {first : Bool} {cfs hfs : Nat} {c c' h h' : Side} {b b' : Base} {ac ah : ℝ} (hb : AlignedBase b)
    (hb1 : b.airflow = [if first then ac else ah]) (hc : HasAirflow c cfs ac) (hh : HasAirflow h hfs ah)
    (hrun : fullSpeeds first cfs hfs c h b = .ok (c', h', b')) :
    Ext b b' ∧ AlignedBase b' ∧ D1 c' b' cfs ∧ D1 h' b' hfs ∧ HasAirflow c' cfs ac ∧ HasAirflow h' hfs ah ∧
    c'.caps = c.caps ∧ c'.perCap = c.perCap ∧ h'.caps = h.caps ∧ h'.perCap = h.perCap := by
  have hn : b.n - 1 = 0 := by rw [hb.1, hb1]; simp
  have markOne : ∀ {s s' : Side} {i : Nat} {a : ℝ}, HasAirflow s i a → b.airflow[0]? = some a → mark s b i = .ok s' →
      D1 s' b i ∧ HasAirflow s' i a ∧ s'.caps = s.caps ∧ s'.perCap = s.perCap := by
    intro s s' i a hs h0 hm
    obtain ⟨m1, m2, m3, m4, m5, -⟩ := mark_ok hm
    obtain ⟨q, r, v1, v2, v3, v4⟩ := hs
    have : HasAirflow s' i a := ⟨q, r, by rw [m3, v1], by rw [m4, v2], v3, by rw [m5, v4]⟩
    exact ⟨⟨a, 0, this, by rw [m1, hn]; rfl, h0⟩, this, m3, m4⟩
  unfold fullSpeeds at hrun
  cases first with
  | true =>
    simp only [if_true, bind_eq_ok, pure_eq_ok, Except.ok.injEq] at hrun hb1
    obtain ⟨c1, h1, ⟨h2, b2⟩, h3, h4⟩ := hrun
    simp only [Prod.mk.injEq] at h4
    obtain ⟨rfl, rfl, rfl⟩ := h4
    obtain ⟨m1, m2, m3, m4⟩ := markOne hc (by simp [hb1]) h1
    obtain ⟨x1, x2, x3, x4, x5, x6, x7⟩ := addDesign_ok hb hh h3
    exact ⟨x1, x2, m1.ext x1, x3, m2, x4, m3, m4, x6, x7⟩
  | false =>
    simp only [Bool.false_eq_true, if_false, bind_eq_ok, pure_eq_ok, Except.ok.injEq] at hrun hb1
    obtain ⟨h1', h1, ⟨c2, b2⟩, h3, h4⟩ := hrun
    simp only [Prod.mk.injEq] at h4
    obtain ⟨rfl, rfl, rfl⟩ := h4
    obtain ⟨m1, m2, m3, m4⟩ := markOne hh (by simp [hb1]) h1
    obtain ⟨x1, x2, x3, x4, x5, x6, x7⟩ := addDesign_ok hb hc h3
    exact ⟨x1, x2, x3, m1.ext x1, x4, m2, x6, x7, m3, m4⟩

end Resdx.ResnetFan
