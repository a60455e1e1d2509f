import Verif.Lemmas.ResnetFan
import Verif.Spec.ResnetFan
import Verif.Props.FanRep
import Verif.Props.FanSpeeds

/-!
# C36: the fan a unit gets when none is supplied
-/

set_option linter.unusedSectionVars false
set_option linter.unusedSimpArgs false

namespace Resdx.BaseModel

open Fan

/-! ## Base model -/

/-- One mode's capacities have been processed: speed `i` has setting `off + i`. -/
theorem fanLoop_ok (u : Units ℝ) : ∀ (qs : List ℝ) (i : Nat) (s : FanSide) (airflows : List ℝ), s.airflow.length = i + qs.length →
    s.power.length = i + qs.length → ∃ s', fanLoop u qs i s airflows = .ok (s', airflows ++ qs.map (· * (375 * u.cfm / u.ton))) ∧
      s'.speed = s.speed ++ (List.range qs.length).map (airflows.length + ·) ∧
      (∀ j, j < i → s'.airflow[j]? = s.airflow[j]? ∧ s'.power[j]? = s.power[j]?) ∧
      ∀ j q, qs[j]? = some q → s'.airflow[i + j]? = some (some (q * (375 * u.cfm / u.ton))) ∧
        s'.power[i + j]? = some (some (q * (375 * u.cfm / u.ton) * (0.365 / u.cfm))) := by
  intro qs
  induction qs with
  | nil => intro i s airflows _ _; exact ⟨s, by simp [fanLoop], by simp, by simp, by simp⟩
  | cons q qs ih =>
    intro i s airflows h1 h2
    have e1 : ∀ v : Option ℝ, pySet s.airflow i v = .ok (s.airflow.set i v) := fun v => by
      simp only [List.length_cons] at h1; simp [pySet]; omega
    have e2 : ∀ v : Option ℝ, pySet s.power i v = .ok (s.power.set i v) := fun v => by
      simp only [List.length_cons] at h2; simp [pySet]; omega
    simp only [fanLoop, e1, e2, bind_ok]
    obtain ⟨s', k1, k2, k3, k4⟩ := ih (i + 1)
      { airflow := s.airflow.set i (some (q * (375 * u.cfm / u.ton)))
        power := s.power.set i (some (q * (375 * u.cfm / u.ton) * (0.365 / u.cfm)))
        speed := s.speed ++ [(airflows ++ [q * (375 * u.cfm / u.ton)]).length - 1] }
      (airflows ++ [q * (375 * u.cfm / u.ton)]) (by simp [h1]; omega) (by simp [h2]; omega)
    refine ⟨s', by rw [k1]; simp, ?_, ?_, ?_⟩
    · rw [k2]
      simp only [List.length_cons, List.range_succ_eq_map, List.map_cons, List.map_map, List.length_append, List.length_nil,
        Nat.add_zero, List.append_assoc, List.singleton_append, zero_add, Nat.add_sub_cancel, List.append_cancel_left_eq, List.cons.injEq,
        true_and]
      apply List.map_congr_left
      intro a _
      simp only [Function.comp]
      omega
    · intro j hj
      obtain ⟨m1, m2⟩ := k3 j (by omega)
      rw [m1, m2]
      simp [List.getElem?_set, show i ≠ j by omega]
    · intro j q' hq
      cases j with
      | zero =>
        simp only [List.getElem?_cons_zero, Option.some.injEq] at hq
        subst hq
        obtain ⟨m1, m2⟩ := k3 i (by omega)
        simp only [List.length_cons] at h1 h2
        rw [Nat.add_zero, m1, m2]
        simp [List.getElem?_set, show i < s.airflow.length by omega, show i < s.power.length by omega]
      | succ j =>
        simp only [List.getElem?_cons_succ] at hq
        have := k4 j q' hq
        rwa [show i + (j + 1) = i + 1 + j by omega]

theorem constEff_addAll : ∀ (l : List ℝ) (s : ConstEff), (s.base.airflow ++ l).headD 0 ≠ 0 →
    ∃ s', addAll (fun a => ConstEff.addSpeed a) l s = (.ok (), s') ∧ s'.base.airflow = s.base.airflow ++ l ∧
      s'.base.n = s.base.n + l.length ∧ s'.designEfficacy = s.designEfficacy := by
  intro l
  induction l with
  | nil => intro s _; exact ⟨s, rfl, by simp, by simp, rfl⟩
  | cons a l ih =>
    intro s h
    have h0 : s.base.airflow.headD a ≠ 0 := by
      cases hb : s.base.airflow with
      | nil => simpa [hb] using h
      | cons c cs => simpa [hb] using h
    obtain ⟨s', k1, k2, k3, k4⟩ := ih { s with base := { s.base with
      airflow := s.base.airflow ++ [a], n := s.base.n + 1
      ratio := s.base.ratio ++ [a / s.base.airflow.headD a] } } (by simpa using h)
    refine ⟨s', ?_, by simp [k2], ?_, by simp [k4]⟩
    · simp only [addAll, PyM.bind_run, Props.constEff_add_none s a h0]
      exact k1
    · rw [k3]; simp; omega

theorem constEff_init_list (l : List ℝ) (p e : ℝ) (hp : 0 ≤ p) (h0 : l.headD 0 ≠ 0) :
    ∃ s, ConstEff.init l p (.scalar e) = .ok s ∧ s.base.airflow = l ∧ s.designEfficacy = .list (List.replicate l.length e) := by
  cases l with
  | nil => simp at h0
  | cons a l =>
    have ha : a ≠ 0 := by simpa using h0
    have hst : Base.start p (a :: l) = .ok { designESP := p, n := 0, airflow := [], ratio := [], sysConst := Real.sqrt p / a } := by
      simp [Base.start, systemCurveConstant, pyGet, bind_ok, ppow_half hp, pdiv_ok ha, pure_eq_ok]
    obtain ⟨s', k1, k2, k3, k4⟩ := constEff_addAll (a :: l)
      { base := { designESP := p, n := 0, airflow := [], ratio := [], sysConst := Real.sqrt p / a }, designEfficacy := .scalar e } h0
    refine ⟨{ s' with designEfficacy := .list (List.replicate s'.base.n.toNat e) }, ?_, by simpa using k2, ?_⟩
    · simp only [ConstEff.init, hst, bind_ok, PyM.exec, k1, pure_eq_ok]
    · simp only [k3]; simp

/-- C36, base model: with any vectors of net capacities whose first cooling capacity is not zero, `set_fan` succeeds, and every cooling speed `i` is assigned an
existing setting of the new fan that delivers the speed's rated airflow and draws its rated fan power at every pressure; likewise every heating speed; and no
setting is shared. -/
theorem C36_base (u : Units ℝ) (qc qh : List ℝ) (q0 : ℝ) (h0 : qc[0]? = some q0) (hq0 : q0 ≠ 0) :
    ∃ f : FanAssignment, setFan u qc.length qh.length qc qh = .ok f ∧
      (∀ (i : Nat) (q : ℝ), qc[i]? = some q → ∃ (k : Nat) (a w : ℝ), f.cool.speed[i]? = some k ∧ f.cool.airflow[i]? = some (some a) ∧ f.cool.power[i]? = some (some w) ∧
        ∀ p, f.fan.airflow (k : Int) p = .ok a ∧ f.fan.power (k : Int) p = .ok w) ∧
      (∀ (i : Nat) (q : ℝ), qh[i]? = some q → ∃ (k : Nat) (a w : ℝ), f.heat.speed[i]? = some k ∧ f.heat.airflow[i]? = some (some a) ∧ f.heat.power[i]? = some (some w) ∧
        ∀ p, f.fan.airflow (k : Int) p = .ok a ∧ f.fan.power (k : Int) p = .ok w) ∧
      (f.cool.speed ++ f.heat.speed).Nodup := by
  have hu := u.cfm_pos
  have ht := u.ton_pos
  have hi := u.inH2O_pos
  obtain ⟨c, c1, c2, -, c4⟩ := fanLoop_ok u qc 0 ⟨List.replicate qc.length none, List.replicate qc.length none, []⟩ [] (by simp) (by simp)
  obtain ⟨h, h1, h2, -, h4⟩ := fanLoop_ok u qh 0 ⟨List.replicate qh.length none, List.replicate qh.length none, []⟩
    (qc.map (· * (375 * u.cfm / u.ton))) (by simp) (by simp)
  obtain ⟨s, s1, s2, s3⟩ := constEff_init_list (qc.map (· * (375 * u.cfm / u.ton)) ++ qh.map (· * (375 * u.cfm / u.ton)))
    (0.5 * u.inH2O) (0.365 / u.cfm) (by positivity) (by
      cases qc with
      | nil => simp at h0
      | cons a l =>
        simp only [List.getElem?_cons_zero, Option.some.injEq] at h0
        subst h0
        simp only [List.map_cons, List.cons_append, List.headD_cons]
        positivity)
  have atSetting : ∀ (k : Nat) (a : ℝ), s.base.airflow[k]? = some a → ∀ p, s.airflow (k : Nat) p = .ok a ∧
      s.power (k : Nat) p = .ok (a * (0.365 / u.cfm)) := by
    intro k a hk p
    obtain ⟨hlt, hka⟩ := List.getElem?_eq_some_iff.1 hk
    have e1 : s.airflow (k : Nat) p = .ok a := by unfold ConstEff.airflow; rw [pyGetI_nat hlt, hka]
    refine ⟨e1, ?_⟩
    have hlt' : k < (List.replicate s.base.airflow.length (0.365 / u.cfm)).length := by simpa using hlt
    unfold ConstEff.power ConstEff.efficacy
    rw [e1, s3]
    simp only [← s2, pyGetI_nat hlt', bind_ok, pure_eq_ok]
    simp
  refine ⟨⟨c, h, s⟩, ?_, ?_, ?_, ?_⟩
  · simp only [setFan, c1, bind_ok, List.nil_append, h1, s1]
    rfl
  · intro i q hq
    obtain ⟨a1, a2⟩ := c4 i q hq
    have hlt := (List.getElem?_eq_some_iff.1 hq).1
    refine ⟨i, _, _, ?_, by simpa using a1, by simpa using a2, ?_⟩
    · rw [c2]; simp [hlt]
    · refine atSetting i _ ?_
      rw [s2, List.getElem?_append_left (by simpa using hlt)]
      simp [hq]
  · intro i q hq
    obtain ⟨a1, a2⟩ := h4 i q hq
    have hlt := (List.getElem?_eq_some_iff.1 hq).1
    refine ⟨qc.length + i, _, _, ?_, by simpa using a1, by simpa using a2, ?_⟩
    · rw [h2]; simp [hlt]
    · refine atSetting (qc.length + i) _ ?_
      rw [s2, List.getElem?_append_right (by simp)]
      simp [hq]
  · simp only [c2, h2, List.nil_append, List.length_nil, List.length_map]
    refine List.nodup_append.2 ⟨?_, ?_, ?_⟩
    · exact (List.nodup_range).map fun a b h => by simpa using h
    · exact (List.nodup_range).map fun a b h => by simpa using h
    · intro a ha b hb
      simp only [List.mem_map, List.mem_range, zero_add] at ha hb
      obtain ⟨a', h1, rfl⟩ := ha
      obtain ⟨b', h2, rfl⟩ := hb
      omega

example : ([2, 1] : List ℝ)[0]? = some 2 ∧ (2 : ℝ) ≠ 0 := by simp

/-- C36, base model: without a usable first airflow there is no fan; a zero first cooling capacity raises `ZeroDivisionError`. -/
theorem C36_base_zero (u : Units ℝ) (qs qh : List ℝ) : setFan u (qs.length + 1) qh.length (0 :: qs) qh = .error .zeroDivision := by
  have hi := u.inH2O_pos
  obtain ⟨c, c1, -⟩ := fanLoop_ok u (0 :: qs) 0 ⟨List.replicate (qs.length + 1) none, List.replicate (qs.length + 1) none, []⟩ [] (by simp) (by simp)
  obtain ⟨h, h1, -⟩ := fanLoop_ok u qh 0 ⟨List.replicate qh.length none, List.replicate qh.length none, []⟩
    ((0 :: qs).map (· * (375 * u.cfm / u.ton))) (by simp) (by simp)
  simp only [setFan, c1, bind_ok, List.nil_append, h1]
  simp only [List.map_cons, zero_mul, List.cons_append, ConstEff.init, Base.start, systemCurveConstant, pyGet, List.getElem?_cons_zero, bind_ok,
    ppow_half (show (0 : ℝ) ≤ 0.5 * u.inH2O by positivity), pdiv_zero, bind_error]

end Resdx.BaseModel

namespace Resdx.ResnetFan

open Fan Spec BaseModel

/-! ## RESNET model -/

theorem assigned {power : Base → Int → Option ℝ → Py ℝ} {s : Side} {b : Base} {i : Nat} {q r : ℝ} (hq : s.caps[i]? = some q)
    (hr : s.perCap[i]? = some r) (h1 : D1 s b i) (h2 : D2 power s b i) : FanAssigned power s b i q r := by
  obtain ⟨a, k, ⟨q1, r1, e1, e2, e3, e4⟩, k2, k3⟩ := h1
  obtain ⟨a', k', p, w, ⟨q2, r2, f1, f2, f3, f4⟩, g2, g3, g4, g5, g6⟩ := h2
  rw [hq] at e1 f1; cases e1; cases f1
  rw [hr] at e2 f2; cases e2; cases f2
  subst e3; subst f3
  have air : ∀ (k : Nat) (a : ℝ), b.airflow[k]? = some a → ∀ p, resnetAirflow b k p = .ok a := by
    intro k a hk p
    obtain ⟨hlt, rfl⟩ := List.getElem?_eq_some_iff.1 hk
    exact pyGetI_nat hlt
  exact ⟨e4, ⟨k, k2, air k _ k3⟩, k', p, w, g2, air k' _ g3, g4, g5, g6⟩

/-- C36, RESNET model: whenever the default fan is made, every speed of both modes – any number of speeds, any full-load indices – is assigned settings that deliver
its rated airflow (capacity × airflow per capacity), and its rated fan power is the finished fan's power at its rating setting and pressure. -/
theorem C36_resnet (u : Units ℝ) (brentq : Brentq) (psc : Bool) (fullESP : ℝ) (cfs hfs : Nat) (c h c' h' : Side) (b : Base)
    (hrun : setFan u (motorPower u brentq psc) fullESP cfs hfs c h = .ok (c', h', b)) :
    (∀ i q r, c.caps[i]? = some q → c.perCap[i]? = some r → FanAssigned (motorPower u brentq psc) c' b i q r) ∧
    (∀ i q r, h.caps[i]? = some q → h.perCap[i]? = some r → FanAssigned (motorPower u brentq psc) h' b i q r) := by
  have hp := motor_local u brentq psc
  generalize motorPower u brentq psc = power at *
  unfold setFan at hrun
  simp only [bind_eq_ok, numAt_eq_ok] at hrun
  obtain ⟨c1, r1, h1, r2, ac, r3, ah, r4, b0, r5, ⟨c2, h2, b1⟩, r6, ⟨c3, b2⟩, r7, ⟨h3, b3⟩, r8, ⟨c4, b4⟩, r9, ⟨h4, b5⟩, r10, r11⟩ := hrun
  simp only [pure_eq_ok, Except.ok.injEq, Prod.mk.injEq] at r11
  obtain ⟨rfl, rfl, rfl⟩ := r11
  obtain ⟨⟨a1, A1⟩, -, p1, p2⟩ := setAirflow_ok r1
  obtain ⟨⟨a2, A2⟩, -, p3, p4⟩ := setAirflow_ok r2
  have ea1 : a1 = ac := by obtain ⟨_, _, _, _, _, e⟩ := A1; rw [r3] at e; simpa using e.symm
  have ea2 : a2 = ah := by obtain ⟨_, _, _, _, _, e⟩ := A2; rw [r4] at e; simpa using e.symm
  subst ea1; subst ea2
  obtain ⟨B0, B1, -, -⟩ := init_single r5
  obtain ⟨E1, AB1, dc, dh, Ac, Ah, p5, p6, p7, p8⟩ := fullSpeeds_ok (ac := a1) (ah := a2) B0 (by rw [B1]; simp) A1 A2 r6
  obtain ⟨E2, AB2, dc2, -, p9, p10, p11, p12, -⟩ := addRated_ok AB1 Ac r7
  obtain ⟨E3, AB3, dh2, -, p13, p14, p15, p16, -⟩ := addRated_ok AB2 Ah r8
  obtain ⟨E4, AB4, oc, sc, p17, p18⟩ := otherSpeeds_ok hp _ _ _ _ _ List.nodup_range AB3 r9
  obtain ⟨E5, AB5, oh, sh, p19, p20⟩ := otherSpeeds_ok hp _ _ _ _ _ List.nodup_range AB4 r10
  have keepD1 : ∀ {s s' : Side} {b : Base} {i : Nat}, D1 s b i → s'.caps = s.caps → s'.perCap = s.perCap → s'.airflow = s.airflow →
      s'.fanSpeed = s.fanSpeed → D1 s' b i := by
    rintro s s' b i ⟨a, k, ⟨q, r, v1, v2, v3, v4⟩, w2, w3⟩ e1 e2 e3 e4
    exact ⟨a, k, ⟨q, r, by rw [e1, v1], by rw [e2, v2], v3, by rw [e3, v4]⟩, by rw [e4, w2], w3⟩
  have capsC : c4.caps = c.caps := by rw [p17, p9, p5, p1]
  have perC : c4.perCap = c.perCap := by rw [p18, p10, p6, p2]
  have capsH : h4.caps = h.caps := by rw [p19, p13, p7, p3]
  have perH : h4.perCap = h.perCap := by rw [p20, p14, p8, p4]
  constructor
  · intro i q r hq hr
    have hq' : c4.caps[i]? = some q := by rw [capsC, hq]
    have hr' : c4.perCap[i]? = some r := by rw [perC, hr]
    by_cases hi : i = cfs
    · subst hi
      have s1 := sc i (.inr rfl)
      exact assigned hq' hr' (((keepD1 dc p9 p10 p11 p12).ext (E2.trans (E3.trans (E4.trans E5)))).same s1)
        ((dc2.ext hp (E3.trans (E4.trans E5))).same s1)
    · have hlt : i < c3.caps.length := by
        rw [p9, p5, p1]; exact (List.getElem?_eq_some_iff.1 hq).1
      obtain ⟨x1, x2⟩ := oc i (by simpa using hlt) hi
      exact assigned hq' hr' (x1.ext E5) (x2.ext hp E5)
  · intro i q r hq hr
    have hq' : h4.caps[i]? = some q := by rw [capsH, hq]
    have hr' : h4.perCap[i]? = some r := by rw [perH, hr]
    by_cases hi : i = hfs
    · subst hi
      have s1 := sh i (.inr rfl)
      exact assigned hq' hr' (((keepD1 dh p13 p14 p15 p16).ext (E2.trans (E3.trans (E4.trans E5)))).same s1)
        ((dh2.ext hp (E4.trans E5)).same s1)
    · have hlt : i < h3.caps.length := by
        rw [p13, p7, p3]; exact (List.getElem?_eq_some_iff.1 hq).1
      obtain ⟨x1, x2⟩ := oh i (by simpa using hlt) hi
      exact assigned hq' hr' x1 x2

/-! ### When the fan is made -/

/-- A fan whose first setting has airflow `d` at the design pressure. -/
def GoodFan (u : Units ℝ) (d : ℝ) (b : Base) : Prop :=
  AlignedBase b ∧ b.airflow[0]? = some d ∧ b.designESP = 0.5 * u.inH2O ∧ b.sysConst = Real.sqrt (0.5 * u.inH2O) / d

theorem GoodFan.ext {u : Units ℝ} {d : ℝ} {b b' : Base} (h : GoodFan u d b) (he : Ext b b') (hb : AlignedBase b') : GoodFan u d b' := by
  obtain ⟨-, h1, h2, h3⟩ := h
  exact ⟨hb, he.get h1, by rw [he.2.1, h2], by rw [he.2.2, h3]⟩

/-- Every list of a side has one entry per speed. -/
def Ready (n : Nat) (s : Side) : Prop :=
  s.caps.length = n ∧ s.perCap.length = n ∧ s.airflow.length = n ∧ s.power.length = n ∧ s.esp.length = n ∧ s.fanSpeed.length = n ∧
  s.ratedFanSpeed.length = n

/-- All airflows of a side satisfy `P`. -/
def Airflows (P : ℝ → Prop) (s : Side) : Prop := ∀ (i : Nat) (q r : ℝ), s.caps[i]? = some q → s.perCap[i]? = some r → P (q * r)

/-- The power function returns at every setting with an airflow satisfying `P`. -/
def Works (u : Units ℝ) (power : Base → Int → Option ℝ → Py ℝ) (d : ℝ) (P : ℝ → Prop) : Prop :=
  ∀ (b : Base) (k : Nat) (a p : ℝ), GoodFan u d b → b.airflow[k]? = some a → P a → ∃ w, power b k (some p) = .ok w

theorem pySet_returns {α : Type} {l : List α} {i : Nat} (h : i < l.length) (v : α) : pySet l i v = .ok (l.set i v) := by
  simp [pySet, h]

theorem setAirflow_returns {n i : Nat} {s : Side} (hs : Ready n s) (hi : i < n) : ∃ s', setAirflow s i = .ok s' ∧ Ready n s' := by
  obtain ⟨h1, h2, h3, h4, h5, h6, h7⟩ := hs
  refine ⟨{ s with airflow := s.airflow.set i (some (s.caps[i] * s.perCap[i])) }, ?_, ?_⟩
  · simp [setAirflow, pyGet_lt (show i < s.caps.length by omega), pyGet_lt (show i < s.perCap.length by omega), bind_ok,
      pySet_returns (show i < s.airflow.length by omega), pure_eq_ok]
  · exact ⟨h1, h2, by simpa using h3, h4, h5, h6, h7⟩

theorem add_returns {u : Units ℝ} {d : ℝ} (hd : d ≠ 0) {b : Base} (hb : GoodFan u d b) (a : ℝ) : ∃ b', add b a = .ok b' ∧ GoodFan u d b' := by
  have h0 : b.airflow.headD a ≠ 0 := by
    obtain ⟨-, h, -⟩ := hb
    cases hl : b.airflow with
    | nil => simp [hl] at h
    | cons x l => simp [hl] at h; simpa [h] using hd
  have hadd : ∃ b', add b a = .ok b' := by
    refine ⟨{ b with airflow := b.airflow ++ [a], n := b.n + 1, ratio := b.ratio ++ [a / b.airflow.headD a] }, ?_⟩
    simp only [add, PyM.exec, Base.addSpeed_run, if_neg h0]
  obtain ⟨b', h⟩ := hadd
  obtain ⟨h1, h2, -⟩ := add_ok hb.1 h
  exact ⟨b', h, hb.ext h1 h2⟩

theorem mark_returns {n i : Nat} {s : Side} (hs : Ready n s) (b : Base) (hi : i < n) : ∃ s', mark s b i = .ok s' ∧ Ready n s' := by
  obtain ⟨h1, h2, h3, h4, h5, h6, h7⟩ := hs
  refine ⟨{ s with fanSpeed := s.fanSpeed.set i (some (b.n - 1)) }, ?_, ⟨h1, h2, h3, h4, h5, by simpa using h6, h7⟩⟩
  simp [mark, pySet_returns (show i < s.fanSpeed.length by omega), bind_ok, pure_eq_ok]

theorem addDesign_returns {u : Units ℝ} {d : ℝ} (hd : d ≠ 0) {n i : Nat} {s : Side} {b : Base} {a : ℝ} (hs : Ready n s) (hb : GoodFan u d b)
    (ha : HasAirflow s i a) (hi : i < n) : ∃ s' b', addDesign s b i = .ok (s', b') ∧ Ready n s' ∧ GoodFan u d b' := by
  obtain ⟨_, _, _, _, _, h4⟩ := ha
  obtain ⟨b', e1, e2⟩ := add_returns hd hb a
  obtain ⟨s', m1, m2⟩ := mark_returns hs b' hi
  refine ⟨s', b', ?_, m2, e2⟩
  simp [addDesign, numAt_eq_ok.2 h4, bind_ok, e1, m1, pure_eq_ok]

theorem addRated_returns {u : Units ℝ} {power : Base → Int → Option ℝ → Py ℝ} {d : ℝ} {P : ℝ → Prop} (hw : Works u power d P) (hd : d ≠ 0)
    {fullESP full : ℝ} (hf : full ≠ 0) {n i : Nat} {s : Side} {b : Base} {a : ℝ} (hs : Ready n s) (hb : GoodFan u d b)
    (ha : HasAirflow s i a) (hP : Airflows P s) (hi : i < n) :
    ∃ s' b', addRated power fullESP s b i full = .ok (s', b') ∧ Ready n s' ∧ GoodFan u d b' := by
  obtain ⟨q, r, k1, k2, rfl, k4⟩ := ha
  obtain ⟨h1, h2, h3, h4, h5, h6, h7⟩ := hs
  obtain ⟨b', e1, e2⟩ := add_returns hd hb (q * r)
  obtain ⟨-, -, x3, x4⟩ := add_ok hb.1 e1
  obtain ⟨w, hw⟩ := hw b' b.airflow.length (q * r) (fullESP * (q * r / full) ^ 2) e2 x4 (hP i q r k1 k2)
  rw [← x3] at hw
  refine ⟨{ s with
    esp := s.esp.set i (some (fullESP * (q * r / full) ^ 2))
    ratedFanSpeed := s.ratedFanSpeed.set i (some (b'.n - 1))
    power := s.power.set i (some w) }, b', ?_, ⟨h1, h2, h3, by simpa using h4, by simpa using h5, h6, by simpa using h7⟩, e2⟩
  simp [addRated, ratedPressure, numAt_eq_ok.2 k4, bind_ok, pdiv_ok hf, pure_eq_ok, pySet_returns (show i < s.esp.length by omega),
    pySet_returns (show i < s.ratedFanSpeed.length by omega), pySet_returns (show i < s.power.length by omega), e1, hw]

section returns

variable {u : Units ℝ} {power : Base → Int → Option ℝ → Py ℝ} {d : ℝ} {P : ℝ → Prop}

theorem Airflows.congr {s s' : Side} (h : Airflows P s) (h1 : s'.caps = s.caps) (h2 : s'.perCap = s.perCap) : Airflows P s' := by
  intro i q r
  rw [h1, h2]
  exact h i q r

theorem otherSpeed_returns (hp : Local power) (hw : Works u power d P) (hd : d ≠ 0) (hP0 : ∀ a, P a → a ≠ 0) {fullESP : ℝ} {fs n i : Nat} {s : Side}
    {b : Base} (hs : Ready n s) (hb : GoodFan u d b) (hP : Airflows P s) (hi : i < n) (h0 : i = 0 ∧ i ≠ fs ∨ ∃ a, HasAirflow s 0 a) :
    ∃ s' b', otherSpeed power fullESP fs s b i = .ok (s', b') ∧ Ready n s' ∧ GoodFan u d b' ∧ ∃ a, HasAirflow s' 0 a := by
  by_cases hfs : i = fs
  · refine ⟨s, b, by simp [otherSpeed, hfs], hs, hb, ?_⟩
    rcases h0 with h | h
    · exact absurd hfs h.2
    · exact h
  obtain ⟨s1, r1, R1⟩ := setAirflow_returns hs hi
  obtain ⟨⟨a, A1⟩, m1, m2, m3⟩ := setAirflow_ok r1
  obtain ⟨s2, b2, r2, R2, G2⟩ := addDesign_returns hd R1 hb A1 hi
  obtain ⟨-, -, -, A2, m4, m5, m6⟩ := addDesign_ok hb.1 A1 r2
  have H0 : ∃ a, HasAirflow s2 0 a := by
    by_cases hi0 : i = 0
    · subst hi0; exact ⟨a, A2⟩
    · rcases h0 with h | ⟨a0, h⟩
      · exact absurd h.1 hi0
      · exact ⟨a0, h.same ((m1 0 (Ne.symm hi0)).trans (m4 0 (Ne.symm hi0)))⟩
  obtain ⟨full, F⟩ := H0
  have hP2 : Airflows P s2 := (hP.congr m2 m3).congr m5 m6
  have hfull : full ≠ 0 := by
    obtain ⟨q, r, w1, w2, w3, -⟩ := F
    rw [w3]
    exact hP0 _ (hP2 0 q r w1 w2)
  obtain ⟨s3, b3, r3, R3, G3⟩ := addRated_returns (fullESP := fullESP) hw hd hfull R2 G2 A2 hP2 hi
  have hrun : otherSpeed power fullESP fs s b i = .ok (s3, b3) := by
    obtain ⟨_, _, _, _, _, w4⟩ := F
    simp [otherSpeed, hfs, r1, bind_ok, r2, numAt_eq_ok.2 w4, r3]
  obtain ⟨-, -, -, -, c1, c2, c3, -⟩ := addRated_ok G2.1 A2 r3
  obtain ⟨q, r, w1, w2, w3, w4⟩ := F
  exact ⟨s3, b3, hrun, R3, G3, full, q, r, by rw [c1, w1], by rw [c2, w2], w3, by rw [c3, w4]⟩

theorem otherSpeeds_returns (hp : Local power) (hw : Works u power d P) (hd : d ≠ 0) (hP0 : ∀ a, P a → a ≠ 0) {fullESP : ℝ} {fs n : Nat} :
    ∀ (l : List Nat) (s : Side) (b : Base), (∀ i ∈ l, i < n) → Ready n s → GoodFan u d b → Airflows P s → (∃ a, HasAirflow s 0 a) →
    ∃ s' b', otherSpeeds power fullESP fs l s b = .ok (s', b') ∧ Ready n s' ∧ GoodFan u d b' := by
  intro l
  induction l with
  | nil => intro s b _ hs hb _ _; exact ⟨s, b, rfl, hs, hb⟩
  | cons i l ih =>
    intro s b hl hs hb hP h0
    obtain ⟨s1, b1, r1, R1, G1, H1⟩ := otherSpeed_returns (fullESP := fullESP) (fs := fs) hp hw hd hP0 hs hb hP (hl i List.mem_cons_self) (.inr h0)
    obtain ⟨-, -, -, -, c1, c2⟩ := otherSpeed_ok hp hb.1 r1
    obtain ⟨s2, b2, r2, R2, G2⟩ := ih s1 b1 (fun j hj => hl j (List.mem_cons_of_mem _ hj)) R1 G1 (hP.congr c1 c2) H1
    exact ⟨s2, b2, by simp [otherSpeeds, r1, bind_ok, r2], R2, G2⟩

theorem otherSpeeds_range_returns (hp : Local power) (hw : Works u power d P) (hd : d ≠ 0) (hP0 : ∀ a, P a → a ≠ 0) {fullESP : ℝ} {fs n : Nat}
    (hfs : fs < n) {s : Side} {b : Base} (hs : Ready n s) (hb : GoodFan u d b) (hP : Airflows P s) (h0 : ∃ a, HasAirflow s fs a) :
    ∃ s' b', otherSpeeds power fullESP fs (List.range n) s b = .ok (s', b') ∧ Ready n s' ∧ GoodFan u d b' := by
  by_cases h : fs = 0
  · subst h
    exact otherSpeeds_returns hp hw hd hP0 _ s b (by simp) hs hb hP h0
  · obtain ⟨m, rfl⟩ : ∃ m, n = m + 1 := ⟨n - 1, by omega⟩
    obtain ⟨s1, b1, r1, R1, G1, H1⟩ := otherSpeed_returns (i := 0) (fullESP := fullESP) (fs := fs) hp hw hd hP0 hs hb hP (by omega)
      (.inl ⟨rfl, Ne.symm h⟩)
    obtain ⟨-, -, -, -, c1, c2⟩ := otherSpeed_ok hp hb.1 r1
    obtain ⟨s2, b2, r2, R2, G2⟩ := otherSpeeds_returns (n := m + 1) (fs := fs) (fullESP := fullESP) hp hw hd hP0 ((List.range m).map Nat.succ) s1 b1
      (by simp) R1 G1 (hP.congr c1 c2) H1
    exact ⟨s2, b2, by rw [List.range_succ_eq_map, otherSpeeds, r1, bind_ok]; exact r2, R2, G2⟩

end returns

theorem resnetInit_good (u : Units ℝ) {d : ℝ} (hd : 0 < d) : ∃ b, resnetInit u [d] = .ok b ∧ GoodFan u d b := by
  obtain ⟨b, h1, h2, -, h4, a0, h5, h6⟩ := Props.C13_resnet_constructs u [d] (by simp) (by simpa using hd)
  simp only [List.getElem?_cons_zero, Option.some.injEq] at h5
  subst h5
  exact ⟨b, h1, (init_single h1).1, by rw [h2]; rfl, h4, h6⟩

theorem setFan_returns (u : Units ℝ) {power : Base → Int → Option ℝ → Py ℝ} (hp : Local power) {P : ℝ → Prop} (hP0 : ∀ a, P a → 0 < a)
    (fullESP : ℝ) {nC nH cfs hfs : Nat} (hc : cfs < nC) (hh : hfs < nH) {c h : Side} (rc : Ready nC c) (rh : Ready nH h) (pc : Airflows P c)
    (ph : Airflows P h)
    (hw : ∀ qc rc qh rh, c.caps[cfs]? = some qc → c.perCap[cfs]? = some rc → h.caps[hfs]? = some qh → h.perCap[hfs]? = some rh →
      Works u power (max (qc * rc) (qh * rh)) P) :
    ∃ r, setFan u power fullESP cfs hfs c h = .ok r := by
  obtain ⟨c1, r1, R1⟩ := setAirflow_returns rc hc
  obtain ⟨h1, r2, R2⟩ := setAirflow_returns rh hh
  obtain ⟨⟨ac, A1⟩, -, p1, p2⟩ := setAirflow_ok r1
  obtain ⟨⟨ah, A2⟩, -, p3, p4⟩ := setAirflow_ok r2
  have hdc : 0 < ac := by
    obtain ⟨q, r, w1, w2, w3, -⟩ := A1
    rw [w3]; exact hP0 _ (pc cfs q r (by rw [← p1, w1]) (by rw [← p2, w2]))
  have hdh : 0 < ah := by
    obtain ⟨q, r, w1, w2, w3, -⟩ := A2
    rw [w3]; exact hP0 _ (ph hfs q r (by rw [← p3, w1]) (by rw [← p4, w2]))
  obtain ⟨d, hd⟩ : ∃ d, d = if ah ≤ ac then ac else ah := ⟨_, rfl⟩
  have hd0 : 0 < d := by rw [hd]; split <;> assumption
  have hwd : Works u power d P := by
    obtain ⟨q, r, w1, w2, w3, -⟩ := id A1
    obtain ⟨q', r', w1', w2', w3', -⟩ := id A2
    have := hw q r q' r' (by rw [← p1, w1]) (by rw [← p2, w2]) (by rw [← p3, w1']) (by rw [← p4, w2'])
    rw [← w3, ← w3'] at this
    have e : d = max ac ah := by
      rw [hd]
      split
      · rename_i hle; exact (max_eq_left hle).symm
      · rename_i hle; exact (max_eq_right (not_le.1 hle).le).symm
    rw [e]; exact this
  obtain ⟨b0, r5, G0⟩ := resnetInit_good u hd0
  obtain ⟨B0, B1, -, -⟩ := init_single r5
  have hP0' : ∀ a, P a → a ≠ 0 := fun a ha => (hP0 a ha).ne'
  have full : ∃ c2 h2 b1, fullSpeeds (decide (ah ≤ ac)) cfs hfs c1 h1 b0 = .ok (c2, h2, b1) ∧ Ready nC c2 ∧ Ready nH h2 ∧ GoodFan u d b1 := by
    unfold fullSpeeds
    split
    · obtain ⟨c2, m1, m2⟩ := mark_returns R1 b0 hc
      obtain ⟨h2, b1, m3, m4, m5⟩ := addDesign_returns hd0.ne' R2 G0 A2 hh
      exact ⟨c2, h2, b1, by simp [m1, m3, bind_ok, pure_eq_ok], m2, m4, m5⟩
    · obtain ⟨h2, m1, m2⟩ := mark_returns R2 b0 hh
      obtain ⟨c2, b1, m3, m4, m5⟩ := addDesign_returns hd0.ne' R1 G0 A1 hc
      exact ⟨c2, h2, b1, by simp [m1, m3, bind_ok, pure_eq_ok], m4, m2, m5⟩
  obtain ⟨c2, h2, b1, r6, R3, R4, G1⟩ := full
  obtain ⟨-, -, -, -, Ac, Ah, p5, p6, p7, p8⟩ := fullSpeeds_ok (ac := ac) (ah := ah) B0 (by rw [B1, hd]; simp) A1 A2 r6
  have pc2 : Airflows P c2 := (pc.congr p1 p2).congr p5 p6
  have ph2 : Airflows P h2 := (ph.congr p3 p4).congr p7 p8
  obtain ⟨c3, b2, r7, R5, G2⟩ := addRated_returns (fullESP := fullESP) hwd hd0.ne' hd0.ne' R3 G1 Ac pc2 hc
  obtain ⟨h3, b3, r8, R6, G3⟩ := addRated_returns (fullESP := fullESP) hwd hd0.ne' hd0.ne' R4 G2 Ah ph2 hh
  obtain ⟨-, -, -, -, p9, p10, p11, -⟩ := addRated_ok G1.1 Ac r7
  obtain ⟨-, -, -, -, p13, p14, p15, -⟩ := addRated_ok G2.1 Ah r8
  have Ac3 : HasAirflow c3 cfs ac := by
    obtain ⟨q, r, w1, w2, w3, w4⟩ := Ac
    exact ⟨q, r, by rw [p9, w1], by rw [p10, w2], w3, by rw [p11, w4]⟩
  have Ah3 : HasAirflow h3 hfs ah := by
    obtain ⟨q, r, w1, w2, w3, w4⟩ := Ah
    exact ⟨q, r, by rw [p13, w1], by rw [p14, w2], w3, by rw [p15, w4]⟩
  obtain ⟨c4, b4, r9, R7, G4⟩ := otherSpeeds_range_returns (fullESP := fullESP) hp hwd hd0.ne' hP0' hc R5 G3 (pc2.congr p9 p10) ⟨ac, Ac3⟩
  obtain ⟨h4, b5, r10, R8, G5⟩ := otherSpeeds_range_returns (fullESP := fullESP) hp hwd hd0.ne' hP0' hh R6 G4 (ph2.congr p13 p14) ⟨ah, Ah3⟩
  refine ⟨(c4, h4, b5), ?_⟩
  obtain ⟨_, _, _, _, _, w4⟩ := A1
  obtain ⟨_, _, _, _, _, w4'⟩ := A2
  rw [← R5.1] at r9
  rw [← R6.1] at r10
  unfold setFan
  simp only [r1, r2, bind_ok, numAt_eq_ok.2 w4, numAt_eq_ok.2 w4', ← hd, r5, r6, r7, r8, r9, r10, pure_eq_ok]

theorem psc_works (u : Units ℝ) {d : ℝ} (hd : d ≠ 0) : Works u (resnetPSCPower u) d (0 < ·) := by
  intro b k a p hb hk _
  have e1 : resnetAirflow b k (some p) = .ok a := by
    obtain ⟨hlt, rfl⟩ := List.getElem?_eq_some_iff.1 hk
    exact pyGetI_nat hlt
  have e0 : resnetAirflow b 0 (some p) = .ok d := by
    obtain ⟨hlt, h⟩ := List.getElem?_eq_some_iff.1 hb.2.1
    have := pyGetI_nat hlt
    rw [h] at this
    exact this
  simp [resnetPSCPower, resnetPSCEfficacy, resnetAirflowRatio, e1, e0, bind_ok, pdiv_ok hd, pure_eq_ok]

theorem bpm_works (u : Units ℝ) {brentq : Brentq} (hbr : BrentqSpec brentq) {d : ℝ} (hd : 0 < d) :
    Works u (resnetBPMPower u brentq) d (fun a => 0 < a ∧ (a / d) ^ 2 ≤ 3) := by
  rintro b k a p hb hk ⟨ha, hle⟩
  have hi := u.inH2O_pos
  have e1 : ∀ p, resnetAirflow b k p = .ok a := by
    intro p
    obtain ⟨hlt, rfl⟩ := List.getElem?_eq_some_iff.1 hk
    exact pyGetI_nat hlt
  have e0 : ∀ p, resnetAirflow b 0 p = .ok d := by
    intro p
    obtain ⟨hlt, h⟩ := List.getElem?_eq_some_iff.1 hb.2.1
    have := pyGetI_nat hlt
    rw [h] at this
    exact this
  obtain ⟨-, -, h2, h3⟩ := hb
  have hs : 0 < Real.sqrt (0.5 * u.inH2O) := Real.sqrt_pos.2 (by positivity)
  have hsq : Real.sqrt (0.5 * u.inH2O) ^ 2 = 0.5 * u.inH2O := Real.sq_sqrt (by positivity)
  have hval : (a * b.sysConst) ^ 2 = 0.5 * u.inH2O * (a / d) ^ 2 := by
    rw [h3, show (a * (Real.sqrt (0.5 * u.inH2O) / d)) ^ 2 = Real.sqrt (0.5 * u.inH2O) ^ 2 * (a / d) ^ 2 by ring, hsq]
  have hop := resnetOperating_ok hbr (b := b) (i := k) (a := a) (by rw [h3]; positivity) (by rw [h2]; positivity) hk ha.le
    (by rw [hval, h2]; nlinarith)
  have hr : 0 < a / d := div_pos ha hd
  have hne : (a * b.sysConst) ^ 2 ≠ 0 := by rw [hval]; positivity
  simp [resnetBPMPower, resnetBPMEfficacy, resnetAirflowRatio, hop, e1, e0, bind_ok, pdiv_ok hd.ne', pdiv_ok hne, ppow_pos hr, pure_eq_ok]

/-- C36, RESNET model, PSC motor: for any number of speeds, valid full-load indices and positive airflows the fan is made. -/
theorem C36_resnet_psc_made (u : Units ℝ) (brentq : Brentq) (fullESP : ℝ) (nC nH cfs hfs : Nat) (hc : cfs < nC) (hh : hfs < nH) (qc qh : List ℝ)
    (hqc : qc.length = nC) (hqh : qh.length = nH) (pc : ∀ q ∈ qc, 0 < q) (ph : ∀ q ∈ qh, 0 < q) :
    ∃ r, setFan u (motorPower u brentq true) fullESP cfs hfs (Side.start u nC qc none) (Side.start u nH qh none) = .ok r := by
  have hu := u.cfm_pos
  have ht := u.ton_pos
  have ready : ∀ (n : Nat) (q : List ℝ), q.length = n → Ready n (Side.start u n q none) := fun n q h =>
    ⟨h, by simp [Side.start, setDefault, makeList], by simp [Side.start], by simp [Side.start], by simp [Side.start], by simp [Side.start], by simp [Side.start]⟩
  have air : ∀ (n : Nat) (q : List ℝ), (∀ x ∈ q, 0 < x) → Airflows (0 < ·) (Side.start u n q none) := by
    intro n q hq i x r hx hr
    have h1 : 0 < x := hq x (List.mem_of_getElem? hx)
    have h2 : r = 400 * u.cfm / u.ton := by
      have := List.mem_of_getElem? hr
      simp [Side.start, setDefault, makeList] at this
      exact this.2
    rw [h2]; positivity
  refine setFan_returns u (psc_local u) (P := (0 < ·)) (fun a h => h) fullESP hc hh (ready nC qc hqc) (ready nH qh hqh) (air nC qc pc) (air nH qh ph) ?_
  intro q r q' r' h1 h2 h3 h4
  exact psc_works u (lt_max_of_lt_left (air nC qc pc cfs q r h1 h2)).ne'

/-- C36, RESNET model, BPM motor: with a solver that finds roots, and no speed's airflow above √3 times the larger full-speed airflow, the fan is made. -/
theorem C36_resnet_bpm_made (u : Units ℝ) (brentq : Brentq) (hbr : BrentqSpec brentq) (fullESP : ℝ) (nC nH cfs hfs : Nat) (qc qh : List ℝ) (q1 q2 : ℝ)
    (hqc : qc.length = nC) (hqh : qh.length = nH) (h1 : qc[cfs]? = some q1) (h2 : qh[hfs]? = some q2)
    (pc : ∀ q ∈ qc, 0 < q ∧ (q / max q1 q2) ^ 2 ≤ 3) (ph : ∀ q ∈ qh, 0 < q ∧ (q / max q1 q2) ^ 2 ≤ 3) :
    ∃ r, setFan u (motorPower u brentq false) fullESP cfs hfs (Side.start u nC qc none) (Side.start u nH qh none) = .ok r := by
  have hu := u.cfm_pos
  have ht := u.ton_pos
  have hpos : 0 < 400 * u.cfm / u.ton := by positivity
  have hc : cfs < nC := by rw [← hqc]; exact (List.getElem?_eq_some_iff.1 h1).1
  have hh : hfs < nH := by rw [← hqh]; exact (List.getElem?_eq_some_iff.1 h2).1
  have ready : ∀ (n : Nat) (q : List ℝ), q.length = n → Ready n (Side.start u n q none) := fun n q h =>
    ⟨h, by simp [Side.start, setDefault, makeList], by simp [Side.start], by simp [Side.start], by simp [Side.start], by simp [Side.start], by simp [Side.start]⟩
  have per : ∀ (n : Nat) (q : List ℝ) (i : Nat) (r : ℝ), (Side.start u n q none).perCap[i]? = some r → r = 400 * u.cfm / u.ton := by
    intro n q i r hr
    have := List.mem_of_getElem? hr
    simp [Side.start, setDefault, makeList] at this
    exact this.2
  have hq1 : 0 < q1 := (pc q1 (List.mem_of_getElem? h1)).1
  have hm : 0 < max q1 q2 := lt_max_of_lt_left hq1
  have air : ∀ (n : Nat) (q : List ℝ), (∀ x ∈ q, 0 < x ∧ (x / max q1 q2) ^ 2 ≤ 3) →
      Airflows (fun a => 0 < a ∧ (a / (max q1 q2 * (400 * u.cfm / u.ton))) ^ 2 ≤ 3) (Side.start u n q none) := by
    intro n q hq i x r hx hr
    obtain ⟨h1, h2⟩ := hq x (List.mem_of_getElem? hx)
    rw [per n q i r hr]
    refine ⟨by positivity, ?_⟩
    rwa [mul_div_mul_right _ _ hpos.ne']
  refine setFan_returns u (bpm_local u brentq) (fun a h => h.1) fullESP hc hh (ready nC qc hqc) (ready nH qh hqh) (air nC qc pc) (air nH qh ph) ?_
  intro q r q' r' e1 e2 e3 e4
  have e1' : q = q1 := by have := e1.symm.trans h1; simpa using this
  have e3' : q' = q2 := by have := e3.symm.trans h2; simpa using this
  rw [per _ _ _ _ e2, per _ _ _ _ e4, e1', e3', ← max_mul_of_nonneg _ _ hpos.le]
  exact bpm_works u hbr (by positivity)

/-- The hypotheses of `C36_resnet`, `C36_resnet_psc_made` and `C36_resnet_bpm_made` are met, e.g. by a two-speed unit. -/
example (u : Units ℝ) : ∃ brentq : Brentq, BrentqSpec brentq ∧
    (∃ c' h' b, setFan u (motorPower u brentq false) 100 0 0 (Side.start u 2 [2, 1] none) (Side.start u 2 [3, 1] none) = .ok (c', h', b)) ∧
    (∃ c' h' b, setFan u (motorPower u brentq true) 100 0 0 (Side.start u 2 [2, 1] none) (Side.start u 2 [3, 1] none) = .ok (c', h', b)) := by
  obtain ⟨brentq, hbr⟩ := Props.brentqSpec_satisfiable
  refine ⟨brentq, hbr, ?_, ?_⟩
  · obtain ⟨⟨c, h, b⟩, hr⟩ := C36_resnet_bpm_made u brentq hbr 100 2 2 0 0 [2, 1] [3, 1] 2 3 rfl rfl rfl rfl (by norm_num) (by norm_num)
    exact ⟨c, h, b, hr⟩
  · obtain ⟨⟨c, h, b⟩, hr⟩ := C36_resnet_psc_made u brentq 100 2 2 0 0 (by norm_num) (by norm_num) [2, 1] [3, 1] rfl rfl (by norm_num) (by norm_num)
    exact ⟨c, h, b, hr⟩

end Resdx.ResnetFan
