import Verif.Spec.UnitBuild
import Verif.Lemmas.ResnetSample
import Verif.Props.DefaultFan
import Verif.Props.BaseModel

/-! # Lemmas about the construction of units with the other performance models -/

set_option linter.unusedSectionVars false
set_option linter.unusedSimpArgs false

namespace Resdx.UnitBuild

open BaseModel Fan Spec
open ResnetFan (pySet_eq_ok)

variable {u : Units ℝ} {E : Env ℝ} {T : Coil.Tools}

/-! ## Steps of a successful construction -/

theorem build_gross {m : Class} {a : Args} {B : Built} (h : build u E T m a = .ok B) : ∃ g, grossOf u a (assign u a m) = .ok g := by
  simp only [build, bind_eq_ok] at h
  obtain ⟨-, -, -, -, g, hg, -⟩ := h
  exact ⟨g, hg⟩

theorem build_system {m : Class} {a : Args} {B : Built} (h : build u E T m a = .ok B) : setSystem m a.kwargs = .ok () := by
  simp only [build, bind_eq_ok] at h
  obtain ⟨_, h', -⟩ := h
  exact h'

theorem gross_assigned {a : Args} {p : Py Assigned} {g : Made} (h : grossOf u a p = .ok g) :
    p = .ok g.assigned ∧ (∃ l, Build.grossList a.nC g.assigned.coolCaps g.assigned.coolPower 1 = .ok l) := by
  simp only [grossOf, bind_eq_ok, pure_eq_ok, Except.ok.injEq] at h
  obtain ⟨s, hs, _, _, gc, hgc, _, _, rfl⟩ := h
  exact ⟨hs, gc, hgc⟩

theorem grossList_placeholders {n m : Nat} {caps : List ℝ} {sign : ℝ} {l : List (Option ℝ)} (h : Build.grossList n caps (List.replicate m none) sign = .ok l) : n = 0 := by
  by_contra hn
  unfold Build.grossList at h
  obtain ⟨-, h⟩ := comp_eq_ok.1 h
  obtain ⟨x, -, hx⟩ := h 0 (Nat.pos_of_ne_zero hn)
  simp only [bind_eq_ok, numAt_eq_ok] at hx
  obtain ⟨_, _, w, hw, -⟩ := hx
  rw [List.getElem?_replicate] at hw
  split at hw <;> simp at hw

theorem nC_pos {a : Args} (h : a.nC = 0) : a.cooling = .list [] := by
  unfold Args.nC numberOfSpeeds at h
  cases hc : a.cooling with
  | list l => rw [hc] at h; simp only at h; rw [List.length_eq_zero_iff.1 h]
  | num q =>
    rw [hc] at h
    simp only at h
    cases hs : a.staging with
    | none => rw [hs] at h; simp at h
    | some st => rw [hs] at h; cases st <;> simp [Staging.value] at h

theorem base_speeds {a : Args} {s : Assigned} (h : baseAssign u a = .ok s) : 0 < a.nC := by
  rcases Nat.eq_zero_or_pos a.nC with h0 | h0
  · have := nC_pos h0
    simp only [baseAssign, netCoolingCapacity, perSpeed, this, netHeatingCapacity, bind_eq_ok] at h
    obtain ⟨_, ⟨x, hx, -⟩, -⟩ := h
    simp [pyGet] at hx
  · exact h0

theorem title24_speeds {a : Args} {s : Assigned} (h : title24Assign u a = .ok s) : 0 < a.nC := by
  rcases Nat.eq_zero_or_pos a.nC with h0 | h0
  · have := nC_pos h0
    simp only [title24Assign, netCoolingCapacity, perSpeed, this, netHeatingCapacity, bind_eq_ok] at h
    obtain ⟨_, ⟨x, hx, -⟩, -⟩ := h
    simp [pyGet] at hx
  · exact h0

theorem nrel_speeds {a : Args} {s : Assigned} (h : nrelAssign u a = .ok s) : 0 < a.nC ∧ s.coolPower = List.replicate a.nC none := by
  constructor
  · rcases Nat.eq_zero_or_pos a.nC with h0 | h0
    · have := nC_pos h0
      simp only [nrelAssign, nrelNetCapacity, this, bind_eq_ok, Except.ok.injEq] at h
      obtain ⟨_, rfl, x, hx, d, hd, -⟩ := h
      simp only [pyAttr, Except.ok.injEq] at hx
      subst hx
      simp [pyGet] at hd
    · exact h0
  · simp only [nrelAssign] at h
    cases hf : a.fan with
    | some f =>
      simp only [hf, bind_eq_ok, pure_eq_ok, Except.ok.injEq] at h
      obtain ⟨_, _, _, _, _, _, _, _, _, _, _, _, rfl⟩ := h
      rfl
    | none =>
      simp only [hf, bind_eq_ok, pure_eq_ok, Except.ok.injEq] at h
      obtain ⟨_, _, _, _, _, _, _, _, _, _, _, _, _, _, _, _, _, _, _, _, _, _, rfl⟩ := h
      rfl

theorem supplied_power {m : Class} {a : Args} {s : Assigned} {f : AnyFan} (hf : a.fan = some f) (h : assign u a m = .ok s) : s.coolPower = List.replicate a.nC none ∧ 0 < a.nC := by
  cases m with
  | constant =>
    refine ⟨?_, base_speeds h⟩
    simp only [assign, baseAssign, hf, bind_eq_ok, pure_eq_ok, Except.ok.injEq] at h
    obtain ⟨_, _, rfl⟩ := h
    rfl
  | carrier =>
    refine ⟨?_, base_speeds h⟩
    simp only [assign, baseAssign, hf, bind_eq_ok, pure_eq_ok, Except.ok.injEq] at h
    obtain ⟨_, _, rfl⟩ := h
    rfl
  | nrel => exact ⟨(nrel_speeds h).2, (nrel_speeds h).1⟩
  | title24 =>
    refine ⟨?_, title24_speeds h⟩
    simp only [assign, title24Assign, hf, bind_eq_ok, pure_eq_ok, Except.ok.injEq] at h
    obtain ⟨_, _, rfl⟩ := h
    rfl
  | resnet => simp [assign] at h

/-! ## The rating conditions and the coil data return -/

/-- The speed indices of a mode with `n` speeds are those of existing speeds. -/
structure RolesFit (st : Staging) (n : Nat) (r : Roles) : Prop where
  full : r.full < n
  boost : ∀ b, r.boost = some b → b < n
  intermediate : st = .varSpeed → r.intermediate < n
  low : st ≠ .single → ∃ l, r.low = some l ∧ l < n

theorem points_return {S : Sys ℝ} {st : Staging} {nC nH : Nat} {rc rh : Roles} (hrc : RolesFit st nC rc) (hrh : RolesFit st nH rh)
    (hC : ∀ i < nC, ∀ o, ∃ c, S.makeCondition E false i none o = .ok c) (hH : ∀ i < nH, ∀ o, ∃ c, S.makeCondition E true i none o = .ok c) :
    ∃ P, Ratings.setRatingConditions E S st rc rh = .ok P ∧ S.makeCondition E false rc.full = .ok P.aFull ∧ S.makeCondition E true rh.full = .ok P.h1Full ∧
      (st = .varSpeed → ∃ c, P.aInt = some c ∧ S.makeCondition E false rc.intermediate = .ok c) ∧
      (st ≠ .single → ∀ b, rc.boost = some b → ∃ c, P.aBoost = some c ∧ S.makeCondition E false b = .ok c) ∧
      (st ≠ .single → ∃ c l, P.aLow = some c ∧ rc.low = some l ∧ S.makeCondition E false l = .ok c) := by
  have tC : ∀ i < nC, ∀ db wb, ∃ c, Ratings.testAt E S false i db wb = .ok c := fun i hi db wb => hC i hi _
  have tH : ∀ i < nH, ∀ db wb, ∃ c, Ratings.testAt E S true i db wb = .ok c := fun i hi db wb => hH i hi _
  obtain ⟨c1, r1⟩ := hC _ hrc.full none
  obtain ⟨c2, r2⟩ := tC _ hrc.full 82 65
  obtain ⟨c3, r3⟩ := hH _ hrh.full none
  obtain ⟨c4, r4⟩ := tH _ hrh.full 35 33
  obtain ⟨c5, r5⟩ := tH _ hrh.full 17 15
  obtain ⟨c6, r6⟩ := tH _ hrh.full 5 3
  by_cases hs : st = .single
  · simp only [Ratings.setRatingConditions, r1, r2, r3, r4, r5, r6, bind_ok, if_pos hs, pure_eq_ok]
    refine ⟨_, rfl, rfl, rfl, ?_, fun h => absurd hs h, fun h => absurd hs h⟩
    intro h; rw [hs] at h; cases h
  · obtain ⟨l, hl, hl'⟩ := hrc.low hs
    obtain ⟨k, hk, hk'⟩ := hrh.low hs
    obtain ⟨d1, t1⟩ := hC _ hl' none
    obtain ⟨d2, t2⟩ := tC _ hl' 82 65
    obtain ⟨d3, t3⟩ := tC _ hl' 67 53.5
    obtain ⟨d4, t4⟩ := tH _ hk' 62 56.5
    obtain ⟨d5, t5⟩ := hH _ hk' none
    obtain ⟨d6, t6⟩ := tH _ hk' 35 33
    obtain ⟨d7, t7⟩ := tH _ hk' 17 15
    have low : ∀ P : DX.Points (Conditions ℝ), Ratings.setRatingConditions.low E S rc rh P = .ok { P with aLow := some d1, bLow := some d2, fLow := some d3, h0Low := some d4, h1Low := some d5, h2Low := some d6, h3Low := some d7 } := by
      intro P
      simp only [Ratings.setRatingConditions.low, hl, hk, Ratings.speedIndex, pyNum, bind_ok, t1, t2, t3, t4, t5, t6, t7, pure_eq_ok]
    have boost : ∀ P : DX.Points (Conditions ℝ), ∃ o, Ratings.setRatingConditions.boost E S rc P = .ok { P with aBoost := o } ∧
        ∀ b, rc.boost = some b → ∃ c, o = some c ∧ S.makeCondition E false b = .ok c := by
      intro P
      cases hb : rc.boost with
      | none => exact ⟨P.aBoost, by simp only [Ratings.setRatingConditions.boost, hb], by simp⟩
      | some b =>
        obtain ⟨e1, w1⟩ := hC _ (hrc.boost b hb) none
        refine ⟨some e1, by simp only [Ratings.setRatingConditions.boost, hb, w1, bind_ok, pure_eq_ok], ?_⟩
        intro b' hb'
        cases hb'
        exact ⟨e1, rfl, w1⟩
    by_cases hv : st = .varSpeed
    · obtain ⟨i1, j1⟩ := hC _ (hrc.intermediate hv) none
      obtain ⟨i2, j2⟩ := tC _ (hrc.intermediate hv) 87 69
      obtain ⟨i3, j3⟩ := tH _ (hrh.intermediate hv) 35 33
      obtain ⟨o, ho, ho'⟩ := boost { aFull := c1, bFull := c2, h1Full := c3, h2Full := c4, h3Full := c5, h4Full := c6, aInt := some i1, eInt := some i2, h2Int := some i3, aBoost := none, aLow := none,
                                      bLow := none, fLow := none, h0Low := none, h1Low := none, h2Low := none, h3Low := none }
      simp only [Ratings.setRatingConditions, r1, r2, r3, r4, r5, r6, bind_ok, if_neg hs, Ratings.setRatingConditions.intermediate, if_pos hv, j1, j2, j3, pure_eq_ok, ho, low]
      exact ⟨_, rfl, rfl, rfl, fun _ => ⟨_, rfl, rfl⟩, fun _ => ho', fun _ => ⟨_, _, rfl, hl, t1⟩⟩
    · obtain ⟨o, ho, ho'⟩ := boost { aFull := c1, bFull := c2, h1Full := c3, h2Full := c4, h3Full := c5, h4Full := c6, aInt := none, eInt := none, h2Int := none, aBoost := none, aLow := none,
                                      bLow := none, fLow := none, h0Low := none, h1Low := none, h2Low := none, h3Low := none }
      simp only [Ratings.setRatingConditions, r1, r2, r3, r4, r5, r6, bind_ok, if_neg hs, Ratings.setRatingConditions.intermediate, if_neg hv, pure_eq_ok, ho, low]
      exact ⟨_, rfl, rfl, rfl, fun h => absurd h hv, fun _ => ho', fun _ => ⟨_, _, rfl, hl, t1⟩⟩

theorem coilStep_return {f : (Conditions ℝ → Py ℝ) × (Conditions ℝ → Py ℝ)} {i n : Nat} {c : Conditions ℝ} {s t : ℝ} {r : ℝ × ℝ} (hi : i < n) (hc : c.flow.compressorSpeed = i) (h1 : f.1 c = .ok s)
    (h2 : f.2 c = .ok t) (h3 : Coil.ratedBypass T c s t = .ok r) {d : Build.CoilData} (d1 : d.shr.length = n) (d2 : d.bf.length = n) (d3 : d.ntu.length = n) :
    ∃ d', coilStep T f i c d = .ok d' ∧ d'.shr.length = n ∧ d'.bf.length = n ∧ d'.ntu.length = n := by
  have hat : Sys.at_ (d.shr.set i (some s)) i = .ok s := by simp [Sys.at_, pyGet, d1, hi, pyNum, bind_ok]
  have p1 : pySet d.shr i (some s) = .ok (d.shr.set i (some s)) := pySet_eq_ok.2 ⟨by omega, rfl⟩
  have p2 : pySet d.bf i (some r.1) = .ok (d.bf.set i (some r.1)) := pySet_eq_ok.2 ⟨by omega, rfl⟩
  have p3 : pySet d.ntu i (some r.2) = .ok (d.ntu.set i (some r.2)) := pySet_eq_ok.2 ⟨by omega, rfl⟩
  refine ⟨⟨d.shr.set i (some s), d.bf.set i (some r.1), d.ntu.set i (some r.2)⟩, ?_, by simpa using d1, by simpa using d2, by simpa using d3⟩
  simp only [coilStep, h1, bind_ok, p1, hc, hat, h2, h3, p2, p3, pure_eq_ok]

theorem coilData_return {S : Sys ℝ} {f : (Conditions ℝ → Py ℝ) × (Conditions ℝ → Py ℝ)} {st : Staging} {n : Nat} {rc : Roles} (hrc : RolesFit st n rc) {P : DX.Points (Conditions ℝ)}
    (hf : S.makeCondition E false rc.full = .ok P.aFull) (hint : st = .varSpeed → ∃ c, P.aInt = some c ∧ S.makeCondition E false rc.intermediate = .ok c)
    (hb : st ≠ .single → ∀ b, rc.boost = some b → ∃ c, P.aBoost = some c ∧ S.makeCondition E false b = .ok c)
    (hl : st ≠ .single → ∃ c l, P.aLow = some c ∧ rc.low = some l ∧ S.makeCondition E false l = .ok c)
    (step : ∀ i < n, ∀ c, S.makeCondition E false i = .ok c → c.flow.compressorSpeed = i ∧ ∃ s t r, f.1 c = .ok s ∧ f.2 c = .ok t ∧ Coil.ratedBypass T c s t = .ok r) :
    ∃ d, coilData T f n st rc P = .ok d ∧ d.shr.length = n := by
  have step' : ∀ i < n, ∀ c, S.makeCondition E false i = .ok c → ∀ d : Build.CoilData, d.shr.length = n → d.bf.length = n → d.ntu.length = n →
      ∃ d', coilStep T f i c d = .ok d' ∧ d'.shr.length = n ∧ d'.bf.length = n ∧ d'.ntu.length = n := by
    intro i hi c hc d d1 d2 d3
    obtain ⟨h1, s, t, r, h2, h3, h4⟩ := step i hi c hc
    exact coilStep_return hi h1 h2 h3 h4 d1 d2 d3
  obtain ⟨d, D, D1, D2, D3⟩ := step' _ hrc.full _ hf ⟨List.replicate n none, List.replicate n none, List.replicate n none⟩ (by simp) (by simp) (by simp)
  have low : st ≠ .single → ∀ d : Build.CoilData, d.shr.length = n → d.bf.length = n → d.ntu.length = n → ∃ d', coilData.low T f rc P d = .ok d' ∧ d'.shr.length = n := by
    intro hs d d1 d2 d3
    obtain ⟨c, l, p1, p2, p3⟩ := hl hs
    obtain ⟨l', q1, q2⟩ := hrc.low hs
    rw [p2] at q1; cases q1
    obtain ⟨d', G, G1, -⟩ := step' _ q2 _ p3 d d1 d2 d3
    exact ⟨d', by simp only [coilData.low, p2, Ratings.speedIndex, pyNum, bind_ok, p1, pyAttr, G], G1⟩
  cases hst : st with
  | single =>
    simp only [coilData, D, bind_ok, pure_eq_ok]
    exact ⟨_, rfl, D1⟩
  | two =>
    obtain ⟨d', G, G1⟩ := low (by rw [hst]; decide) d D1 D2 D3
    simp only [coilData, D, bind_ok, G]
    exact ⟨_, rfl, G1⟩
  | varSpeed =>
    obtain ⟨ci, p1, p2⟩ := hint hst
    obtain ⟨d1, H, H1, H2, H3⟩ := step' _ (hrc.intermediate hst) _ p2 d D1 D2 D3
    have hs : st ≠ .single := by rw [hst]; decide
    obtain ⟨d2, I, I1, I2, I3⟩ : ∃ d2, coilData.boost T f rc P d1 = .ok d2 ∧ d2.shr.length = n ∧ d2.bf.length = n ∧ d2.ntu.length = n := by
      cases hbo : rc.boost with
      | none => exact ⟨d1, by simp only [coilData.boost, hbo], H1, H2, H3⟩
      | some b =>
        obtain ⟨cb, q1, q2⟩ := hb hs b hbo
        obtain ⟨d2, I, I'⟩ := step' _ (hrc.boost b hbo) _ q2 d1 H1 H2 H3
        exact ⟨d2, by simp only [coilData.boost, hbo, q1, pyAttr, bind_ok, I], I'⟩
    obtain ⟨d', G, G1⟩ := low hs d2 I1 I2 I3
    simp only [coilData, D, bind_ok, p1, pyAttr, H, I, G]
    exact ⟨_, rfl, G1⟩

/-! ## The default fan of the base class -/

/-- What the base class assigns to the speeds of one mode with capacities `q`. -/
def RatedFan (u : Units ℝ) (q : List ℝ) (air pow : List (Option ℝ)) (speed : List Nat) (fan : AnyFan) : Prop :=
  ∀ (i : Nat) (x : ℝ), q[i]? = some x → air[i]? = some (some (x * (375 * u.cfm / u.ton))) ∧ pow[i]? = some (some (136.875 / u.ton * x)) ∧
    ∃ k : Nat, speed[i]? = some k ∧ ∀ p, fan.airflow k p = .ok (x * (375 * u.cfm / u.ton)) ∧ fan.power k p = .ok (136.875 / u.ton * x)

theorem setFan_exact (u : Units ℝ) {qc qh : List ℝ} {q0 : ℝ} (h0 : qc[0]? = some q0) (hq0 : q0 ≠ 0) :
    ∃ f : FanAssignment, setFan u qc.length qh.length qc qh = .ok f ∧ RatedFan u qc f.cool.airflow f.cool.power f.cool.speed ⟨f.fan.airflow, f.fan.power⟩ ∧
      RatedFan u qh f.heat.airflow f.heat.power f.heat.speed ⟨f.fan.airflow, f.fan.power⟩ := by
  have hu := u.cfm_pos
  have ht := u.ton_pos
  have hi := u.inH2O_pos
  have hk : ∀ x : ℝ, x * (375 * u.cfm / u.ton) * (0.365 / u.cfm) = 136.875 / u.ton * x := by intro x; field_simp; ring
  obtain ⟨c, c1, c2, -, c4⟩ := fanLoop_ok u qc 0 ⟨List.replicate qc.length none, List.replicate qc.length none, []⟩ [] (by simp) (by simp)
  obtain ⟨h, h1, h2, -, h4⟩ := fanLoop_ok u qh 0 ⟨List.replicate qh.length none, List.replicate qh.length none, []⟩
    (qc.map (· * (375 * u.cfm / u.ton))) (by simp) (by simp)
  obtain ⟨s, s1, s2, s3⟩ := constEff_init_list (qc.map (· * (375 * u.cfm / u.ton)) ++ qh.map (· * (375 * u.cfm / u.ton)))
    (0.5 * u.inH2O) (0.365 / u.cfm) (by positivity) (by
      cases qc with
      | nil => simp at h0
      | cons a l =>
        simp only [List.getElem?_cons_zero, Option.some.injEq] at h0
        subst h0
        simp only [List.map_cons, List.cons_append, List.headD_cons]
        positivity)
  have atSetting : ∀ (k : Nat) (a : ℝ), s.base.airflow[k]? = some a → ∀ p, s.airflow (k : Nat) p = .ok a ∧
      s.power (k : Nat) p = .ok (a * (0.365 / u.cfm)) := by
    intro k a hk p
    obtain ⟨hlt, hka⟩ := List.getElem?_eq_some_iff.1 hk
    have e1 : s.airflow (k : Nat) p = .ok a := by unfold ConstEff.airflow; rw [pyGetI_nat hlt, hka]
    refine ⟨e1, ?_⟩
    have hlt' : k < (List.replicate s.base.airflow.length (0.365 / u.cfm)).length := by simpa using hlt
    unfold ConstEff.power ConstEff.efficacy
    rw [e1, s3]
    simp only [← s2, pyGetI_nat hlt', bind_ok, pure_eq_ok]
    simp
  refine ⟨⟨c, h, s⟩, ?_, ?_, ?_⟩
  · simp only [setFan, c1, bind_ok, List.nil_append, h1, s1]
    rfl
  · intro i q hq
    obtain ⟨a1, a2⟩ := c4 i q hq
    have hlt := (List.getElem?_eq_some_iff.1 hq).1
    rw [← hk]
    refine ⟨by simpa using a1, by simpa using a2, i, ?_, ?_⟩
    · rw [c2]; simp [hlt]
    · refine atSetting i _ ?_
      rw [s2, List.getElem?_append_left (by simpa using hlt)]
      simp [hq]
  · intro i q hq
    obtain ⟨a1, a2⟩ := h4 i q hq
    have hlt := (List.getElem?_eq_some_iff.1 hq).1
    rw [← hk]
    refine ⟨by simpa using a1, by simpa using a2, qc.length + i, ?_, ?_⟩
    · rw [h2]; simp [hlt]
    · refine atSetting (qc.length + i) _ ?_
      rw [s2, List.getElem?_append_right (by simp)]
      simp [hq]

/-! ## Arguments -/

theorem capacities_iff {arg : NumArg ℝ} {n : Nat} {q : List ℝ} (h : Capacities arg n q) (hn : ∀ l, arg = .list l → n = l.length) : perSpeed n arg = q := by
  apply List.ext_getElem?
  intro i
  have hl : (perSpeed n arg).length = n := by
    cases arg with
    | num x => simp [perSpeed]
    | list l => simp [perSpeed, hn l rfl]
  by_cases hi : i < n
  · obtain ⟨x, hx, hs⟩ := h.2 i hi
    rw [hx]
    have := supplies_iff.2 hs
    simpa using this
  · rw [List.getElem?_eq_none (by omega), List.getElem?_eq_none (by rw [h.1]; omega)]

theorem order_ok {q : List ℝ} (h : Ordered q) : checkArrayOrder q = .ok () := by
  unfold checkArrayOrder
  rw [if_pos]
  rw [List.all_eq_true]
  intro p hp
  obtain ⟨i, hi⟩ := List.getElem?_of_mem hp
  rw [List.getElem?_zip_eq_some, List.getElem?_tail] at hi
  exact decide_eq_true (h.order i _ _ hi.1 hi.2)

theorem setSystem_ok {m : Class} : ∀ {l : List String}, setSystem m l = .ok () ↔ ∀ k ∈ l, k ∈ allowedKwargs m
  | [] => by simp [setSystem]
  | k :: l => by
    by_cases h : k ∈ allowedKwargs m
    · simp [setSystem, h, setSystem_ok (l := l)]
    · simp [setSystem, h]

theorem setSystem_error {m : Class} : ∀ {l : List String}, ¬ (∀ k ∈ l, k ∈ allowedKwargs m) → setSystem m l = .error .exception
  | [], h => by simp at h
  | k :: l, h => by
    by_cases hk : k ∈ allowedKwargs m
    · rw [setSystem, if_pos hk]
      apply setSystem_error
      intro h'
      exact h (by simpa [hk] using h')
    · rw [setSystem, if_neg hk]

theorem roles_fit {st : Staging} {n full : Nat} {i : Option Nat} (h : SpeedsExist st n full i) : RolesFit st n (roles n full i) := by
  obtain ⟨h1, h2, h3⟩ := h
  refine ⟨h1, ?_, h3, ?_⟩
  · intro b hb
    simp only [roles] at hb
    split at hb <;> simp at hb
    omega
  · intro hs
    have := h2 hs
    exact ⟨n - 1, by simp only [roles]; rw [if_pos (by omega)], by omega⟩

/-! ## The COPs of one mode -/

/-- The rated quantities agree with each other and the powers are positive. -/
def Usable (s : Rated ℝ) : Prop := ∀ i < s.n, ∃ q Q f p P c C, HasRatings s i q Q f p P c C ∧ p = P + f ∧ q = c * p ∧ Q = C * P ∧ 0 < P ∧ 0 < p

theorem cops_return {k sign : ℝ} (hk : 0 < k) (hk1 : k < 1) (hsign : sign = 1 ∨ sign = -1) {s : Rated ℝ} {net gross : Option (NumArg ℝ)} (hu : CopsUsable k s.n net gross)
    (hin : ∀ i < s.n, ∃ q, 0 < q ∧ HasInputs s i q (q + sign * (k * q)) (k * q)) :
    ∃ s1 s', applyOpt setNetCop net s = .ok s1 ∧ applyOpt setGrossCop gross s1 = .ok s' ∧ SameInputs s' s ∧ s'.grossCop.length = s.n ∧
      ((∀ l, gross ≠ some (.list l)) → Usable s') ∧ (gross = none → ∀ arg, net = some arg → ∀ (i : Nat) (c : ℝ), i < s.n → Supplies arg s.n i c → s'.netCop[i]? = some (some c)) := by
  obtain ⟨u1, u2, u3⟩ := hu
  have hQ : ∀ q, 0 < q → 0 < q + sign * (k * q) := by
    intro q hq
    have : k * q < q := by nlinarith
    rcases hsign with rfl | rfl <;> nlinarith
  -- the net COP
  obtain ⟨s1, e1, I1, L1, R1, N1⟩ : ∃ s1, applyOpt setNetCop net s = .ok s1 ∧ SameInputs s1 s ∧ (net.isSome → s1.grossCop.length = s.n) ∧ (net.isSome → Usable s1) ∧
      (∀ arg, net = some arg → s1.netCop = (perSpeed s.n arg).map some) := by
    cases net with
    | none => exact ⟨s, rfl, ⟨rfl, rfl, rfl, rfl⟩, by simp, by simp, by simp⟩
    | some arg =>
      obtain ⟨s1, e⟩ := setNetCop_returns (input := arg) (s := s) (by
        intro i hi
        obtain ⟨q, hq, H⟩ := hin i hi
        obtain ⟨c, h1, h2, h3⟩ := u2 arg rfl i hi
        refine ⟨q, _, _, c, H, h1, h2.ne', ?_⟩
        rw [Ne, div_eq_iff h2.ne']
        nlinarith)
      obtain ⟨p1, p2, p3, p4, p5, p6⟩ := setNetCop_eq_ok e
      refine ⟨s1, e, p1, fun _ => p5, fun _ => ?_, ?_⟩
      · intro i hi
        rw [p1.1] at hi
        obtain ⟨q, Q, f, p, P, c, C, H, h1, h2, h3, h4, h5⟩ := p6 i hi
        obtain ⟨q', hq', H'⟩ := hin i hi
        obtain ⟨c', g1, g2, g3⟩ := u2 arg rfl i hi
        have b1 := H.netCap; rw [p1.2.1, H'.netCap] at b1; cases b1
        have b2 := H.fan; rw [p1.2.2.1, H'.fan] at b2; cases b2
        have b3 := H.netCop; rw [p2, supplies_iff.2 g1] at b3; cases b3
        have b4 : k * q < q / c := by rw [lt_div_iff₀ g2]; nlinarith
        have b5 : 0 < k * q := by positivity
        refine ⟨_, Q, _, p, P, _, C, H, by rw [h4]; ring, by rw [h3]; field_simp, by rw [h5]; field_simp, by rw [h4, h3]; linarith, by rw [h3]; linarith⟩
      · intro arg' h; cases h; exact p2
  cases gross with
  | none =>
    have hn : net.isSome := by simpa using u1
    refine ⟨s1, s1, e1, rfl, I1, L1 hn, fun _ => R1 hn, ?_⟩
    intro _ arg ha i c hi hs
    rw [N1 arg ha]
    exact supplies_iff.2 hs
  | some g =>
    cases g with
    | list l =>
      refine ⟨s1, { s1 with grossCop := l.map some }, e1, rfl, I1, by simpa using u3 _ rfl, fun h => absurd rfl (h l), by simp⟩
    | num x =>
      have hx : 0 < x := u3 _ rfl
      obtain ⟨s', e⟩ := setGrossCop_returns (x := x) (s := s1) hx.ne' (by
        intro i hi
        rw [I1.1] at hi
        obtain ⟨q, hq, H⟩ := hin i hi
        refine ⟨q, _, _, ⟨by rw [I1.2.1]; exact H.netCap, by rw [I1.2.2.2]; exact H.grossCap, by rw [I1.2.2.1]; exact H.fan⟩, ?_⟩
        have := hQ q hq
        positivity)
      obtain ⟨p1, p2, p3, p4, p5, p6⟩ := setGrossCop_eq_ok e
      refine ⟨s1, s', e1, e, ⟨p1.1.trans I1.1, p1.2.1.trans I1.2.1, p1.2.2.1.trans I1.2.2.1, p1.2.2.2.trans I1.2.2.2⟩, by rw [p2]; simp [I1.1], fun _ => ?_, by simp⟩
      intro i hi
      rw [p1.1] at hi
      obtain ⟨q, Q, f, p, P, c, H, h1, h2, h3, h4, h5⟩ := p6 i hi
      rw [I1.1] at hi
      obtain ⟨q', hq', H'⟩ := hin i hi
      have b1 := H.grossCap; rw [p1.2.2.2, I1.2.2.2, H'.grossCap] at b1; cases b1
      have b2 := H.fan; rw [p1.2.2.1, I1.2.2.1, H'.fan] at b2; cases b2
      have b3 : 0 < P := by rw [h3]; exact div_pos (hQ q' hq') hx
      have b5 : 0 < k * q' := by positivity
      exact ⟨q, _, _, p, P, c, x, H, h4, by rw [h5]; field_simp, by rw [h3]; field_simp, b3, by rw [h4]; linarith⟩

/-! ## Construction with a constant model -/

theorem condition_at {S : Sys ℝ} {heating : Bool} {q : List ℝ} {air pow : List (Option ℝ)} {speed : List Nat} {fan : AnyFan} (hE : Build.IndoorAir E) (hR : RatedFan u q air pow speed fan)
    (hq : ∀ x ∈ q, 0 < x) (hcap : (if heating then S.netHeating else S.netCooling) = q) (hA : (if heating then S.heatingAirflow else S.coolingAirflow) = air)
    (hF : (if heating then S.ratedHeatingFanSpeed else S.ratedCoolingFanSpeed) = speed.map some) {i : Nat} {x : ℝ} (hx : q[i]? = some x) (o : Option (Psych.PsychState ℝ)) :
    ∃ c, S.makeCondition E heating i none o = .ok c ∧ c.indoor = defaultIndoor E heating ∧ c.flow.compressorSpeed = i ∧ c.flow.mass = some (x * (375 * u.cfm / u.ton) * E.rhoStd) := by
  have hcf := u.cfm_pos
  have hto := u.ton_pos
  have hr : 0 < 375 * u.cfm / u.ton := by positivity
  obtain ⟨hi, hx'⟩ := List.getElem?_eq_some_iff.1 hx
  have h0 : 0 < q.length := by omega
  obtain ⟨rho, r0, hrho⟩ := hE.2 heating
  have x0 := hq x (List.mem_of_getElem? hx)
  have y0 : (0 : ℝ) < q[0]'h0 := hq _ (List.getElem_mem _)
  obtain ⟨a1, -, k, a3, -⟩ := hR i x hx
  obtain ⟨b1, -⟩ := hR 0 _ (List.getElem?_eq_getElem h0)
  have hc := Sys.makeCondition_ok E S heating i none o rho (x * (375 * u.cfm / u.ton)) x (q[0]'h0 * (375 * u.cfm / u.ton)) (some k) r0 hE.1 (by positivity) x0.ne' (by positivity)
    hrho (by rw [hcap]; exact hx) (by rw [hA]; exact a1) (by rw [hA]; exact b1) (by rw [hF]; simp [a3])
  exact ⟨_, hc, rfl, rfl, rfl⟩

/-- A unit with the default fan of the base class and capacities `qc` and `qh`. -/
structure MadeBase (u : Units ℝ) (E : Env ℝ) (a : Args) (st : Staging) (qc qh : List ℝ) (B : Built) : Prop where
  staging : B.st = st
  netCool : B.sys.netCooling = qc
  netHeat : B.sys.netHeating = qh
  fanCool : RatedFan u qc B.sys.coolingAirflow B.made.assigned.coolPower (B.made.assigned.coolSpeed.getD []) B.made.assigned.fan
  fanHeat : RatedFan u qh B.sys.heatingAirflow B.made.assigned.heatPower (B.made.assigned.heatSpeed.getD []) B.made.assigned.fan
  speedCool : B.sys.ratedCoolingFanSpeed = (B.made.assigned.coolSpeed.getD []).map some
  speedHeat : B.sys.ratedHeatingFanSpeed = (B.made.assigned.heatSpeed.getD []).map some
  grossCool : ∀ (i : Nat) (q : ℝ), qc[i]? = some q → B.sys.grossCooling[i]? = some (some (q + 136.875 / u.ton * q))
  grossHeat : ∀ (i : Nat) (q : ℝ), qh[i]? = some q → B.sys.grossHeating[i]? = some (some (q - 136.875 / u.ton * q))
  copCool : B.sys.grossCoolingCop = B.cool.grossCop
  copHeat : B.sys.grossHeatingCop = B.heat.grossCop
  sideCool : B.cool.n = qc.length ∧ B.cool.netCap = qc ∧ B.cool.fanPower = B.made.assigned.coolPower ∧ B.cool.grossCap = B.sys.grossCooling
  sideHeat : B.heat.n = qh.length ∧ B.heat.netCap = qh ∧ B.heat.fanPower = B.made.assigned.heatPower ∧ B.heat.grossCap = B.sys.grossHeating
  consistentCool : (∀ l, a.grossCoolingCop ≠ some (.list l)) → Usable B.cool
  consistentHeat : (∀ l, a.grossHeatingCop ≠ some (.list l)) → Usable B.heat
  givenCool : a.grossCoolingCop = none → ∀ arg, a.netCoolingCop = some arg → ∀ (i : Nat) (c : ℝ), i < qc.length → Supplies arg qc.length i c → B.cool.netCop[i]? = some (some c)
  givenHeat : a.grossHeatingCop = none → ∀ arg, a.netHeatingCop = some arg → ∀ (i : Nat) (c : ℝ), i < qh.length → Supplies arg qh.length i c → B.heat.netCop[i]? = some (some c)
  crank : a.crankcase = none → ∀ q, qc[a.coolingFullSpeed]? = some q → B.crankcase = 10 * (q / u.ton)
  conditions : ∀ (heating : Bool) (i : Nat) (o : Option (Psych.PsychState ℝ)), i < (if heating then qh.length else qc.length) → ∃ c, B.sys.makeCondition E heating i none o = .ok c

theorem constant_returns {a : Args} {st : Staging} {qc qh : List ℝ} {q0 : ℝ} (hkw : ∀ k ∈ a.kwargs, k = "base_model") (hfan : a.fan = none) (hc : Capacities a.cooling a.nC qc)
    (hq0 : qc[0]? = some q0) (hh : Capacities (a.heating.getD (.num q0)) a.nH qh) (oc : Ordered qc) (oh : Ordered qh) (hst : stagingOf a.nH a.staging = .ok st)
    (sc : SpeedsExist st a.nC a.coolingFullSpeed a.coolingIntermediateSpeed) (sh : SpeedsExist st a.nH a.heatingFullSpeed a.heatingIntermediateSpeed)
    (ht : 136.875 < u.ton) (cc : CopsUsable (136.875 / u.ton) a.nC a.netCoolingCop a.grossCoolingCop) (ch : CopsUsable (136.875 / u.ton) a.nH a.netHeatingCop a.grossHeatingCop)
    (hE : Build.IndoorAir E)
    (hT : ∀ q ∈ qc, ∀ c : Conditions ℝ, c.indoor = defaultIndoor E false → c.flow.mass = some (q * (375 * u.cfm / u.ton) * E.rhoStd) →
      ∃ r, Coil.ratedBypass T c 0.7 (q + 136.875 / u.ton * q) = .ok r) : ∃ B, build u E T .constant a = .ok B ∧ MadeBase u E a st qc qh B := by
  have hto := u.ton_pos
  have k0 : (0 : ℝ) < 136.875 / u.ton := by positivity
  have k1 : 136.875 / u.ton < 1 := (div_lt_one hto).2 ht
  have lc : a.nC = qc.length := hc.1.symm
  have lh : a.nH = qh.length := hh.1.symm
  have n0 : 0 < a.nC := by rw [lc]; exact (List.getElem?_eq_some_iff.1 hq0).1
  have e1 : netCoolingCapacity a.nC a.cooling = qc := by
    refine capacities_iff hc ?_
    intro l hl; simp [Args.nC, numberOfSpeeds, hl]
  have e2 : netHeatingCapacity a.nH qc a.heating = .ok qh := by
    have : perSpeed a.nH (setDefault a.heating (.num q0) a.nH) = qh := by
      have hd : setDefault a.heating (.num q0) a.nH = a.heating.getD (.num q0) := by rcases a.heating with _ | (_ | _) <;> rfl
      rw [hd]
      refine capacities_iff hh ?_
      intro l hl
      cases h : a.heating with
      | none => rw [h] at hl; simp at hl
      | some x => rw [h] at hl; simp only [Option.getD_some] at hl; simp [Args.nH, numberOfSpeeds, h, hl]
    simp only [netHeatingCapacity, pyGet_eq_ok.2 hq0, bind_ok, pure_eq_ok, this]
  obtain ⟨f, hf, Fc, Fh⟩ := setFan_exact u (qh := qh) hq0 (oc.pos _ (List.mem_of_getElem? hq0)).ne'
  obtain ⟨s, hs, s1, s2, s3, s4, s5, s6, s7, s8, s9⟩ : ∃ s, assign u a .constant = .ok s ∧ s.coolCaps = qc ∧ s.heatCaps = qh ∧ s.coolAirflow = f.cool.airflow ∧ s.heatAirflow = f.heat.airflow ∧
      s.coolPower = f.cool.power ∧ s.heatPower = f.heat.power ∧ s.coolSpeed = some f.cool.speed ∧ s.heatSpeed = some f.heat.speed ∧ s.fan = ⟨f.fan.airflow, f.fan.power⟩ := by
    simp only [assign, baseAssign, e1, e2, bind_ok, hfan]
    rw [lc, lh, hf]
    exact ⟨_, rfl, rfl, rfl, rfl, rfl, rfl, rfl, rfl, rfl, rfl⟩
  obtain ⟨esp, hesp⟩ : ∃ p, ResnetFan.fullFlowPressure u a.ducted a.standard s.coolCaps = .ok p := by
    unfold ResnetFan.fullFlowPressure
    by_cases hd : a.ducted = false
    · exact ⟨0, if_pos hd⟩
    · rw [if_neg hd]
      cases a.standard with
      | ahri2023 => exact ⟨_, rfl⟩
      | ahri2017 =>
        simp only [s1, pyGet_eq_ok.2 hq0, bind_ok, pure_eq_ok]
        split
        · exact ⟨_, rfl⟩
        · split
          · exact ⟨_, rfl⟩
          · exact ⟨_, rfl⟩
  obtain ⟨gc, hgc⟩ := Build.grossList_returns (n := a.nC) (caps := s.coolCaps) (power := s.coolPower) (sign := 1) (by rw [s1, lc]) (by
    intro i c hc'; rw [s1] at hc'; rw [s5]; exact ⟨_, (Fc i c hc').2.1⟩)
  obtain ⟨gh, hgh⟩ := Build.grossList_returns (n := a.nH) (caps := s.heatCaps) (power := s.heatPower) (sign := -1) (by rw [s2, lh]) (by
    intro i c hc'; rw [s2] at hc'; rw [s6]; exact ⟨_, (Fh i c hc').2.1⟩)
  have Gc : ∀ (i : Nat) (q : ℝ), qc[i]? = some q → gc[i]? = some (some (q + 136.875 / u.ton * q)) := by
    intro i q hq
    have := Build.grossList_get hgc (i := i) (q := q) (w := 136.875 / u.ton * q) (by rw [lc]; exact (List.getElem?_eq_some_iff.1 hq).1) (by rw [s1]; exact hq) (by rw [s5]; exact (Fc i q hq).2.1)
    rw [this]; congr 2; ring
  have Gh : ∀ (i : Nat) (q : ℝ), qh[i]? = some q → gh[i]? = some (some (q - 136.875 / u.ton * q)) := by
    intro i q hq
    have := Build.grossList_get hgh (i := i) (q := q) (w := 136.875 / u.ton * q) (by rw [lh]; exact (List.getElem?_eq_some_iff.1 hq).1) (by rw [s2]; exact hq) (by rw [s6]; exact (Fh i q hq).2.1)
    rw [this]; congr 2; ring
  have hg : grossOf u a (assign u a .constant) = .ok ⟨s, esp, gc, gh⟩ := by
    simp only [grossOf, hs, bind_ok, hesp, hgc, hgh, pure_eq_ok]
  obtain ⟨cr, hcr, hcr'⟩ : ∃ c, crankcase u a s = .ok c ∧ (a.crankcase = none → ∀ q, qc[a.coolingFullSpeed]? = some q → c = 10 * (q / u.ton)) := by
    unfold crankcase
    cases a.crankcase with
    | some c => exact ⟨c, rfl, by simp⟩
    | none =>
      have hx : qc[a.coolingFullSpeed]? = some (qc[a.coolingFullSpeed]'(by rw [← lc]; exact sc.full)) := List.getElem?_eq_getElem _
      simp only [s1, pyGet_eq_ok.2 hx, bind_ok, pure_eq_ok]
      refine ⟨_, rfl, ?_⟩
      intro _ q hq
      rw [hx] at hq; cases hq; rfl
  set S0 := Made.sys a ⟨s, esp, gc, gh⟩ f.cool.speed f.heat.speed (List.replicate a.nC none) (List.replicate a.nH none) with hS0
  have condAt : ∀ (S : Sys ℝ), S.netCooling = qc → S.netHeating = qh → S.coolingAirflow = f.cool.airflow → S.heatingAirflow = f.heat.airflow → S.ratedCoolingFanSpeed = f.cool.speed.map some →
      S.ratedHeatingFanSpeed = f.heat.speed.map some → ∀ (heating : Bool) (i : Nat) (o : Option (Psych.PsychState ℝ)) (x : ℝ), (if heating then qh else qc)[i]? = some x →
      ∃ c, S.makeCondition E heating i none o = .ok c ∧ c.indoor = defaultIndoor E heating ∧ c.flow.compressorSpeed = i ∧ c.flow.mass = some (x * (375 * u.cfm / u.ton) * E.rhoStd) := by
    intro S t1 t2 t3 t4 t5 t6 heating i o x hx
    cases heating with
    | false => exact condition_at hE Fc oc.pos (by simpa using t1) (by simpa using t3) (by simpa using t5) hx o
    | true => exact condition_at hE Fh oh.pos (by simpa using t2) (by simpa using t4) (by simpa using t6) hx o
  have C0 := condAt S0 (by simp [hS0, Made.sys, s1]) (by simp [hS0, Made.sys, s2]) (by simp [hS0, Made.sys, s3]) (by simp [hS0, Made.sys, s4]) (by simp [hS0, Made.sys]) (by simp [hS0, Made.sys])
  have CC : ∀ i < a.nC, ∀ o, ∃ c, S0.makeCondition E false i none o = .ok c := by
    intro i hi o
    obtain ⟨c, hc', -⟩ := C0 false i o (qc[i]'(by omega)) (by simp)
    exact ⟨c, hc'⟩
  have CH : ∀ i < a.nH, ∀ o, ∃ c, S0.makeCondition E true i none o = .ok c := by
    intro i hi o
    obtain ⟨c, hc', -⟩ := C0 true i o (qh[i]'(by omega)) (by simp)
    exact ⟨c, hc'⟩
  obtain ⟨P, hP, P1, -, P3, P4, P5⟩ := points_return (E := E) (S := S0) (st := st) (roles_fit sc) (roles_fit sh) CC CH
  obtain ⟨coil, hcoil, coil1⟩ := coilData_return (T := T) (E := E) (S := S0)
    (f := shrAndTotal .constant S0 (Made.unit24 u a ⟨s, esp, gc, gh⟩ S0 (List.replicate a.nC none) (List.replicate a.nH none))) (roles_fit sc) P1 P3 P4 P5 (by
      intro i hi c hc'
      have hx : qc[i]? = some (qc[i]'(by omega)) := List.getElem?_eq_getElem _
      obtain ⟨c2, d1, d2, d3, d4⟩ := C0 false i none (qc[i]'(by omega)) (by simpa using hx)
      rw [hc'] at d1; cases d1
      obtain ⟨r, hr⟩ := hT _ (List.mem_of_getElem? hx) c d2 d4
      refine ⟨d3, _, _, r, rfl, ?_, hr⟩
      have hpos : 0 < qc[i]'(by omega) := oc.pos _ (List.mem_of_getElem? hx)
      have hQ : Constant.grossTotalCoolingCapacity S0 c = .ok (qc[i]'(by omega) + 136.875 / u.ton * qc[i]'(by omega)) := by
        simp only [Constant.grossTotalCoolingCapacity, d3, Sys.at_, hS0, Made.sys, pyGet_eq_ok.2 (Gc i _ hx), bind_ok, pyNum]
      have : ¬ (qc[i]'(by omega) + 136.875 / u.ton * qc[i]'(by omega) < 0) := not_lt.2 (by positivity)
      simp only [shrAndTotal, hQ, bind_ok, mul_one, Build.limitCheck_zero, this, if_false])
  obtain ⟨c1, c', E1, E2, E3, E4, E5, E6⟩ := cops_return (sign := 1) k0 k1 (.inl rfl) (s := { Rated.fresh a.nC s.coolCaps s.coolPower with grossCap := gc }) (net := a.netCoolingCop) (gross := a.grossCoolingCop) cc (by
    intro i hi
    have hi' : i < a.nC := hi
    have hx : qc[i]? = some (qc[i]'(by omega)) := List.getElem?_eq_getElem _
    refine ⟨_, oc.pos _ (List.mem_of_getElem? hx), ?_, ?_, ?_⟩
    · simpa [Rated.fresh, s1] using hx
    · rw [one_mul]; exact Gc i _ hx
    · simp only [Rated.fresh, s5]; exact (Fc i _ hx).2.1)
  obtain ⟨h1, h', H1, H2, H3, H4, H5, H6⟩ := cops_return (sign := -1) k0 k1 (.inr rfl) (s := { Rated.fresh a.nH s.heatCaps s.heatPower with grossCap := gh }) (net := a.netHeatingCop) (gross := a.grossHeatingCop) ch (by
    intro i hi
    have hi' : i < a.nH := hi
    have hx : qh[i]? = some (qh[i]'(by omega)) := List.getElem?_eq_getElem _
    refine ⟨_, oh.pos _ (List.mem_of_getElem? hx), ?_, ?_, ?_⟩
    · simpa [Rated.fresh, s2] using hx
    · have := Gh i _ hx
      rw [neg_one_mul, ← sub_eq_add_neg]; exact this
    · simp only [Rated.fresh, s6]; exact (Fh i _ hx).2.1)
  have hcops : cops a ⟨s, esp, gc, gh⟩ = .ok (c', h') := by
    unfold cops
    rw [if_neg, if_neg]
    · simp only [E1, E2, H1, H2, bind_ok, pure_eq_ok]
    · rintro ⟨x1, x2⟩; rcases ch.1 with h | h <;> simp_all
    · rintro ⟨x1, x2⟩; rcases cc.1 with h | h <;> simp_all
  have hfin : finalChecks a.nC a.nH s.coolCaps coil.shr h'.grossCop s.heatCaps = .ok () := by
    have H4' : h'.grossCop.length = a.nH := H4
    simp only [finalChecks, checkArrayLengths, checkArrayLength, s1, s2, ← lc, ← lh, coil1, H4', ne_eq, not_true, if_false, bind_ok, order_ok oc, order_ok oh]
  have hsys : setSystem .constant a.kwargs = .ok () := setSystem_ok.2 (by intro k hk; rw [hkw k hk]; decide)
  refine ⟨{ made := ⟨s, esp, gc, gh⟩, sys := Made.sys a ⟨s, esp, gc, gh⟩ f.cool.speed f.heat.speed c'.grossCop h'.grossCop, st, points := P, coil, cool := c', heat := h', crankcase := cr }, ?_, ?_⟩
  · simp only [build, hsys, bind_ok, hst, hg, hcr, s7, s8, pyNum, ← hS0, hP, hcoil, hcops, hfin, pure_eq_ok]
  · refine { staging := rfl, netCool := s1, netHeat := s2, fanCool := ?_, fanHeat := ?_, speedCool := ?_, speedHeat := ?_, grossCool := Gc, grossHeat := Gh, copCool := rfl, copHeat := rfl, sideCool := ?_,
             sideHeat := ?_, consistentCool := E5, consistentHeat := H5, givenCool := ?_, givenHeat := ?_, crank := hcr', conditions := ?_ }
    · simp only [Made.sys, s3, s5, s7, s9, Option.getD_some]; exact Fc
    · simp only [Made.sys, s4, s6, s8, s9, Option.getD_some]; exact Fh
    · simp only [Made.sys, s7, Option.getD_some]
    · simp only [Made.sys, s8, Option.getD_some]
    · exact ⟨E3.1.trans lc, E3.2.1.trans s1, E3.2.2.1, E3.2.2.2⟩
    · exact ⟨H3.1.trans lh, H3.2.1.trans s2, H3.2.2.1, H3.2.2.2⟩
    · intro hn arg ha i c hi hs'
      rw [← lc] at hi hs'
      exact E6 hn arg ha i c hi hs'
    · intro hn arg ha i c hi hs'
      rw [← lh] at hi hs'
      exact H6 hn arg ha i c hi hs'
    · intro heating i o hi
      obtain ⟨x, hx⟩ : ∃ x, (if heating then qh else qc)[i]? = some x := by
        cases heating
        · exact ⟨_, List.getElem?_eq_getElem (by simpa using hi)⟩
        · exact ⟨_, List.getElem?_eq_getElem (by simpa using hi)⟩
      obtain ⟨c, hc', -⟩ := condAt (Made.sys a ⟨s, esp, gc, gh⟩ f.cool.speed f.heat.speed c'.grossCop h'.grossCop) s1 s2 s3 s4 rfl rfl heating i o x hx
      exact ⟨c, hc'⟩

/-! ## The performance of a unit with a constant model -/

theorem constant_cooling {a : Args} {st : Staging} {qc qh : List ℝ} {B : Built} (M : MadeBase u E a st qc qh B) {i : Nat} {q : ℝ} (hq : qc[i]? = some q) (q0 : 0 < q) {o c} (hc : B.sys.makeCondition E false i none o = .ok c) :
    B.constant.netTotalCoolingCapacity (some c) = .ok q ∧ ((∀ l, a.grossCoolingCop ≠ some (.list l)) → ∃ cop, B.cool.netCop[i]? = some (some cop) ∧ B.constant.netTotalCoolingCOP (some c) = .ok cop) := by
  have hto := u.ton_pos
  have k0 : (0 : ℝ) < 136.875 / u.ton := by positivity
  obtain ⟨rho, pr, air, cap, fs, -, -, -, -, -, -, -, -, hfs, rfl⟩ := Sys.makeCondition_spec E B.sys false i none o c hc
  obtain ⟨-, hw, k, hk, hfan⟩ := M.fanCool i q hq
  have hfs' : fs = some k := by
    simp only [Bool.false_eq_true, if_false, M.speedCool, List.getElem?_map, hk, Option.map_some, Option.some.injEq] at hfs
    exact hfs.symm
  subst hfs'
  have hF : ∀ x, B.made.assigned.fan.power k (some x) = .ok (136.875 / u.ton * q) := fun x => (hfan (some x)).2
  have hG := M.grossCool i q hq
  have n1 : ¬ (q + 136.875 / u.ton * q < 0) := not_lt.2 (by positivity)
  have cap' : B.constant.netTotalCoolingCapacity (some { heating := false, indoor := (none : Option _).getD (defaultIndoor E false), outdoor := o.getD (defaultOutdoor E false), flow := ratedFlow rho E.rhoStd i (some k) pr air cap }) = .ok q := by
    simp only [DX.Performance.netTotalCoolingCapacity, DX.Performance.grossTotalCoolingCapacity, DX.Performance.coolingFanHeat, DX.Performance.coolingFanPower, Built.constant, Constant.unit, Option.getD_some, Built.fanPower,
      ratedFlow, pyNum, pyAttr, bind_ok, Constant.grossTotalCoolingCapacity, Sys.at_, pyGet_eq_ok.2 hG, mul_one, Build.limitCheck_zero, n1, if_false, hF, pure_eq_ok]
    congr 1; ring
  refine ⟨cap', ?_⟩
  intro hl
  obtain ⟨q', Q, f, p, P, cop, C, H, e1, e2, e3, P0, p0⟩ := M.consistentCool hl i (by rw [M.sideCool.1]; exact (List.getElem?_eq_some_iff.1 hq).1)
  have b1 := H.netCap; rw [M.sideCool.2.1, hq] at b1; cases b1
  have b2 := H.fan; rw [M.sideCool.2.2.1, hw] at b2; cases b2
  have b3 := H.grossCap; rw [M.sideCool.2.2.2, hG] at b3; cases b3
  have hC : C ≠ 0 := by
    rintro rfl
    have : 0 < q + 136.875 / u.ton * q := by positivity
    rw [e3] at this; simp at this
  have hP : (q + 136.875 / u.ton * q) / C = P := by rw [div_eq_iff hC, e3]; ring
  have hcop : B.sys.grossCoolingCop[i]? = some (some C) := by rw [M.copCool]; exact H.grossCop
  have n2 : ¬ (P < 0) := not_lt.2 P0.le
  have pow' : B.constant.netCoolingPower (some { heating := false, indoor := (none : Option _).getD (defaultIndoor E false), outdoor := o.getD (defaultOutdoor E false), flow := ratedFlow rho E.rhoStd i (some k) pr air cap }) = .ok p := by
    simp only [DX.Performance.netCoolingPower, DX.Performance.grossCoolingPower, DX.Performance.coolingFanPower, Built.constant, Constant.unit, Option.getD_some, Built.fanPower,
      ratedFlow, pyNum, pyAttr, bind_ok, Constant.grossCoolingPower, Sys.at_, pyGet_eq_ok.2 hG, pyGet_eq_ok.2 hcop, pdiv_ok hC, hP, mul_one, Build.limitCheck_zero, n2, if_false, hF, pure_eq_ok, ← e1]
  refine ⟨cop, H.netCop, ?_⟩
  simp only [DX.Performance.netTotalCoolingCOP, cap', pow', bind_ok, pdiv_ok p0.ne']
  rw [e2, mul_div_cancel_right₀ _ p0.ne']

theorem constant_heating {a : Args} {st : Staging} {qc qh : List ℝ} {B : Built} (M : MadeBase u E a st qc qh B) (ht : 136.875 < u.ton) {i : Nat} {q : ℝ} (hq : qh[i]? = some q) (q0 : 0 < q) {o c}
    (hc : B.sys.makeCondition E true i none o = .ok c) :
    B.constant.netSteadyHeatingCapacity (some c) = .ok q ∧ B.constant.netIntegratedHeatingCapacity (some c) = .ok q ∧
      ((∀ l, a.grossHeatingCop ≠ some (.list l)) → ∃ cop, B.heat.netCop[i]? = some (some cop) ∧ B.constant.netSteadyHeatingCOP (some c) = .ok cop ∧ B.constant.netIntegratedHeatingCOP (some c) = .ok cop) := by
  have hto := u.ton_pos
  have k0 : (0 : ℝ) < 136.875 / u.ton := by positivity
  have k1 : 136.875 / u.ton < 1 := (div_lt_one hto).2 ht
  obtain ⟨rho, pr, air, cap, fs, -, -, -, -, -, -, -, -, hfs, rfl⟩ := Sys.makeCondition_spec E B.sys true i none o c hc
  obtain ⟨-, hw, k, hk, hfan⟩ := M.fanHeat i q hq
  have hfs' : fs = some k := by
    simp only [if_true, M.speedHeat, List.getElem?_map, hk, Option.map_some, Option.some.injEq] at hfs
    exact hfs.symm
  subst hfs'
  have hF : ∀ x, B.made.assigned.fan.power k (some x) = .ok (136.875 / u.ton * q) := fun x => (hfan (some x)).2
  have hG := M.grossHeat i q hq
  have hs : q - 136.875 / u.ton * q + 136.875 / u.ton * q = q := by ring
  generalize hcond : ({ heating := true, indoor := (none : Option _).getD (defaultIndoor E true), outdoor := o.getD (defaultOutdoor E true), flow := ratedFlow rho E.rhoStd i (some k) pr air cap } : Conditions ℝ) = c at *
  have f1 : c.flow.compressorSpeed = i := by rw [← hcond]; rfl
  have f2 : c.flow.fanSpeed = some k := by rw [← hcond]; rfl
  have f3 : c.flow.esp = some pr := by rw [← hcond]; rfl
  have cap1 : B.constant.netSteadyHeatingCapacity (some c) = .ok q := by
    simp only [DX.Performance.netSteadyHeatingCapacity, DX.Performance.grossSteadyHeatingCapacity, DX.Performance.heatingFanPower, Built.constant, Constant.unit, Option.getD_some, Built.fanPower,
      f1, f2, f3, pyNum, pyAttr, bind_ok, Constant.grossSteadyHeatingCapacity, Sys.at_, pyGet_eq_ok.2 hG, mul_one, hF, pure_eq_ok, hs]
  have cap2 : B.constant.netIntegratedHeatingCapacity (some c) = .ok q := by
    simp only [DX.Performance.netIntegratedHeatingCapacity, DX.Performance.grossIntegratedHeatingCapacity, DX.Performance.heatingFanPower, Built.constant, Constant.unit, Option.getD_some, Built.fanPower,
      f1, f2, f3, pyNum, pyAttr, bind_ok, Constant.grossSteadyHeatingCapacity, Sys.at_, pyGet_eq_ok.2 hG, mul_one, hF, pure_eq_ok, hs]
  refine ⟨cap1, cap2, ?_⟩
  intro hl
  obtain ⟨q', Q, f, p, P, cop, C, H, e1, e2, e3, P0, p0⟩ := M.consistentHeat hl i (by rw [M.sideHeat.1]; exact (List.getElem?_eq_some_iff.1 hq).1)
  have b1 := H.netCap; rw [M.sideHeat.2.1, hq] at b1; cases b1
  have b2 := H.fan; rw [M.sideHeat.2.2.1, hw] at b2; cases b2
  have b3 := H.grossCap; rw [M.sideHeat.2.2.2, hG] at b3; cases b3
  have hC : C ≠ 0 := by
    rintro rfl
    have : 0 < q - 136.875 / u.ton * q := by nlinarith
    rw [e3] at this; simp at this
  have hP : (q - 136.875 / u.ton * q) / C = P := by rw [div_eq_iff hC, e3]; ring
  have hcop : B.sys.grossHeatingCop[i]? = some (some C) := by rw [M.copHeat]; exact H.grossCop
  have pow1 : B.constant.netSteadyHeatingPower (some c) = .ok p := by
    simp only [DX.Performance.netSteadyHeatingPower, DX.Performance.grossSteadyHeatingPower, DX.Performance.heatingFanPower, Built.constant, Constant.unit, Option.getD_some, Built.fanPower,
      f1, f2, f3, pyNum, pyAttr, bind_ok, Constant.grossSteadyHeatingPower, Sys.at_, pyGet_eq_ok.2 hG, pyGet_eq_ok.2 hcop, pdiv_ok hC, hP, mul_one, hF, pure_eq_ok, ← e1]
  have pow2 : B.constant.netIntegratedHeatingPower (some c) = .ok p := by
    simp only [DX.Performance.netIntegratedHeatingPower, DX.Performance.grossIntegratedHeatingPower, DX.Performance.heatingFanPower, Built.constant, Constant.unit, Option.getD_some, Built.fanPower,
      f1, f2, f3, pyNum, pyAttr, bind_ok, Constant.grossSteadyHeatingPower, Sys.at_, pyGet_eq_ok.2 hG, pyGet_eq_ok.2 hcop, pdiv_ok hC, hP, mul_one, hF, pure_eq_ok, ← e1]
  refine ⟨cop, H.netCop, ?_, ?_⟩
  · simp only [DX.Performance.netSteadyHeatingCOP, cap1, pow1, bind_ok, pdiv_ok p0.ne']
    rw [e2, mul_div_cancel_right₀ _ p0.ne']
  · simp only [DX.Performance.netIntegratedHeatingCOP, cap2, pow2, bind_ok, pdiv_ok p0.ne']
    rw [e2, mul_div_cancel_right₀ _ p0.ne']

end Resdx.UnitBuild

/-! ## Which constructions cannot succeed -/

namespace Resdx.UnitBuild

open BaseModel Fan Spec

variable {u : Units ℝ} {E : Env ℝ} {T : Coil.Tools}

theorem build_coil {m : Class} {a : Args} {B : Built} (h : build u E T m a = .ok B) : ∃ S U P st d, coilData T (shrAndTotal m S U) a.nC st (roles a.nC a.coolingFullSpeed a.coolingIntermediateSpeed) P = .ok d := by
  simp only [build, bind_eq_ok] at h
  obtain ⟨_, _, _, _, _, _, _, _, _, _, _, _, _, _, _, h, _⟩ := h
  exact ⟨_, _, _, _, _, h⟩

theorem title24_length {a : Args} {s : Assigned} (hf : a.fan = none) (h : title24Assign u a = .ok s) :
    a.nC = 1 ∧ s.coolCaps.length = 1 ∧ ∃ x, s.heatPower = (List.replicate a.nH none).set 0 (some x) ∧ 0 < a.nH := by
  have hlen : (netCoolingCapacity a.nC a.cooling).length = a.nC := by
    cases hc : a.cooling with
    | num x => simp [netCoolingCapacity, perSpeed]
    | list l => simp [netCoolingCapacity, perSpeed, Args.nC, numberOfSpeeds, hc]
  simp only [title24Assign, hf, bind_eq_ok, pure_eq_ok, Except.ok.injEq] at h
  obtain ⟨qh, hq, d, hd, _, _, rfl⟩ := h
  generalize netCoolingCapacity a.nC a.cooling = qc at hlen hd hq
  have hn := hlen
  simp only [Title24.setFan, bind_eq_ok, Except.ok.injEq] at hd
  obtain ⟨eff, he, ⟨f1, f2, f3, f4, f5⟩, h1, ⟨g1, g2, g3, g4, g5⟩, h2, hd⟩ := hd
  simp only [pure_eq_ok, Except.ok.injEq] at hd
  subst hd
  match qc, hlen with
  | [], hl => simp [netHeatingCapacity, pyGet, bind_error] at hq
  | [x], hl =>
    simp only [List.length_cons, List.length_nil, zero_add] at hl
    refine ⟨hl.symm, by simp, ?_⟩
    simp only [Title24.fanLoop, pyGet, List.getElem?_cons_zero, bind_ok, bind_eq_ok] at h2
    obtain ⟨airs, ha, pows, hp, h2⟩ := h2
    rw [ResnetFan.pySet_eq_ok] at hp
    split at h2
    · simp at h2
    · simp only [Except.ok.injEq, Prod.mk.injEq] at h2
      obtain ⟨-, -, rfl, -⟩ := h2
      refine ⟨_, hp.2, ?_⟩
      have := hp.1
      simpa using this
  | x :: y :: l, hl =>
    exfalso
    simp only [Title24.fanLoop, pyGet, List.getElem?_cons_zero, bind_ok, bind_eq_ok] at h1
    obtain ⟨_, _, _, _, h1⟩ := h1
    split at h1
    · simp at h1
    · simp [bind_error] at h1

end Resdx.UnitBuild
