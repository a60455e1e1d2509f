import Verif.Props.UnitBuild
import Verif.Props.BaseModel

/-!
# C99: what every constructed unit satisfies; the default fan of the NREL model
-/

set_option linter.unusedSectionVars false
set_option linter.unusedSimpArgs false

namespace Resdx.UnitBuild

open Spec BaseModel Props Fan DX

variable {u : Units ℝ} {E : Env ℝ} {T : Coil.Tools}

/-- C99, every unit that can be made, whatever its model: it has one capacity, sensible heat ratio and heating COP per speed, and its capacities do not increase from one speed to the next. -/
theorem C99_checked {m : Class} {a : Args} {B : Built} (h : build u E T m a = .ok B) :
    B.made.assigned.coolCaps.length = a.nC ∧ B.made.assigned.heatCaps.length = a.nH ∧ B.coil.shr.length = a.nC ∧ B.heat.grossCop.length = a.nH ∧
      (∀ (i j : Nat) (x y : ℝ), i ≤ j → B.made.assigned.coolCaps[i]? = some x → B.made.assigned.coolCaps[j]? = some y → y ≤ x) ∧
      ∀ (i j : Nat) (x y : ℝ), i ≤ j → B.made.assigned.heatCaps[i]? = some x → B.made.assigned.heatCaps[j]? = some y → y ≤ x := by
  simp only [build, bind_eq_ok] at h
  obtain ⟨-, -, st, -, g, -, cr, -, spC, -, spH, -, P, -, coil, -, ⟨c, hh⟩, -, _, h1, h2⟩ := h
  simp only [pure_eq_ok, Except.ok.injEq] at h2
  subst h2
  obtain ⟨k1, k2, k3, k4, k5, k6⟩ := (C37_final_checks _ _ _ _ _ _).1.1 h1
  exact ⟨k1, k4, k2, k3, k5, k6⟩

/-- C99, NREL model: the default fan cannot be made from the list of efficacies `set_fan` collects, one per speed; the constructor of the fan multiplies the list by a number and raises `TypeError`. -/
theorem C99_nrel_fan_type {x : ℝ} {l : List ℝ} {p : ℝ} (hp : 0 ≤ p) (hx : x ≠ 0) (e : List ℝ) : NrelFan.init (x :: l) p (.list e) = .error .type := by
  have hst : Base.start p (x :: l) = .ok { designESP := p, n := 0, airflow := [], ratio := [], sysConst := Real.sqrt p / x } := by
    simp [Base.start, systemCurveConstant, pyGet, bind_ok, ppow_half hp, pdiv_ok hx, pure_eq_ok]
  simp only [NrelFan.init, hst, bind_ok, PyM.exec, addAll, NrelFan.addSpeed, PyM.bind_run, PyM.zoom_run, Base.addSpeed_run, List.headD_nil, if_neg hx, PyM.get_run, PyM.modify_run, PyM.lift_run]
  simp [pyGet, PyM.raise_run, hx]

/-- With one efficacy for all speeds it can be made. The power of a speed is the efficacy times the airflow of the first speed times the cube of its airflow ratio. -/
theorem nrel_addAll : ∀ (l : List ℝ) (s : NrelFan) (e : ℝ), s.efficacy = .scalar e → (s.base.airflow ++ l).headD 0 ≠ 0 →
    ∃ s', addAll NrelFan.addSpeed l s = (.ok (), s') ∧ s'.base.airflow = s.base.airflow ++ l ∧
      s'.designPower = s.designPower ++ l.map fun a => (s.base.airflow ++ l).headD 0 * e * (a / (s.base.airflow ++ l).headD 0) ^ 3 := by
  intro l
  induction l with
  | nil => intro s e _ _; exact ⟨s, rfl, by simp, by simp⟩
  | cons a l ih =>
    intro s e he h
    have h0 : s.base.airflow.headD a ≠ 0 := by
      cases hb : s.base.airflow with
      | nil => simpa [hb] using h
      | cons c cs => simpa [hb] using h
    have hd : (s.base.airflow ++ a :: l).headD 0 = s.base.airflow.headD a := by cases s.base.airflow <;> rfl
    have hg : pyGet (s.base.airflow ++ [a]) 0 = .ok (s.base.airflow.headD a) := by cases s.base.airflow <;> rfl
    obtain ⟨s', k1, k2, k3⟩ := ih { s with base := { s.base with airflow := s.base.airflow ++ [a], n := s.base.n + 1, ratio := s.base.ratio ++ [a / s.base.airflow.headD a] }
                                           powerRatio := s.powerRatio ++ [(a / s.base.airflow.headD a) ^ 3]
                                           designPower := s.designPower ++ [s.base.airflow.headD a * e * (a / s.base.airflow.headD a) ^ 3] } e he (by simpa using h)
    refine ⟨s', ?_, by simp [k2], ?_⟩
    · simp only [addAll, NrelFan.addSpeed, PyM.bind_run, PyM.zoom_run, Base.addSpeed_run, if_neg h0, PyM.get_run, PyM.modify_run, PyM.lift_run, hg, he, List.getLast?_concat]
      simp only [he] at k1
      exact k1
    · rw [k3]
      simp only [List.append_assoc, List.cons_append, List.nil_append, hd, List.map_cons]

/-- C99, NREL model: the fan with one efficacy for all speeds. -/
theorem C99_nrel_fan_scalar {x : ℝ} {l : List ℝ} {p : ℝ} (hp : 0 ≤ p) (hx : x ≠ 0) (e : ℝ) :
    ∃ f, NrelFan.init (x :: l) p (.scalar e) = .ok f ∧ ∀ (i : Nat) (a : ℝ), (x :: l)[i]? = some a → f.airflowAt i = .ok a ∧ f.powerAt i = .ok (x * e * (a / x) ^ 3) ∧
      (a ≠ 0 → f.efficacyAt i = .ok (e * (a / x) ^ 2)) := by
  have hst : Base.start p (x :: l) = .ok { designESP := p, n := 0, airflow := [], ratio := [], sysConst := Real.sqrt p / x } := by
    simp [Base.start, systemCurveConstant, pyGet, bind_ok, ppow_half hp, pdiv_ok hx, pure_eq_ok]
  obtain ⟨f, k1, k2, k3⟩ := nrel_addAll (x :: l) { base := { designESP := p, n := 0, airflow := [], ratio := [], sysConst := Real.sqrt p / x }, efficacy := .scalar e, powerRatio := [], designPower := [] } e rfl
    (by simpa using hx)
  refine ⟨f, by simp only [NrelFan.init, hst, bind_ok, PyM.exec, k1], fun i a ha => ?_⟩
  simp only [List.nil_append, List.headD_cons] at k2 k3
  have h1 : f.airflowAt i = .ok a := by simp only [NrelFan.airflowAt, k2]; exact pyGetI_natCast.2 ha
  have h2 : f.powerAt i = .ok (x * e * (a / x) ^ 3) := by
    simp only [NrelFan.powerAt, k3]
    refine pyGetI_natCast.2 ?_
    rw [List.getElem?_map, ha]; rfl
  refine ⟨h1, h2, fun h0 => ?_⟩
  simp only [NrelFan.efficacyAt, h1, h2, bind_ok, pdiv_ok h0]
  congr 1
  field_simp

/-- C99, NREL model, default fan: for one rated capacity per mode the constructor raises `TypeError`. -/
theorem C99_nrel_type_error {a : Args} {q h : ℝ} {st : Staging} (hkw : setSystem .nrel a.kwargs = .ok ()) (hst : stagingOf a.nH a.staging = .ok st) (hfan : a.fan = none) (hc : a.cooling = .num q) (hh : a.heating = none ∨ a.heating = some (.num h)) (hq : 0 < q)
    (hn : a.nC = 1 ∧ a.nH = 1) (hm : a.coolingFanSpeed = none ∧ a.heatingFanSpeed = none) : build u E T .nrel a = .error .type := by
  have hcf := u.cfm_pos
  have hto := u.ton_pos
  have hI := u.inH2O_pos
  have d1 : nrelNetCapacity (nrelCharacteristics u a).1 a.nC 1 a.cooling = .ok (some [q]) := by simp [nrelNetCapacity, hc, nrelCapacities, hn.1]
  have d2 : ∃ h', nrelNetCapacity (nrelCharacteristics u a).2 a.nH (-1) (a.heating.getD (.num q)) = .ok (some [h']) := by
    rcases hh with e | e <;> simp [nrelNetCapacity, e, nrelCapacities, hn.2]
  obtain ⟨h', d2⟩ := d2
  have c1 : ∃ e1, nrelFanLoop (nrelCharacteristics u a).1 false [q] 0 ([], []) = .ok ([q * (394.2 * u.cfm / u.ton)], e1) := by
    refine ⟨[nrelEfficacy u a.seer], ?_⟩
    simp [nrelFanLoop, nrelCharacteristics, hfan, nrelDefaults, hn.1, perCapAt, pyGet, pyAttr, bind_ok]
  obtain ⟨e1, c1⟩ := c1
  have c2 : ∃ e2 y, nrelFanLoop (nrelCharacteristics u a).2 false [q] 0 ([q * (394.2 * u.cfm / u.ton)], e1) = .ok (q * (394.2 * u.cfm / u.ton) :: [y], e2) := by
    refine ⟨e1 ++ [nrelEfficacy u a.seer], q * (384.1 * u.cfm / u.ton), ?_⟩
    simp [nrelFanLoop, nrelCharacteristics, hfan, nrelDefaults, hn.2, perCapAt, pyGet, pyAttr, bind_ok]
  obtain ⟨e2, y, c2⟩ := c2
  have key : nrelAssign u a = .error .type := by
    unfold nrelAssign
    simp only [d1, bind_ok, pyAttr, pyGet, List.getElem?_cons_zero, d2, hfan, hm.1, hm.2, Option.isSome_none, c1, c2, C99_nrel_fan_type (show (0 : ℝ) ≤ 0.2 * u.inH2O by positivity) (show q * (394.2 * u.cfm / u.ton) ≠ 0 by positivity), bind_error]
  simp only [build, hkw, hst, bind_ok, grossOf, assign, key, bind_error]

example : build Sample.units Sample.env Sample.tools .nrel { cooling := .num 10000, netCoolingCop := none, grossCoolingCop := none, netHeatingCop := none, defrost := Sample.defrost } = .error .type :=
  C99_nrel_type_error (st := .single) (q := 10000) (h := 0) rfl rfl rfl rfl (.inl rfl) (by norm_num) ⟨rfl, rfl⟩ ⟨rfl, rfl⟩

/-- The hypotheses of `C99_checked` hold for the staged sample unit. -/
example : ∃ B : Built, build Sample.units Sample.env Sample.tools .constant stagedArgs = .ok B ∧ B.made.assigned.coolCaps.length = 2 := by
  obtain ⟨B, h⟩ := stagedArgs_made
  exact ⟨B, h, (C99_checked h).1⟩

example : ∃ f, NrelFan.init [2, 1] 0.25 (.scalar 3) = .ok f ∧ f.powerAt 1 = .ok (3 / 4) := by
  obtain ⟨f, h1, h2⟩ := C99_nrel_fan_scalar (x := 2) (l := [1]) (p := 0.25) (by norm_num) (by norm_num) 3
  exact ⟨f, h1, by have := (h2 1 1 rfl).2.1; rw [show ((1 : Nat) : Int) = 1 from rfl] at this; rw [this]; norm_num⟩

end Resdx.UnitBuild
