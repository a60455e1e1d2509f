import Verif.Lemmas.BaseModel
import Verif.Lemmas.System
import Verif.Model.ResnetFan
import Verif.Props.Performance

/-!
# Constructor arguments and rating pressures: C34 (gross capacities), C38 (default conditions), C71, C72
-/

set_option linter.unusedSectionVars false
set_option linter.unusedSimpArgs false

namespace Resdx

open BaseModel

variable {K : Type} [Field K] [LinearOrder K] [IsStrictOrderedRing K]

/-! ## C71 -/

/-- C71: net cooling capacities. -/
theorem C71_cooling_capacity (n : Nat) (x : K) (l : List K) :
    (netCoolingCapacity n (.num x)).length = n ∧ (∀ i, i < n → (netCoolingCapacity n (.num x))[i]? = some x) ∧ netCoolingCapacity n (.list l) = l := by
  refine ⟨by simp [netCoolingCapacity, perSpeed], fun i hi => ?_, rfl⟩
  simp [netCoolingCapacity, perSpeed, hi]

/-- C71: net heating capacities; omitted, every speed gets the first cooling capacity. -/
theorem C71_heating_capacity (n : Nat) (q0 : K) (qs : List K) (x : K) (l : List K) :
    netHeatingCapacity n (q0 :: qs) none = .ok (List.replicate n q0) ∧ netHeatingCapacity n (q0 :: qs) (some (.num x)) = .ok (List.replicate n x) ∧
    netHeatingCapacity n (q0 :: qs) (some (.list l)) = .ok l ∧ ∀ a, netHeatingCapacity n ([] : List K) a = .error .index := by
  simp [netHeatingCapacity, pyGet, pyIdx, setDefault, perSpeed, bind_ok, pure_eq_ok, bind_error]

/-- C71: arguments whose default is a list: the value used at speed `i` is the scalar, the list entry or the default entry. -/
theorem C71_list_default (n : Nat) (d l : List K) (x : K) :
    makeList (setDefault none (.list d) n) = d ∧ makeList (setDefault (some (.num x)) (.list d) n) = List.replicate n x ∧
    makeList (setDefault (some (.list l)) (.list d) n) = l := by simp [setDefault, makeList]

/-- C71: arguments whose default is a number keep the form in which they are given. -/
theorem C71_number_default (n : Nat) (d : K) (a : NumArg K) : setDefault none (.num d) n = .num d ∧ setDefault (some a) (.num d) n = a := by
  cases a <;> simp [setDefault]

/-- C71: cycling coefficients default to 0.25. -/
theorem C71_cycling (n : Nat) (a : NumArg K) : cyclingDefault n (none : Option (NumArg K)) = .num (1 / 4) ∧ cyclingDefault n (some a) = a := by
  refine ⟨?_, by cases a <;> rfl⟩
  simp only [cyclingDefault, setDefault]; norm_num

/-- C71: airflow per capacity of a RESNET unit: 400 cfm/ton at every speed unless given. -/
theorem C71_airflow_per_capacity (u : Units ℝ) (n : Nat) (caps l : List ℝ) (x : ℝ) :
    (ResnetFan.Side.start u n caps none).perCap = List.replicate n (400 * u.cfm / u.ton) ∧
    (ResnetFan.Side.start u n caps (some (.num x))).perCap = List.replicate n x ∧ (ResnetFan.Side.start u n caps (some (.list l))).perCap = l := by
  simp [ResnetFan.Side.start, setDefault, makeList]

example : netHeatingCapacity 2 [(10 : ℚ), 6] none = .ok [10, 10] ∧ netCoolingCapacity 3 (.num (5 : ℚ)) = [5, 5, 5] := by decide +kernel

/-! ## C34: gross capacities -/

/-- C34: the gross cooling capacity of each speed is net capacity plus fan power, the gross heating capacity net capacity minus fan power. -/
theorem C34_gross_capacities (s : Rated K) (fp : List K) (hn : s.netCap.length = s.n) (hf : s.fanPower = fp.map some) (hl : fp.length = s.n) :
    grossCooling s = .ok { s with grossCap := (s.netCap.zipWith (· + ·) fp).map some } ∧
    grossHeating s = .ok { s with grossCap := (s.netCap.zipWith (· - ·) fp).map some } := by
  have hget : ∀ i, i < s.n → ∃ a b, s.netCap[i]? = some a ∧ fp[i]? = some b ∧ pyGet s.netCap i = .ok a ∧ numAt s.fanPower i = .ok b := by
    intro i hi
    have h1 : i < s.netCap.length := hn ▸ hi
    have h2 : i < fp.length := hl ▸ hi
    refine ⟨s.netCap[i], fp[i], by simp [h1], by simp [h2], pyGet_eq_ok.2 (by simp [h1]), ?_⟩
    have : pyGet (fp.map some) i = .ok (some fp[i]) := pyGet_eq_ok.2 (by simp [h2])
    simp [numAt, hf, this, bind_ok, pyNum]
  have hcomp : ∀ (op : K → K → K), comp s.n (fun i => do return op (← pyGet s.netCap i) (← numAt s.fanPower i)) = .ok ((s.netCap.zipWith op fp).map some) := by
    intro op
    have : (List.range s.n).mapM (fun i => do return op (← pyGet s.netCap i) (← numAt s.fanPower i)) = (.ok (s.netCap.zipWith op fp) : Py (List K)) := by
      rw [mapM_range_ok_iff]
      refine ⟨by simp [hn, hl], fun i hi => ?_⟩
      obtain ⟨a, b, h1, h2, h3, h4⟩ := hget i hi
      have hi1 : i < s.netCap.length := hn ▸ hi
      have hi2 : i < fp.length := hl ▸ hi
      have e1 : s.netCap[i] = a := by simpa [hi1] using h1
      have e2 : fp[i] = b := by simpa [hi2] using h2
      simp [h3, h4, bind_ok, pure_eq_ok, List.getElem?_zipWith, h1, h2]
    unfold comp
    rw [this]; rfl
  constructor
  · unfold grossCooling; rw [hcomp (· + ·)]; rfl
  · unfold grossHeating; rw [hcomp (· - ·)]; rfl

example : grossCooling (Rated.fresh 2 [(10 : ℚ), 6] [some 1, some (1 / 2)]) = .ok { Rated.fresh 2 [(10 : ℚ), 6] [some 1, some (1 / 2)] with grossCap := [some 11, some (13 / 2)] } ∧
    grossHeating (Rated.fresh 2 [(10 : ℚ), 6] [some 1, some (1 / 2)]) = .ok { Rated.fresh 2 [(10 : ℚ), 6] [some 1, some (1 / 2)] with grossCap := [some 9, some (11 / 2)] } := by
  decide +kernel

/-! ## C38: default conditions -/

/-- C38: without conditions every cooling accessor reports the A test and every heating accessor the H1 test. -/
theorem C38_defaults {C : Type} (U : DX.Performance C K) :
    U.coolingFanPower none = U.fanPower U.aFull ∧ U.coolingFanHeat none = U.fanPower U.aFull ∧ U.heatingFanPower none = U.fanPower U.h1Full ∧
    U.grossTotalCoolingCapacity none = U.grossTotalCoolingCapacity (some U.aFull) ∧ U.grossSensibleCoolingCapacity none = U.grossSensibleCoolingCapacity (some U.aFull) ∧
    U.grossCoolingPower none = U.grossCoolingPower (some U.aFull) ∧ U.netTotalCoolingCapacity none = U.netTotalCoolingCapacity (some U.aFull) ∧
    U.netSensibleCoolingCapacity none = U.netSensibleCoolingCapacity (some U.aFull) ∧
    U.netCoolingPower none = U.netCoolingPower (some U.aFull) ∧ U.netTotalCoolingCOP none = U.netTotalCoolingCOP (some U.aFull) ∧
    U.grossSteadyHeatingCapacity none = U.grossSteadyHeatingCapacity (some U.h1Full) ∧ U.grossSteadyHeatingPower none = U.grossSteadyHeatingPower (some U.h1Full) ∧
    U.netSteadyHeatingCapacity none = U.netSteadyHeatingCapacity (some U.h1Full) ∧ U.netSteadyHeatingPower none = U.netSteadyHeatingPower (some U.h1Full) ∧
    U.netIntegratedHeatingCapacity none = U.netIntegratedHeatingCapacity (some U.h1Full) ∧
    U.netIntegratedHeatingPower none = U.netIntegratedHeatingPower (some U.h1Full) ∧ U.netSteadyHeatingCOP none = U.netSteadyHeatingCOP (some U.h1Full) ∧
    U.netIntegratedHeatingCOP none = U.netIntegratedHeatingCOP (some U.h1Full) := by
  refine ⟨rfl, rfl, rfl, rfl, rfl, rfl, rfl, rfl, rfl, rfl, rfl, rfl, rfl, rfl, rfl, rfl, rfl, rfl⟩

/-- C38: with conditions each accessor asks the fan and the model about exactly these conditions. -/
theorem C38_conditions {C : Type} (U : DX.Performance C K) (c : C) (f q a p b : K) (hf : U.fanPower c = .ok f) (hq : U.heatCap c = .ok q) (ha : U.heatCapCharge c = .ok a)
    (hp : U.heatPow c = .ok p) (hb : U.heatPowCharge c = .ok b) :
    U.coolingFanPower (some c) = .ok f ∧ U.heatingFanPower (some c) = .ok f ∧ U.netSteadyHeatingCapacity (some c) = .ok (q * a + f) ∧
    U.netSteadyHeatingPower (some c) = .ok (p * b + f) := by
  simp [DX.Performance.coolingFanPower, DX.Performance.heatingFanPower, DX.Performance.netSteadyHeatingCapacity, DX.Performance.netSteadyHeatingPower,
    DX.Performance.grossSteadyHeatingCapacity, DX.Performance.grossSteadyHeatingPower, hf, hq, ha, hp, hb, bind_ok, pure_eq_ok]

/-! ## C72: rating pressures -/

/-- C72: the full-flow rating pressure. -/
theorem C72_full_flow (u : Units ℝ) (std : ResnetFan.Standard) (q : ℝ) (qs : List ℝ) :
    ResnetFan.fullFlowPressure u false std (q :: qs) = .ok 0 ∧ ResnetFan.fullFlowPressure u true .ahri2023 (q :: qs) = .ok (1 / 2 * u.inH2O) ∧
    (q ≤ 29000 * u.btuh → ResnetFan.fullFlowPressure u true .ahri2017 (q :: qs) = .ok (1 / 10 * u.inH2O)) ∧
    (29000 * u.btuh < q → q ≤ 43000 * u.btuh → ResnetFan.fullFlowPressure u true .ahri2017 (q :: qs) = .ok (15 / 100 * u.inH2O)) ∧
    (43000 * u.btuh < q → ResnetFan.fullFlowPressure u true .ahri2017 (q :: qs) = .ok (2 / 10 * u.inH2O)) := by
  have hb := u.btuh_pos
  refine ⟨by simp [ResnetFan.fullFlowPressure], by simp [ResnetFan.fullFlowPressure]; norm_num, fun h => ?_, fun h1 h2 => ?_, fun h => ?_⟩
  · simp [ResnetFan.fullFlowPressure, pyGet, pyIdx, bind_ok, h, pure_eq_ok]; norm_num
  · simp [ResnetFan.fullFlowPressure, pyGet, pyIdx, bind_ok, not_le.mpr h1, h2, pure_eq_ok]; norm_num
  · have h' : 29000 * u.btuh < q := by linarith
    simp [ResnetFan.fullFlowPressure, pyGet, pyIdx, bind_ok, not_le.mpr h, not_le.mpr h', pure_eq_ok]; norm_num

/-- C72: it never falls when the capacity grows. -/
theorem C72_monotone (u : Units ℝ) (ducted : Bool) (std : ResnetFan.Standard) (q q' : ℝ) (qs qs' : List ℝ) (h : q ≤ q') (p p' : ℝ)
    (hp : ResnetFan.fullFlowPressure u ducted std (q :: qs) = .ok p) (hp' : ResnetFan.fullFlowPressure u ducted std (q' :: qs') = .ok p') : p ≤ p' := by
  have hi := u.inH2O_pos
  cases ducted
  · simp [ResnetFan.fullFlowPressure] at hp hp'; rw [← hp, ← hp']
  · cases std
    · simp only [ResnetFan.fullFlowPressure, pyGet, pyIdx, List.getElem?_cons_zero, bind_ok, pure_eq_ok, Bool.true_eq_false, if_false] at hp hp'
      split at hp <;> rename_i h1
      · split at hp' <;> [skip; split at hp'] <;> simp only [Except.ok.injEq] at hp hp' <;> rw [← hp, ← hp'] <;> nlinarith
      · have h1' : ¬ q' ≤ 29000 * u.btuh := fun h2 => h1 (h.trans h2)
        rw [if_neg h1'] at hp'
        split at hp <;> rename_i h2
        · split at hp' <;> simp only [Except.ok.injEq] at hp hp' <;> rw [← hp, ← hp']
          nlinarith
        · rw [if_neg (fun h3 => h2 (h.trans h3))] at hp'
          simp only [Except.ok.injEq] at hp hp'; rw [← hp, ← hp']
    · simp [ResnetFan.fullFlowPressure] at hp hp'; rw [← hp, ← hp']

/-- C72: every condition the unit makes has the pressure of its airflow by the square law through the first speed's airflow and the full-flow pressure. -/
theorem C72_square_law (E : Env K) (S : Sys K) (heating : Bool) (speed : Nat) (i o : Option (Psych.PsychState K)) (c : Conditions K)
    (h : S.makeCondition E heating speed i o = .ok c) :
    ∃ a full, (if heating then S.heatingAirflow else S.coolingAirflow)[speed]? = some (some a) ∧
      (if heating then S.heatingAirflow else S.coolingAirflow)[0]? = some (some full) ∧ full ≠ 0 ∧
      c.flow.esp = some (S.fullESP * (a / full) ^ 2) ∧ c.flow.ratedESP = c.flow.esp ∧ c.flow.stdVol = some a ∧ c.flow.compressorSpeed = speed ∧
      (if heating then S.ratedHeatingFanSpeed else S.ratedCoolingFanSpeed)[speed]? = some c.flow.fanSpeed ∧ c.flow.ratio = some 1 := by
  obtain ⟨rho, pr, a, cap, fs, _, _, _, _, _, _, h7, ⟨full, h8, h9, rfl⟩, h10, rfl⟩ := Sys.makeCondition_spec E S heating _ _ _ _ h
  exact ⟨a, full, h7, h8, h9, rfl, rfl, rfl, rfl, h10, rfl⟩

example : ∃ c, sampleSys.makeCondition sampleEnv false 0 none none = .ok c := ⟨sampleA, by decide +kernel⟩

end Resdx
