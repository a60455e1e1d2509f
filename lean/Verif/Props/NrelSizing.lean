import Verif.Props.UnitChecks
import Verif.Spec.Ratings

/-!
# C135: the default fan efficacy and capacities of the NREL model
-/

set_option linter.unusedSectionVars false
set_option linter.unusedSimpArgs false

namespace Resdx.Spec.NrelSizing

/-- The default fan efficacy in W/cfm: 0.25 up to SEER 14, 0.18 from SEER 16 on, a straight line between; 0.25 without a SEER. -/
noncomputable def efficacy : Option ℝ → ℝ
  | none => 25 / 100
  | some s => lineAt 14 (25 / 100) 16 (18 / 100) (max 14 (min 16 s))

/-- The default airflows in cfm/ton, first those of cooling. -/
noncomputable def airflows (heating : Bool) : Nat → List ℝ
  | 1 => [if heating then 3841 / 10 else 3942 / 10]
  | 2 => if heating then [3522 / 10, 3522 / 10 * (8 / 10)] else [3441 / 10, 3441 / 10 * (86 / 100)]
  | _ => []

end Resdx.Spec.NrelSizing

namespace Resdx.UnitBuild

open Spec BaseModel Props Fan DX

variable {u : Units ℝ}

/-- C135: the default efficacy, in W/cfm, is the specified one; it lies between 0.18 and 0.25 and never increases with the SEER. -/
theorem C135_efficacy (u : Units ℝ) : (∀ s, nrelEfficacy u s * u.cfm = NrelSizing.efficacy s) ∧ (∀ s, 0.18 ≤ nrelEfficacy u s * u.cfm ∧ nrelEfficacy u s * u.cfm ≤ 0.25) ∧
    ∀ s t, s ≤ t → nrelEfficacy u (some t) ≤ nrelEfficacy u (some s) := by
  have hc := u.cfm_pos
  have key : ∀ s, nrelEfficacy u s * u.cfm = NrelSizing.efficacy s := by
    intro s
    cases s with
    | none => simp only [nrelEfficacy, NrelSizing.efficacy]; field_simp; norm_num
    | some s =>
      simp only [nrelEfficacy, NrelSizing.efficacy, lineAt]
      split_ifs with h1 h2
      · rw [max_eq_left (le_trans (min_le_right _ _) h1)]; field_simp; norm_num
      · rw [min_eq_left h2, max_eq_right (by norm_num)]; field_simp; norm_num
      · rw [min_eq_right (not_le.1 h2).le, max_eq_right (not_le.1 h1).le]; field_simp; ring
  have bound : ∀ s, 0.18 ≤ NrelSizing.efficacy s ∧ NrelSizing.efficacy s ≤ 0.25 := by
    intro s
    cases s with
    | none => simp only [NrelSizing.efficacy]; norm_num
    | some s =>
      simp only [NrelSizing.efficacy, lineAt]
      have h1 : 14 ≤ max 14 (min 16 s) := le_max_left _ _
      have h2 : max 14 (min 16 s) ≤ 16 := max_le (by norm_num) (min_le_left _ _)
      generalize max 14 (min 16 s) = x at *
      constructor <;> norm_num at * <;> linarith
  refine ⟨key, fun s => by rw [key]; exact bound s, fun s t h => ?_⟩
  refine le_of_mul_le_mul_right ?_ hc
  rw [key, key]
  simp only [NrelSizing.efficacy, lineAt]
  have : max 14 (min 16 s) ≤ max 14 (min 16 t) := max_le_max le_rfl (min_le_min le_rfl h)
  norm_num
  linarith

/-- C135: without a fan of its own, each mode of a unit has the default efficacy at every speed and, with one or two speeds, the default airflows per capacity; with more speeds
the argument is kept. -/
theorem C135_characteristics (u : Units ℝ) (a : Args) (ha : a.fan = none) :
    ((nrelCharacteristics u a).1.eff = some (List.replicate a.nC (nrelEfficacy u a.seer)) ∧ (nrelCharacteristics u a).2.eff = some (List.replicate a.nH (nrelEfficacy u a.seer))) ∧
    (a.nC = 1 ∨ a.nC = 2 → (nrelCharacteristics u a).1.perCap = some (.list ((NrelSizing.airflows false a.nC).map (· * (u.cfm / u.ton))))) ∧
    (a.nH = 1 ∨ a.nH = 2 → (nrelCharacteristics u a).2.perCap = some (.list ((NrelSizing.airflows true a.nH).map (· * (u.cfm / u.ton))))) ∧
    (a.nC ≠ 1 → a.nC ≠ 2 → (nrelCharacteristics u a).1.perCap = a.coolingPerCap) ∧ (a.nH ≠ 1 → a.nH ≠ 2 → (nrelCharacteristics u a).2.perCap = a.heatingPerCap) := by
  simp only [nrelCharacteristics, ha, nrelDefaults]
  refine ⟨⟨trivial, trivial⟩, ?_, ?_, ?_, ?_⟩
  · rintro (h | h) <;> simp only [h, NrelSizing.airflows] <;> norm_num <;> (try constructor) <;> ring
  · rintro (h | h) <;> simp only [h, NrelSizing.airflows] <;> norm_num <;> (try constructor) <;> ring
  · intro h1 h2; simp [h1, h2]
  · intro h1 h2; simp [h1, h2]

/-- C135: of the two capacities made from one, the first is the given one, and gross of the fan (plus its power in cooling, minus it in heating) the second is 0.72 of the first. -/
theorem C135_capacities {s : NrelSide} {sign q : ℝ} {l : List ℝ} (h : nrelCapacities s 2 sign q = .ok (some l)) :
    ∃ q1 p0 p1, l = [q, q1] ∧ s.powerPerCap 0 = .ok p0 ∧ s.powerPerCap 1 = .ok p1 ∧ q1 + sign * (q1 * p1) = 72 / 100 * (q + sign * (q * p0)) := by
  simp only [nrelCapacities, if_neg (show ¬(2 : Nat) = 1 by norm_num), if_true, bind_eq_ok, pure_eq_ok, Except.ok.injEq, Option.some.injEq, pdiv_eq_ok] at h
  obtain ⟨p0, h0, p1, h1, q1, ⟨d, rfl⟩, rfl⟩ := h
  refine ⟨_, p0, p1, rfl, h0, h1, ?_⟩
  rw [show ∀ x : ℝ, x + sign * (x * p1) = x * (1 + sign * p1) from fun x => by ring, div_mul_cancel₀ _ d]
  ring

/-- C135: a unit without a fan, of one or two cooling and heating speeds: the capacities made from one positive capacity are all positive, and the low one is less than the high
one, so that they pass the check of the constructor. A ton of refrigeration is at least 1000 W here; it is 3516.85 W. -/
theorem C135_ordered (a : Args) (ha : a.fan = none) (hn : a.nC = 2) (hm : a.nH = 2) (ht : 1000 ≤ u.ton) {q : ℝ} (hq : 0 < q) :
    (∃ q1, nrelNetCapacity (nrelCharacteristics u a).1 a.nC 1 (.num q) = .ok (some [q, q1]) ∧ 0 < q1 ∧ q1 < q) ∧
    ∃ q1, nrelNetCapacity (nrelCharacteristics u a).2 a.nH (-1) (.num q) = .ok (some [q, q1]) ∧ 0 < q1 ∧ q1 < q := by
  have hc := u.cfm_pos
  have t0 := u.ton_pos
  obtain ⟨-, eb, -⟩ := C135_efficacy u
  obtain ⟨e0, e1⟩ := eb a.seer
  obtain ⟨⟨k1, k2⟩, k3, k4, -⟩ := C135_characteristics u a ha
  have k3 := k3 (.inr hn)
  have k4 := k4 (.inr hm)
  rw [hn] at k1 k3 ⊢
  rw [hm] at k2 k4 ⊢
  have pw : ∀ (sd : NrelSide) (x y : ℝ), sd.eff = some (List.replicate 2 (nrelEfficacy u a.seer)) → sd.perCap = some (.list ([x, y].map (· * (u.cfm / u.ton)))) →
      sd.powerPerCap 0 = .ok (nrelEfficacy u a.seer * u.cfm / u.ton * x) ∧ sd.powerPerCap 1 = .ok (nrelEfficacy u a.seer * u.cfm / u.ton * y) := by
    intro sd x y h1 h2
    constructor <;> simp only [NrelSide.powerPerCap, h1, h2, perCapAt, pyAttr, pyGet, List.map_cons, List.map_nil, List.replicate, bind_ok, List.getElem?_cons_zero, List.getElem?_cons_succ, pure_eq_ok] <;>
      congr 1 <;> ring
  have z0 : 0 < nrelEfficacy u a.seer * u.cfm / u.ton := div_pos (lt_of_lt_of_le (by norm_num) e0) t0
  have z1 : nrelEfficacy u a.seer * u.cfm / u.ton ≤ 0.00025 := by
    rw [div_le_iff₀ t0]; nlinarith
  generalize nrelEfficacy u a.seer * u.cfm / u.ton = z at *
  obtain ⟨c0, c1⟩ := pw _ _ _ k1 (by simpa [NrelSizing.airflows] using k3)
  obtain ⟨d0, d1⟩ := pw _ _ _ k2 (by simpa [NrelSizing.airflows] using k4)
  constructor
  · have n1 : 0 < 1 + 1 * (z * (3441 / 10 * (86 / 100))) := by nlinarith
    refine ⟨(q + 1 * (q * (z * (3441 / 10)))) * 0.72 / (1 + 1 * (z * (3441 / 10 * (86 / 100)))), ?_, ?_, ?_⟩
    · simp only [nrelNetCapacity, nrelCapacities, if_neg (show ¬(2 : Nat) = 1 by norm_num), if_true, c0, c1, bind_ok, pdiv_ok n1.ne', pure_eq_ok]
    · have : 0 < q * z := mul_pos hq z0
      exact div_pos (by nlinarith) n1
    · rw [div_lt_iff₀ n1]
      have : 0 < q * z := mul_pos hq z0
      have : q * z ≤ q * 0.00025 := mul_le_mul_of_nonneg_left z1 hq.le
      nlinarith
  · have n1 : 0 < 1 + -1 * (z * (3522 / 10 * (8 / 10))) := by nlinarith
    have p0 : 0 < q * z := mul_pos hq z0
    have p1 : q * z ≤ q * 0.00025 := mul_le_mul_of_nonneg_left z1 hq.le
    refine ⟨(q + -1 * (q * (z * (3522 / 10)))) * 0.72 / (1 + -1 * (z * (3522 / 10 * (8 / 10)))), ?_, ?_, ?_⟩
    · simp only [nrelNetCapacity, nrelCapacities, if_neg (show ¬(2 : Nat) = 1 by norm_num), if_true, d0, d1, bind_ok, pdiv_ok n1.ne', pure_eq_ok]
    · exact div_pos (by nlinarith) n1
    · rw [div_lt_iff₀ n1]
      nlinarith

/-- A two-speed unit meets the hypotheses of C135_ordered with the units of the samples. -/
example : ∃ a : Args, a.fan = none ∧ a.nC = 2 ∧ a.nH = 2 ∧ 1000 ≤ Sample.units.ton :=
  ⟨{ cooling := .num 10000, netCoolingCop := none, grossCoolingCop := none, netHeatingCop := none, defrost := Sample.defrost, staging := some .two }, rfl, rfl, rfl, by norm_num [Sample.units]⟩

end Resdx.UnitBuild
