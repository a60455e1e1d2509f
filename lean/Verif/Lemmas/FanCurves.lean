import Verif.Lemmas.Fan
import Mathlib.Analysis.SpecialFunctions.Pow.NNReal
import Mathlib.Topology.Order.IntermediateValue

set_option linter.unusedSectionVars false
set_option linter.unusedSimpArgs false

/-! # Helper lemmas for the fan curves -/

namespace Resdx.Fan

open Spec Util

theorem eraseIdx_map' {α β : Type} (f : α → β) (l : List α) (k : Nat) :
    (l.map f).eraseIdx k = (l.eraseIdx k).map f := by
  induction l generalizing k with
  | nil => simp
  | cons a l ih => cases k <;> simp [ih]

theorem pyGetI_natCast {α : Type} {l : List α} {i : Nat} {a : α} : pyGetI l (i : Int) = .ok a ↔ l[i]? = some a := by
  rw [pyGetI_eq_ok]
  constructor
  · rintro ⟨k, hk, ha⟩
    rw [pyIdx_eq_ok] at hk
    have : k = i := by omega
    exact this ▸ ha
  · intro ha
    have hlt : i < l.length := (List.getElem?_eq_some_iff.1 ha).1
    exact ⟨i, pyIdx_nat hlt, ha⟩

theorem exists_getElem? {α : Type} {l : List α} {i : Nat} (h : i < l.length) : ∃ a, l[i]? = some a :=
  ⟨l[i], by simp [h]⟩

namespace PSC
variable (u : Units ℝ)

/-- The pressure at which a setting with the given free airflow stops delivering air. -/
noncomputable def blockOf (f : ℝ) : ℝ := Real.log (f / coef u + 1) / expCoef u

/-- The per-speed records of a PSC fan are functions of its design airflows. -/
def Consistent (s : PSC) : Prop :=
  AlignedPSC s ∧ s.freeAirflow = s.base.airflow.map (· + s.designReduction) ∧
  s.blockPressure = s.freeAirflow.map (blockOf u) ∧
  s.speedEfficacy = s.freeRatio.map (fun r => s.designEfficacy * (1 + slope * (r - 1))) ∧
  s.freeSpeed = s.freeRatio.map (fun r => 1040 * u.rpm * r) ∧
  (∀ f ∈ s.freeAirflow, 0 < f / coef u + 1) ∧ s.designReduction = reduction u s.base.designESP

theorem add_consistent {s s' : PSC} {a : ℝ} {p : Option ℝ} (hs : Consistent u s)
    (h : addSpeed u a p s = (.ok (), s')) : Consistent u s' := by
  refine ⟨add_aligned u hs.1 h, ?_⟩
  obtain ⟨b', hb, -, hl, rfl⟩ := addSpeed_ok u h
  obtain ⟨-, rfl⟩ := Base.addSpeed_ok hb
  obtain ⟨-, h1, h2, h3, h4, h5, h6⟩ := hs
  refine ⟨by simp [h1], by simp [h2, blockOf], by simp [h3], by simp [h4], ?_, h6⟩
  intro f hf
  simp only [List.mem_append, List.mem_singleton] at hf
  rcases hf with hf | rfl
  · exact h5 f hf
  · exact hl

theorem remove_consistent {s : PSC} {i : Int} (hs : Consistent u s) : Consistent u (removeSpeed i s).2 := by
  refine ⟨remove_aligned hs.1, ?_⟩
  rcases pyIdx_cases s.base.airflow.length i with ⟨k, hk, hlt⟩ | hk
  · rw [removeSpeed_ok hs.1 hk]
    obtain ⟨-, h1, h2, h3, h4, h5, h6⟩ := hs
    refine ⟨?_, ?_, ?_, ?_, ?_, h6⟩
    · simp only [h1, eraseIdx_map']
    · simp only [h2, eraseIdx_map']
    · simp only [h3, eraseIdx_map']
    · simp only [h4, eraseIdx_map']
    · exact fun f hf => h5 f (List.mem_of_mem_eraseIdx hf)
  · rw [removeSpeed_error hk]; exact hs.2

theorem init_consistent {airflows : List ℝ} {p e : ℝ} {s : PSC} (h : PSC.init u airflows p e = .ok s) :
    Consistent u s := by
  simp only [PSC.init, bind_eq_ok] at h
  obtain ⟨b, hb, h⟩ := h
  obtain ⟨a0, -, -, -, rfl⟩ := start_eq_ok hb
  have := addAll_inv (P := Consistent u) (fun _ _ _ => add_consistent u) airflows _ _
    (by simp [Consistent, AlignedPSC, AlignedBase]) (exec_eq_ok h)
  exact this

/-- A setting stops delivering air exactly from its block pressure. -/
theorem reduction_ge_iff {f p : ℝ} (hf : 0 < f / coef u + 1) : f ≤ reduction u p ↔ blockOf u f ≤ p := by
  have hA := coef_pos u
  have hB := expCoef_pos u
  unfold blockOf reduction
  rw [div_le_iff₀ hB, Real.log_le_iff_le_exp hf]
  constructor
  · intro h
    have : f / coef u ≤ Real.exp (p * expCoef u) - 1 := by
      rw [div_le_iff₀ hA]; linarith
    linarith
  · intro h
    have : f / coef u ≤ Real.exp (p * expCoef u) - 1 := by linarith
    rw [div_le_iff₀ hA] at this
    linarith

theorem block_pos {f : ℝ} (hf : 0 < f) : 0 < blockOf u f := by
  have hA := coef_pos u
  have hB := expCoef_pos u
  unfold blockOf
  apply div_pos _ hB
  apply Real.log_pos
  have : 0 < f / coef u := div_pos hf hA
  linarith

end PSC

/-! ## Operating point of a RESNET fan -/

theorem systemFlow_ok {b : Base} {p : ℝ} (hk : b.sysConst ≠ 0) (hp : 0 ≤ p) :
    b.systemFlow p = .ok (Real.sqrt p / b.sysConst) := by
  simp [Base.systemFlow, ppow_half hp, bind_ok, pdiv_ok hk]

theorem resnetOperating_ok {brentq : Brentq} (hbr : BrentqSpec brentq) {b : Base} {i : Nat} {a : ℝ}
    (hk : 0 < b.sysConst) (hp : 0 < b.designESP) (ha : b.airflow[i]? = some a) (ha0 : 0 ≤ a)
    (hle : (a * b.sysConst) ^ 2 ≤ 3 * b.designESP) :
    resnetOperatingPressure brentq b i = .ok ((a * b.sysConst) ^ 2) := by
  unfold resnetOperatingPressure operatingPressure
  have hget : pyGetI b.airflow (i : Int) = .ok a := pyGetI_natCast.2 ha
  have hf : ∀ x, 0 ≤ x → x ≤ 3 * b.designESP →
      (do return (← resnetAirflow b i (some x)) - (← b.systemFlow x) : Py ℝ) = .ok (a - Real.sqrt x / b.sysConst) := by
    intro x h0 _
    simp [resnetAirflow, hget, bind_ok, systemFlow_ok hk.ne' h0, pure_eq_ok]
  have hcont : ContinuousOn (fun x => a - Real.sqrt x / b.sysConst) (Set.Icc 0 (3 * b.designESP)) := by
    apply Continuous.continuousOn
    exact continuous_const.sub (Real.continuous_sqrt.div_const _)
  have hsign : (fun x => a - Real.sqrt x / b.sysConst) 0 * (fun x => a - Real.sqrt x / b.sysConst) (3 * b.designESP) ≤ 0 := by
    simp only [Real.sqrt_zero, zero_div, sub_zero]
    apply mul_nonpos_of_nonneg_of_nonpos ha0
    have : a * b.sysConst ≤ Real.sqrt (3 * b.designESP) := Real.le_sqrt_of_sq_le hle
    rw [sub_nonpos, le_div_iff₀ hk]
    exact this
  obtain ⟨r, h1, h2, h3, h4⟩ := hbr.root _ _ _ _ (by linarith : (0 : ℝ) ≤ 3 * b.designESP) hf hcont hsign
  rw [h1]
  congr 1
  have : Real.sqrt r = a * b.sysConst := by
    have h5 : Real.sqrt r / b.sysConst = a := by linarith
    rw [div_eq_iff hk.ne'] at h5
    exact h5
  rw [← this, Real.sq_sqrt h2]

theorem resnetOperating_error {brentq : Brentq} (hbr : BrentqSpec brentq) {b : Base} {i : Nat} {a : ℝ}
    (hk : 0 < b.sysConst) (hp : 0 < b.designESP) (ha : b.airflow[i]? = some a) (ha0 : 0 < a)
    (hlt : 3 * b.designESP < (a * b.sysConst) ^ 2) :
    resnetOperatingPressure brentq b i = .error .value := by
  unfold resnetOperatingPressure operatingPressure
  have hget : pyGetI b.airflow (i : Int) = .ok a := pyGetI_natCast.2 ha
  have hf : ∀ x, 0 ≤ x →
      (do return (← resnetAirflow b i (some x)) - (← b.systemFlow x) : Py ℝ) = .ok (a - Real.sqrt x / b.sysConst) := by
    intro x h0
    simp [resnetAirflow, hget, bind_ok, systemFlow_ok hk.ne' h0, pure_eq_ok]
  refine hbr.no_sign_change _ _ _ _ _ (hf 0 (le_refl _)) (hf _ (by linarith)) ?_
  simp only [Real.sqrt_zero, zero_div, sub_zero]
  apply mul_pos ha0
  have hpos : 0 < a * b.sysConst := mul_pos ha0 hk
  have : Real.sqrt (3 * b.designESP) < a * b.sysConst := (Real.sqrt_lt' hpos).2 hlt
  rw [sub_pos, div_lt_iff₀ hk]
  exact this

end Resdx.Fan
