import Verif.Props.DerivedTables
import Verif.Props.ResnetReturns

/-!
# Sound tables from ratings

Tables that follow curves with margins are sound: a unit can be made from them.
-/

set_option linter.unusedSectionVars false
set_option linter.unusedSimpArgs false

namespace Resdx.Build

open Spec Tabular BaseModel Props Table

/-- The values of the compressor speeds, fastest first, from those of the table speeds. -/
noncomputable def speedsOf (st : Staging) (f : Int → ℝ) : List ℝ :=
  match st with
  | .single => [f 1]
  | .two => [f 2, f 1]
  | .varSpeed => [f 3, f 2, (f 1 + f 2) / 2, f 1]

theorem ratedAt_of_lookups {st : Staging} {t : Table ℝ} {x : ℝ} {f : Int → ℝ} (hf : Fresh t) (hn : t.nSpeeds = tableSpeeds st)
    (h : ∀ s : Int, 1 ≤ s → s ≤ tableSpeeds st → t.calculate (s : ℝ) x = .ok (f s)) : RatedAt st t x (speedsOf st f) := by
  cases st with
  | single =>
    have h1 := h 1 le_rfl le_rfl
    norm_num at h1
    constructor
    · rintro i σ ⟨rfl, rfl⟩; exact ⟨_, rfl, h1⟩
    · intro i c hc
      rcases i with _ | i
      · exact ⟨1, rfl, rfl⟩
      · simp [speedsOf] at hc
  | two =>
    have h1 := h 1 le_rfl (by decide)
    have h2 := h 2 (by norm_num) (by decide)
    norm_num at h1 h2
    constructor
    · rintro i σ (⟨rfl, rfl⟩ | ⟨rfl, rfl⟩)
      · exact ⟨_, rfl, h2⟩
      · exact ⟨_, rfl, h1⟩
    · intro i c hc
      rcases i with _ | _ | i
      · exact ⟨2, .inl ⟨rfl, rfl⟩⟩
      · exact ⟨1, .inr ⟨rfl, rfl⟩⟩
      · simp [speedsOf] at hc
  | varSpeed =>
    have h1 := h 1 le_rfl (by decide)
    have h2 := h 2 (by norm_num) (by decide)
    have h3 := h 3 (by norm_num) (by decide)
    norm_num at h1 h2 h3
    constructor
    · rintro i σ (⟨rfl, rfl⟩ | ⟨rfl, rfl⟩ | ⟨rfl, rfl⟩ | ⟨rfl, rfl⟩)
      · exact ⟨_, rfl, h3⟩
      · exact ⟨_, rfl, h2⟩
      · obtain ⟨z0, z1, y, z2, z3, z4, hline⟩ := C30_linear_in_speed t hf 1 (3 / 2) x ⟨by norm_num, by rw [hn]; decide⟩ ⟨by norm_num, by rw [hn]; decide⟩ (.inr rfl) (.inl (by norm_num))
        norm_num at z2 z3
        rw [h1] at z2; cases z2
        rw [h2] at z3; cases z3
        refine ⟨_, rfl, ?_⟩
        rw [z4]
        unfold OnLine at hline
        push_cast at hline
        congr 1
        linarith
      · exact ⟨_, rfl, h1⟩
    · intro i c hc
      rcases i with _ | _ | _ | _ | i
      · exact ⟨3, .inl ⟨rfl, rfl⟩⟩
      · exact ⟨2, .inr (.inl ⟨rfl, rfl⟩)⟩
      · exact ⟨3 / 2, .inr (.inr (.inl ⟨rfl, rfl⟩))⟩
      · exact ⟨1, .inr (.inr (.inr ⟨rfl, rfl⟩))⟩
      · simp [speedsOf] at hc

/-- The entry of `speedsOf` at an integer table speed. -/
theorem speedsOf_at {st : Staging} {f : Int → ℝ} {i k : Nat} {c : ℝ} (h : TableSpeed st i ((k : ℝ) + 1)) (hc : (speedsOf st f)[i]? = some c) : c = f ((k : Int) + 1) ∧ k < tableSpeeds st := by
  obtain ⟨rfl, hk⟩ := Sample.colIndex_of h
  refine ⟨?_, hk⟩
  cases st with
  | single =>
    obtain rfl : k = 0 := by simp [tableSpeeds] at hk; exact hk
    cases hc; rfl
  | two =>
    obtain rfl | rfl : k = 0 ∨ k = 1 := by simp [tableSpeeds] at hk; omega
    all_goals cases hc; rfl
  | varSpeed =>
    obtain rfl | rfl | rfl : k = 0 ∨ k = 1 ∨ k = 2 := by simp [tableSpeeds] at hk; omega
    all_goals cases hc; rfl

theorem covers_of_lookups {m : ℝ} {st : Staging} {t : Table ℝ} {l : List ℝ} {f : Int → ℝ} {g : Int → ℝ → ℝ} (hf : Fresh t) (hn : t.nSpeeds = tableSpeeds st) (ht : t.temperatures = l)
    (h : ∀ s : Int, 1 ≤ s → s ≤ tableSpeeds st → ∀ x, t.calculate (s : ℝ) x = .ok (g s x))
    (hm : ∀ s : Int, 1 ≤ s → s ≤ tableSpeeds st → ∀ x ∈ l, m * f s < g s x) : Covers m st (speedsOf st f) t := by
  intro i k x v c hσ hc hv
  obtain ⟨rfl, hk⟩ := speedsOf_at hσ hc
  have hx : x ∈ l := by
    rw [← ht]
    simp only [Table.get, bind_eq_ok] at hv
    obtain ⟨ti, h1, -⟩ := hv
    exact List.mem_of_getElem? (pyIndex_ok h1)
  have s1 : (1 : Int) ≤ (k : Int) + 1 := by omega
  have s2 : (k : Int) + 1 ≤ tableSpeeds st := by omega
  have e1 := C30_node t hf _ _ _ ⟨s1, by rw [hn]; exact s2⟩ hv
  rw [h _ s1 s2 x] at e1
  cases e1
  exact hm _ s1 s2 x hx

/-- Tables that follow curves with margins for the fan power are sound. -/
theorem sound_of_curves {u : Units ℝ} {st : Staging} {d : Perf ℝ} {mn mx : ℝ} {c : Int → Curves ℝ} (hs : StandardTables (tableSpeeds st) mn mx d)
    (hf : ∀ s : Int, 1 ≤ s → s ≤ tableSpeeds st → Follows d s (c s)) (hm : ∀ s : Int, 1 ≤ s → s ≤ tableSpeeds st → Margins (337.2 / u.ton) mn mx (c s))
    (hz : ∃ x y, (speedsOf st fun s => (c s).coolingCapacity (frF 95))[fullIndex st]? = some x ∧ (speedsOf st fun s => (c s).heatingCapacity (frF 47))[fullIndex st]? = some y ∧
      RatedSizes (max x y) (speedsOf st fun s => (c s).coolingCapacity (frF 95)) ∧ RatedSizes (max x y) (speedsOf st fun s => (c s).heatingCapacity (frF 47))) :
    Sound u st d (speedsOf st fun s => (c s).coolingCapacity (frF 95)) (speedsOf st fun s => (c s).heatingCapacity (frF 47)) where
  rated := ⟨hs.qc, hs.pc, hs.qh, hs.ph, hs.speeds, by rw [hs.cooling.1, hs.cooling.2]; simp, by rw [hs.heating.1, hs.heating.2]; simp⟩
  cooling := ratedAt_of_lookups hs.qc hs.speeds.1 fun s h1 h2 => (hf s h1 h2 (frF 95)).1
  heating := ratedAt_of_lookups hs.qh hs.speeds.2.2.1 fun s h1 h2 => (hf s h1 h2 (frF 47)).2.2.1
  sizes := hz
  coversQc := covers_of_lookups hs.qc hs.speeds.1 hs.cooling.1 (fun s h1 h2 x => (hf s h1 h2 x).1) fun s h1 h2 x hx => by rw [zero_mul]; exact (hm s h1 h2).coolingCapacity x hx
  coversPc := covers_of_lookups hs.pc hs.speeds.2.1 hs.cooling.2 (fun s h1 h2 x => (hf s h1 h2 x).2.1) fun s h1 h2 x hx => (hm s h1 h2).coolingPower x hx
  coversQh := covers_of_lookups hs.qh hs.speeds.2.2.1 hs.heating.1 (fun s h1 h2 x => (hf s h1 h2 x).2.2.1) fun s h1 h2 x hx => (hm s h1 h2).heatingCapacity x hx
  coversPh := covers_of_lookups hs.ph hs.speeds.2.2.2 hs.heating.2 (fun s h1 h2 x => (hf s h1 h2 x).2.2.2) fun s h1 h2 x hx => (hm s h1 h2).heatingPower x hx

/-! ## Values of the curves -/

theorem ends_cooling {e : Ends ℝ} : e.cooling (frF 82) = e.low ∧ e.cooling (frF 95) = e.high := by
  have := f82_95 (K := ℝ)
  constructor
  · rw [Ends.cooling, if_pos le_rfl]; unfold lineAt; simp
  · rw [Ends.cooling, if_pos this.le]; unfold lineAt; field_simp [sub_ne_zero.2 this.ne']; ring

theorem ends_heating {e : Ends ℝ} : e.heating (frF 17) = e.low ∧ e.heating (frF 47) = e.high ∧ e.heating (frF 60) = e.high := by
  have h1 := f17_47 (K := ℝ)
  have h2 := f47_60 (K := ℝ)
  refine ⟨?_, ?_, ?_⟩
  · rw [Ends.heating, if_pos h1.le]; unfold lineAt; simp
  · rw [Ends.heating, if_pos le_rfl]; unfold lineAt; field_simp [sub_ne_zero.2 h1.ne']; ring
  · rw [Ends.heating, if_neg h2.not_ge]

end Resdx.Build
