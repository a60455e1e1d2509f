import Verif.Lemmas.TabularCells
import Verif.Props.TabularAdd
import Verif.Props.TabularInterp

/-! # Property C32: the table builders reproduce their ratings -/

set_option linter.unusedSectionVars false
set_option linter.unusedSimpArgs false

namespace Resdx.Props

open Tabular Tabular.Table Spec Util

variable {K : Type} [Field K] [LinearOrder K] [IsStrictOrderedRing K]

theorem cop_of_lookup {q e : K} (hq : q ≠ 0) (he : e ≠ 0) {Q P : Py K} (hQ : Q = .ok q) (hP : P = .ok (q / e)) :
    (do Perf.ndiv (← Q) (← P)) = .ok e := by
  subst hQ hP
  have h : q / e ≠ 0 := div_ne_zero hq he
  simp only [bind_ok, Perf.ndiv, if_neg h]
  congr 1; field_simp

/-- C32, single speed: whatever the builder accepts, the tables reproduce the rated cooling capacity and EER2 at 95 F, the EER2 at 82 F implied by
SEER2 and the degradation coefficient, the rated heating capacity and COP at 47 F and the 17 F heating capacity if given. -/
theorem C32_single_speed (u : Units K) (q95 seer2 eer2 q47 : K) (q17 : Option K) (hspf2 mx mn : K) (cop : Option K) (cd : K)
    (d : Perf K) (h : makeSingleSpeed u q95 seer2 eer2 q47 q17 hspf2 mx mn cop cd = .ok d) :
    d.coolingCapacity 1 (frF 95) = .ok q95 ∧
    (q95 ≠ 0 → d.coolingCop 1 (frF 95) = .ok (eer2 * u.btuh)) ∧
    (q95 ≠ 0 → d.coolingCop 1 (frF 82) = .ok (seer2 / (1 - 0.5 * cd) * u.btuh)) ∧
    d.heatingCapacity 1 (frF 47) = .ok q47 ∧
    (q47 ≠ 0 → d.heatingCop 1 (frF 47) = .ok (cop.getD (2.837 + 0.066 * hspf2))) ∧
    ∀ q, q17 = some q → d.heatingCapacity 1 (frF 17) = .ok q := by
  simp only [makeSingleSpeed, bind_eq_ok] at h
  obtain ⟨⟨qc, pc⟩, h1, ⟨qh, ph⟩, h2, h3⟩ := h
  obtain ⟨m, hm, n1, n2, n3, a1, a2, a3, a4⟩ := singleCooling_cells h1
  obtain ⟨n4, b1, b2, b3⟩ := singleHeating_cells h2
  obtain ⟨e1, e2, e3, e4⟩ := finish_ok h3
  have l1 := a1.lookup e1
  have l2 := a2.lookup e1
  have l3 := a3.lookup e2
  have l4 := a4.lookup e2
  have l5 := b1.lookup e3
  have l6 := b2.lookup e4
  simp only [Int.cast_one] at l1 l2 l3 l4 l5 l6
  refine ⟨l1, fun hq => cop_of_lookup hq n1 l1 l3, fun hq => cop_of_lookup (div_ne_zero hq hm) n3 l2 l4, l5,
    fun hq => cop_of_lookup hq n4 l5 l6, fun q hq => ?_⟩
  have := (b3 q hq).lookup e3
  simpa [Perf.heatingCapacity] using this

/-- C32, two speeds: rated values as for the single speed builder; moreover the low-stage cooling COP at 82 F is the given one and the low stage has
the fixed share of the full-stage capacities. -/
theorem C32_two_speed (u : Units K) (q95 seer2 eer2 q47 : K) (q17 : Option K) (hspf2 mx mn : K) (cop82 cop : Option K)
    (d : Perf K) (h : makeTwoSpeed u q95 seer2 eer2 q47 q17 hspf2 mx mn cop82 cop = .ok d) :
    d.coolingCapacity 2 (frF 95) = .ok q95 ∧
    (q95 ≠ 0 → d.coolingCop 2 (frF 95) = .ok (eer2 * u.btuh)) ∧
    (q95 ≠ 0 → d.coolingCop 1 (frF 82) = .ok (cop82.getD (seer2 / 2))) ∧
    d.coolingCapacity 1 (frF 95) = .ok (q95 * 0.728) ∧
    d.heatingCapacity 2 (frF 47) = .ok q47 ∧
    (q47 ≠ 0 → d.heatingCop 2 (frF 47) = .ok (cop.getD (2.837 + 0.066 * hspf2))) ∧
    d.heatingCapacity 1 (frF 47) = .ok (q47 * 0.712) ∧
    ∀ q, q17 = some q → d.heatingCapacity 2 (frF 17) = .ok q := by
  simp only [makeTwoSpeed, bind_eq_ok] at h
  obtain ⟨⟨qc, pc⟩, h1, ⟨qh, ph⟩, h2, h3⟩ := h
  obtain ⟨m, hm, n1, n2, a1, a2, a3, a4, a5⟩ := twoCooling_cells h1
  obtain ⟨n4, b1, b2, b3, b4⟩ := twoHeating_cells h2
  obtain ⟨e1, e2, e3, e4⟩ := finish_ok h3
  have l1 := a1.lookup e1
  have l2 := a2.lookup e1
  have l3 := a3.lookup e1
  have l4 := a4.lookup e2
  have l5 := a5.lookup e2
  have l6 := b1.lookup e3
  have l7 := b2.lookup e4
  have l8 := b4.lookup e3
  simp only [Int.cast_one, Int.cast_ofNat] at l1 l2 l3 l4 l5 l6 l7 l8
  refine ⟨l1, fun hq => cop_of_lookup hq n1 l1 l4,
    fun hq => cop_of_lookup (mul_ne_zero (div_ne_zero hq hm) (by norm_num)) n2 l3 l5, l2, l6,
    fun hq => cop_of_lookup hq n4 l6 l7, l8, fun q hq => ?_⟩
  have := (b3 q hq).lookup e3
  simpa [Perf.heatingCapacity] using this

/-- C32, variable speed: rated values as above; moreover a given minimum-speed COP at 82 F and a given minimum/maximum capacity ratio at 95 F are
reproduced. -/
theorem C32_variable_speed (u : Units K) (q95 seer2 eer2 q47 : K) (q17 : Option K) (hspf2 mx mn : K) (ratio cop82 cop : Option K)
    (d : Perf K) (h : makeNeepStatistical u q95 seer2 eer2 q47 q17 hspf2 mx mn ratio cop82 cop = .ok d) :
    d.coolingCapacity 2 (frF 95) = .ok q95 ∧
    (q95 ≠ 0 → d.coolingCop 2 (frF 95) = .ok (eer2 * u.btuh)) ∧
    (∀ g, cop82 = some g → q95 ≠ 0 → ratio ≠ some 0 → d.coolingCop 1 (frF 82) = .ok g) ∧
    (∀ g, ratio = some g → ∃ qmax, d.coolingCapacity 3 (frF 95) = .ok qmax ∧ d.coolingCapacity 1 (frF 95) = .ok (qmax * g)) ∧
    d.heatingCapacity 2 (frF 47) = .ok q47 ∧
    (q47 ≠ 0 → d.heatingCop 2 (frF 47) = .ok (cop.getD (2.837 + 0.066 * hspf2))) ∧
    ∀ q, q17 = some q → d.heatingCapacity 2 (frF 17) = .ok q := by
  simp only [makeNeepStatistical, bind_eq_ok] at h
  obtain ⟨⟨qc, pc⟩, h1, m, hm, qh, h2, ph, h3, h4⟩ := h
  obtain ⟨r, c, g1, g1', g2, n1, n2, a1, a2, a3, a4, a5, a6⟩ := neepStatCooling_cells h1
  obtain ⟨e1, e2, e3, e4⟩ := finish_ok h4
  have hmn : mn < frF 5 := by
    have hs := neepStatHeatingQ_sub h2
    obtain ⟨t0, ht0⟩ : ∃ t0, setInterpolator t0 = (.ok (), d.heatingCapacities) := ⟨qh, exec_ok.1 e3⟩
    have hf : Fresh d.heatingCapacities := ⟨t0, ht0⟩
    have ht := op_sublist (op := .interpolator) e3 (by simp)
    have := (fresh_wf hf).sorted.sublist (hs.trans ht)
    simp only [List.pairwise_cons, List.mem_cons, forall_eq_or_imp] at this
    exact this.1.1
  obtain ⟨b1, b2⟩ := neepStatHeatingQ_cells hmn h2
  obtain ⟨n4, b3⟩ := neepStatHeatingP_cells hmn b1 h3
  have l1 := a1.lookup e1
  have l2 := a2.lookup e1
  have l3 := a3.lookup e1
  have l4 := a4.lookup e1
  have l5 := a5.lookup e2
  have l6 := a6.lookup e2
  have l7 := b1.lookup e3
  have l8 := b2.lookup e3
  have l9 := b3.lookup e4
  simp only [Int.cast_one, Int.cast_ofNat] at l1 l2 l3 l4 l5 l6 l7 l8 l9
  refine ⟨l1, fun hq => cop_of_lookup hq n1 l1 l5, ?_, ?_, l7, fun hq => cop_of_lookup hq n4 l7 l9, ?_⟩
  · intro g hg hq hr
    have hcg := g2 g hg
    subst hcg
    refine cop_of_lookup ?_ n2 l4 l6
    have hr0 : r ≠ 0 := by
      cases ratio with
      | some x => rw [g1 x rfl]; intro hx; rw [hx] at hr; exact hr rfl
      | none => exact g1' rfl
    exact div_ne_zero (mul_ne_zero (div_ne_zero hq (by norm_num)) hr0) (by norm_num)
  · intro g hg
    refine ⟨_, l2, ?_⟩
    rw [Perf.coolingCapacity, l3, g1 g hg]
  · intro q hq
    rw [Perf.heatingCapacity, l8, qm17_value hm q hq]

/-! ## The builders return -/

/-- A well-formed table without gaps with the given speed count and rows. -/
structure Full2 (n : Nat) (temps : List K) (t : Table K) : Prop where
  wf : TableWF t
  full : TableFull t
  speeds : t.nSpeeds = n
  temps : t.temperatures = temps

theorem Full2.add {n : Nat} {temps : List K} {t t' : Table K} {x : K} (h : Full2 n temps t) {e : Bool} {limit : Option K}
    (hnot : x ∉ t.temperatures) (e1 : addTemperature x e limit t = (.ok (), t'))
    (e2 : ∀ s, IsSpeed t s → ∃ v, t'.get s x = .ok (some v)) : Full2 n (inserted t x).temperatures t' := by
  obtain ⟨hw, hmem, hn, -, hkeep⟩ := C27_add_temperature_wf t h.wf x e limit hnot
  have ht := (fillNew_sameBut x e limit (insPos t.temperatures x) (inserted t x)).1
  rw [← addTemperature_new h.wf hnot, e1] at ht
  rw [e1] at hw hmem hn hkeep
  simp only at hw hmem hn hkeep ht
  have hsp : ∀ s, IsSpeed t' s → IsSpeed t s := by
    rintro s ⟨h1, h2⟩; exact ⟨h1, by rw [← hn]; exact h2⟩
  refine ⟨hw, ?_, by rw [hn, h.speeds], ht⟩
  intro s y hs hy
  rcases (hmem y).1 hy with rfl | hy
  · exact e2 s (hsp s hs)
  · rw [hkeep s y (hsp s hs) hy]; exact h.full s y (hsp s hs) hy

theorem Full2.below {n : Nat} {t : Table K} {x t1 t2 : K} {rest : List K} (h : Full2 n (t1 :: t2 :: rest) t) (hx : x < t1)
    (e : Bool) (limit : Option K) :
    ∃ t', PyM.exec (addTemperature x e limit) t = .ok t' ∧ Full2 n (x :: t1 :: t2 :: rest) t' := by
  obtain ⟨hnot, -, htemps, -⟩ := inserted_below h.wf h.temps hx
  have hrow : ∃ t', addTemperature x e limit t = (.ok (), t') ∧ ∀ s, IsSpeed t s → ∃ v, t'.get s x = .ok (some v) := by
    cases e with
    | true =>
      choose a ha using fun s (hs : IsSpeed t s) => h.full s t1 hs (by rw [h.temps]; simp)
      choose b hb using fun s (hs : IsSpeed t s) => h.full s t2 hs (by rw [h.temps]; simp)
      obtain ⟨t', e1, -, e2⟩ := C28_below t h.wf x t1 t2 rest h.temps hx (fun s => if hs : IsSpeed t s then a s hs else 0)
        (fun s => if hs : IsSpeed t s then b s hs else 0) (fun s hs => by simp only [hs, dite_true]; exact ha s hs)
        (fun s hs => by simp only [hs, dite_true]; exact hb s hs) limit
      exact ⟨t', e1, fun s hs => by obtain ⟨l, -, e3⟩ := e2 s hs; exact ⟨_, e3⟩⟩
    | false =>
      obtain ⟨t', e1, -, e2⟩ := C28_below_copy t h.wf x t1 t2 rest h.temps hx limit
      exact ⟨t', e1, fun s hs => by rw [e2 s hs]; exact h.full s t1 hs (by rw [h.temps]; simp)⟩
  obtain ⟨t', e1, e2⟩ := hrow
  refine ⟨t', exec_ok.2 e1, ?_⟩
  rw [← htemps]
  exact h.add hnot e1 e2

theorem Full2.above {n : Nat} {t : Table K} {x t1 t2 : K} (rest : List K) (h : Full2 n (rest ++ [t2, t1]) t) (hx : t1 < x)
    (e : Bool) (limit : Option K) :
    ∃ t', PyM.exec (addTemperature x e limit) t = .ok t' ∧ Full2 n (rest ++ [t2, t1, x]) t' := by
  obtain ⟨hnot, -, htemps, -⟩ := inserted_above h.wf h.temps hx
  have hrow : ∃ t', addTemperature x e limit t = (.ok (), t') ∧ ∀ s, IsSpeed t s → ∃ v, t'.get s x = .ok (some v) := by
    cases e with
    | true =>
      choose a ha using fun s (hs : IsSpeed t s) => h.full s t1 hs (by rw [h.temps]; simp)
      choose b hb using fun s (hs : IsSpeed t s) => h.full s t2 hs (by rw [h.temps]; simp)
      obtain ⟨t', e1, -, e2⟩ := C28_above t h.wf x t1 t2 rest h.temps hx (fun s => if hs : IsSpeed t s then a s hs else 0)
        (fun s => if hs : IsSpeed t s then b s hs else 0) (fun s hs => by simp only [hs, dite_true]; exact ha s hs)
        (fun s hs => by simp only [hs, dite_true]; exact hb s hs) limit
      exact ⟨t', e1, fun s hs => by obtain ⟨l, -, e3⟩ := e2 s hs; exact ⟨_, e3⟩⟩
    | false =>
      obtain ⟨t', e1, -, e2⟩ := C28_above_copy t h.wf x t1 t2 rest h.temps hx limit
      exact ⟨t', e1, fun s hs => by rw [e2 s hs]; exact h.full s t1 hs (by rw [h.temps]; simp)⟩
  obtain ⟨t', e1, e2⟩ := hrow
  refine ⟨t', exec_ok.2 e1, ?_⟩
  rw [← htemps]
  exact h.add hnot e1 e2

theorem Full2.interpolator {n : Nat} {temps : List K} {t : Table K} (h : Full2 n temps t) (ht : temps ≠ []) (hn : n ≠ 0) :
    ∃ t', PyM.exec setInterpolator t = .ok t' ∧ t'.nSpeeds = n ∧ t'.temperatures = temps := by
  have := (C30_set_interpolator t h.wf (by rw [h.temps]; exact ht) (by rw [h.speeds]; exact hn)).1.2 h.full
  rw [setInterpolator_run] at this
  cases hm : Interp.make t.temperatures t.nSpeeds t.data with
  | error e => rw [hm] at this; simp at this
  | ok f => refine ⟨{ t with interpolator := some f }, exec_ok.2 (by rw [setInterpolator_run, hm]), h.speeds, h.temps⟩

theorem full2_coolingExtremes {n : Nat} {qc pc : Table K} {mx : K} (hq : Full2 n [frF 82, frF 95] qc) (hp : Full2 n [frF 82, frF 95] pc)
    (hmx : frF 95 < mx) : ∃ qc' pc', coolingExtremes mx qc pc = .ok (qc', pc') ∧ Full2 n [frF 60, frF 82, frF 95, mx] qc' ∧
      Full2 n [frF 60, frF 82, frF 95, mx] pc' := by
  have h60 : frF (60 : K) < frF 82 := by rw [frF_lt]; norm_num
  obtain ⟨q1, e1, g1⟩ := hq.below h60 true (some 0.5)
  obtain ⟨p1, e2, g2⟩ := hp.below h60 true (some 0.5)
  obtain ⟨q2, e3, g3⟩ := Full2.above [frF 60] g1 hmx true none
  obtain ⟨p2, e4, g4⟩ := Full2.above [frF 60] g2 hmx true none
  exact ⟨q2, p2, by simp only [coolingExtremes, e1, e2, e3, e4, bind_ok, pure_eq_ok], g3, g4⟩

theorem full2_heatingExtremes {n : Nat} {t : Table K} {mn : K} (h : Full2 n [frF 17, frF 47] t) (hmn : mn < frF 5) :
    ∃ t', heatingExtremes mn t = .ok t' ∧ Full2 n [mn, frF 5, frF 17, frF 47, frF 60] t' := by
  have h5 : frF (5 : K) < frF 17 := by rw [frF_lt]; norm_num
  have h60 : frF (47 : K) < frF 60 := by rw [frF_lt]; norm_num
  obtain ⟨q1, e1, g1⟩ := h.below h5 true none
  obtain ⟨q2, e2, g2⟩ := g1.below hmn true none
  obtain ⟨q3, e3, g3⟩ := Full2.above [mn, frF 5] g2 h60 false none
  exact ⟨q3, by simp only [heatingExtremes, e1, e2, e3, bind_ok], g3⟩

theorem full2_finish {n m : Nat} {tc th : List K} {qc pc qh ph : Table K} (h1 : Full2 n tc qc) (h2 : Full2 n tc pc)
    (h3 : Full2 m th qh) (h4 : Full2 m th ph) (hc : tc ≠ []) (hh : th ≠ []) (hn : n ≠ 0) (hm : m ≠ 0) :
    ∃ d, finish qc pc qh ph = .ok d := by
  obtain ⟨a, e1, f1, f1'⟩ := h1.interpolator hc hn
  obtain ⟨b, e2, f2, f2'⟩ := h2.interpolator hc hn
  obtain ⟨c, e3, f3, f3'⟩ := h3.interpolator hh hm
  obtain ⟨d, e4, f4, f4'⟩ := h4.interpolator hh hm
  exact ⟨⟨a, b, c, d⟩, by simp [finish, e1, e2, e3, e4, bind_ok, Perf.init, f1, f2, f3, f4, f1', f2', f3', f4']⟩

theorem op_temps {t t' : Table K} {s : Int} {x v : K} {m : PyM (Table K) Unit} (hw : Writes m t s x v) (hrun : PyM.exec m t = .ok t') :
    t'.temperatures = t.temperatures := by
  obtain ⟨i, k, -, -, -, h4⟩ := hw
  rw [exec_ok] at hrun
  rw [hrun] at h4
  simp only [Prod.mk.injEq, true_and] at h4
  rw [h4]

theorem biquad_cap : ∃ b : K, calcBiquad Nrel.coolingCapFT 67 82 = .ok b ∧ 0 < b := by
  refine ⟨_, by simp only [calcBiquad, Nrel.coolingCapFT, pyGet, List.getElem?_cons_zero, List.getElem?_cons_succ, bind_ok, pure_eq_ok]; rfl, ?_⟩
  norm_num

theorem biquad_eir : ∃ b : K, calcBiquad Nrel.coolingEirFT 67 82 = .ok b ∧ 0 < b := by
  refine ⟨_, by simp only [calcBiquad, Nrel.coolingEirFT, pyGet, List.getElem?_cons_zero, List.getElem?_cons_succ, bind_ok, pure_eq_ok]; rfl, ?_⟩
  norm_num

theorem biquad_heat : ∃ b : K, calcBiquad Nrel.heatingEirFT 70 17 = .ok b ∧ 0 < b := by
  refine ⟨_, by simp only [calcBiquad, Nrel.heatingEirFT, pyGet, List.getElem?_cons_zero, List.getElem?_cons_succ, bind_ok, pure_eq_ok]; rfl, ?_⟩
  norm_num

/-- One setter step: it returns, writes its cell and keeps the rows. -/
theorem step {n : Nat} {t : Table K} {m : PyM (Table K) Unit} {s : Int} {x v : K} (h : TableWF t) (hn : t.nSpeeds = n)
    (hw : Writes m t s x v) : ∃ t', PyM.exec m t = .ok t' ∧ t'.temperatures = t.temperatures ∧ Cell n t' s x v := by
  obtain ⟨t', e⟩ := exec_of_writes hw
  exact ⟨t', e, op_temps hw e, cell_of_writes h hn hw e⟩

theorem set_step {n : Nat} {t : Table K} {s : Int} {x : K} (v : K) (h : TableWF t) (hn : t.nSpeeds = n) (hs : 1 ≤ s ∧ s ≤ n)
    (hx : x ∈ t.temperatures) : ∃ t', PyM.exec (Table.set s x v) t = .ok t' ∧ t'.temperatures = t.temperatures ∧ Cell n t' s x v :=
  step h hn (set_writes h v ⟨hs.1, by rw [hn]; exact hs.2⟩ hx)

theorem ratio_step {n : Nat} {t : Table K} {s : Int} {x q : K} (r : K) (hc : Cell n t n x q) (hs : 1 ≤ s ∧ s < n) :
    ∃ t', PyM.exec (setByRatio s x r) t = .ok t' ∧ t'.temperatures = t.temperatures ∧ Cell n t' s x (q * r) :=
  step hc.wf hc.speeds (setByRatio_writes hc.wf r ⟨hs.1, by rw [hc.speeds]; omega⟩ (by rw [hc.speeds]; omega) hc.mem
    (by rw [hc.speeds]; exact hc.val))

theorem cooling_step {n : Nat} {t : Table K} {s : Int} {x ref m q : K} (hc : Cell n t s ref q) (hx : x ∈ t.temperatures) (hlt : x < ref)
    (hm : m ≠ 0) : ∃ t', PyM.exec (setByMaintenance .cooling s x ref m) t = .ok t' ∧ t'.temperatures = t.temperatures ∧
      Cell n t' s x (q / m) := by
  have hw := setByMaintenance_writes hc.wf .cooling hc.isSpeed hx hm hlt.ne hc.val
  rw [if_neg (by simp; exact hlt.le)] at hw
  exact step hc.wf hc.speeds hw

theorem cooling_up_step {n : Nat} {t : Table K} {s : Int} {x ref m q : K} (hc : Cell n t s ref q) (hx : x ∈ t.temperatures) (hlt : ref < x)
    (hm : m ≠ 0) : ∃ t', PyM.exec (setByMaintenance .cooling s x ref m) t = .ok t' ∧ t'.temperatures = t.temperatures ∧
      Cell n t' s x (q * m) := by
  have hw := setByMaintenance_writes hc.wf .cooling hc.isSpeed hx hm hlt.ne' hc.val
  rw [if_pos (by simp; exact hlt)] at hw
  exact step hc.wf hc.speeds hw

theorem heating_step {n : Nat} {t : Table K} {s : Int} {x ref q : K} (m : K) (hc : Cell n t s ref q) (hx : x ∈ t.temperatures) (hlt : x < ref) :
    ∃ t', PyM.exec (setByMaintenance .heating s x ref m) t = .ok t' ∧ t'.temperatures = t.temperatures ∧ Cell n t' s x (q * m) :=
  step hc.wf hc.speeds (heating_writes hc hx hlt)

theorem getOver_ok {n : Nat} {t : Table K} {s : Int} {x v d : K} (hc : Cell n t s x v) (hd : d ≠ 0) : getOver t s x d = .ok (v / d) := by
  simp only [getOver, hc.val, bind_ok, pyNum, pdiv_ok hd]

/-- C32: the single speed builder returns for all ratings for which the quotients it forms exist and extreme temperatures outside the rated range. -/
theorem C32_single_speed_returns (u : Units K) (q95 seer2 eer2 q47 : K) (q17 : Option K) (hspf2 mx mn : K) (cop : Option K) (cd : K)
    (heer : eer2 ≠ 0) (hseer : seer2 ≠ 0) (hcd : cd ≠ 2) (hq47 : q47 ≠ 0) (hcop : cop.getD (2.837 + 0.066 * hspf2) ≠ 0)
    (hmx : frF 95 < mx) (hmn : mn < frF 5) :
    ∃ d, makeSingleSpeed u q95 seer2 eer2 q47 q17 hspf2 mx mn cop cd = .ok d := by
  obtain ⟨b, hb, hb0⟩ := biquad_cap (K := K)
  obtain ⟨b', hb', hb0'⟩ := biquad_heat (K := K)
  have hm0 : (1 : K) / b ≠ 0 := div_ne_zero one_ne_zero hb0.ne'
  have hs : (1 : Int) ≤ 1 ∧ (1 : Int) ≤ ((1 : Nat) : Int) := by norm_num
  have hbt := u.btuh_pos.ne'
  have hcd' : 1 - 0.5 * cd ≠ 0 := by
    intro h; apply hcd; linarith
  have l8295 : frF (82 : K) < frF 95 := by rw [frF_lt]; norm_num
  have l1747 : frF (17 : K) < frF 47 := by rw [frF_lt]; norm_num
  have full1 : ∀ {t : Table K} {a c v w : K}, t.temperatures = [a, c] → Cell 1 t 1 a v → Cell 1 t 1 c w → Full2 1 [a, c] t := by
    intro t a c v w ht ha hc
    refine ⟨ha.wf, ?_, ha.speeds, ht⟩
    rintro s x ⟨s1, s2⟩ hx
    rw [ha.speeds] at s2
    have : s = 1 := by omega
    subst this
    rw [ht] at hx
    rcases List.mem_cons.1 hx with rfl | hx
    · exact ⟨v, ha.val⟩
    · rw [List.mem_singleton.1 hx]; exact ⟨w, hc.val⟩
  -- cooling
  obtain ⟨q1, e1, t1, c1⟩ := set_step (n := 1) (x := frF 95) q95 (init_wf 1 sorted_82_95) rfl hs (by simp [Table.init])
  obtain ⟨q2, e2, t2, c2⟩ := cooling_step (x := frF 82) c1 (by rw [t1]; simp [Table.init]) l8295 hm0
  have c1' := c1.op (op := .maintenance _ _ _ _ _) e2 (by misses)
  obtain ⟨p1, e3, t3, c3⟩ := set_step (n := 1) (x := frF 95) (q95 / (eer2 * u.btuh)) (init_wf 1 sorted_82_95) rfl hs (by simp [Table.init])
  obtain ⟨p2, e4, t4, c4⟩ := set_step (n := 1) (x := frF 82) (q95 / (1 / b) / (seer2 / (1 - 0.5 * cd) * u.btuh)) c3.wf c3.speeds hs
    (by rw [t3]; simp [Table.init])
  have c3' := c3.op (op := .set _ _ _) e4 (by misses)
  obtain ⟨qc, pc, e5, f1, f2⟩ := full2_coolingExtremes (full1 (by rw [t2, t1]; rfl) c2 c1') (full1 (by rw [t4, t3]; rfl) c4 c3') hmx
  have hcool : singleCooling u q95 seer2 eer2 mx cd = .ok (qc, pc) := by
    simp only [singleCooling, hb, bind_ok, pdiv_ok hb0.ne', e1, e2, getOver_ok c1' (mul_ne_zero heer hbt), e3, pdiv_ok hcd',
      getOver_ok c2 (mul_ne_zero (div_ne_zero hseer hcd') hbt), e4, e5]
  -- heating
  obtain ⟨m, hm⟩ : ∃ m, qm17 (0.626 : K) q47 q17 = .ok m := by
    cases q17 with
    | none => exact ⟨_, rfl⟩
    | some q => exact ⟨_, pdiv_ok hq47⟩
  obtain ⟨r1, g1, s1, d1⟩ := set_step (n := 1) (x := frF 47) q47 (init_wf 1 sorted_17_47) rfl hs (by simp [Table.init])
  obtain ⟨r2, g2, s2, d2⟩ := heating_step (x := frF 17) m d1 (by rw [s1]; simp [Table.init]) l1747
  have d1' := d1.op (op := .maintenance _ _ _ _ _) g2 (by misses)
  obtain ⟨qh, g3, f3⟩ := full2_heatingExtremes (full1 (by rw [s2, s1]; rfl) d2 d1') hmn
  have d1'' := heatingExtremes_cells g3 _ _ _ _ d1'
  obtain ⟨w1, g4, s4, d4⟩ := set_step (n := 1) (x := frF 47) (q47 / cop47 hspf2 cop) (init_wf 1 sorted_17_47) rfl hs (by simp [Table.init])
  obtain ⟨w2, g5, s5, d5⟩ := heating_step (x := frF 17) (m * b') d4 (by rw [s4]; simp [Table.init]) l1747
  have d4' := d4.op (op := .maintenance _ _ _ _ _) g5 (by misses)
  obtain ⟨ph, g6, f4⟩ := full2_heatingExtremes (full1 (by rw [s5, s4]; rfl) d5 d4') hmn
  have hheat : singleHeating q47 q17 hspf2 mn cop = .ok (qh, ph) := by
    simp only [singleHeating, hb', hm, bind_ok, g1, g2, g3, getOver_ok d1'' (show cop47 hspf2 cop ≠ 0 from hcop), g4, g5, g6, pure_eq_ok]
  obtain ⟨d, hd⟩ := full2_finish f1 f2 f3 f4 (by simp) (by simp) one_ne_zero one_ne_zero
  exact ⟨d, by simp only [makeSingleSpeed, hcool, hheat, hd, bind_ok]⟩

/-- C32: the two speed builder returns for all ratings for which the quotients it forms exist and extreme temperatures outside the rated range. -/
theorem C32_two_speed_returns (u : Units K) (q95 seer2 eer2 q47 : K) (q17 : Option K) (hspf2 mx mn : K) (cop82 cop : Option K)
    (heer : eer2 ≠ 0) (hcop82 : cop82.getD (seer2 / 2) ≠ 0) (hq47 : q47 ≠ 0) (hcop : cop.getD (2.837 + 0.066 * hspf2) ≠ 0)
    (hmx : frF 95 < mx) (hmn : mn < frF 5) :
    ∃ d, makeTwoSpeed u q95 seer2 eer2 q47 q17 hspf2 mx mn cop82 cop = .ok d := by
  obtain ⟨b, hb, hb0⟩ := biquad_cap (K := K)
  obtain ⟨b2, hb2, hb20⟩ := biquad_eir (K := K)
  obtain ⟨b', hb', hb0'⟩ := biquad_heat (K := K)
  have hm0 : (1 : K) / b ≠ 0 := div_ne_zero one_ne_zero hb0.ne'
  have hm1 : (1 : K) / b * (1 / b2) ≠ 0 := mul_ne_zero hm0 (div_ne_zero one_ne_zero hb20.ne')
  have hs1 : (1 : Int) ≤ 1 ∧ (1 : Int) ≤ ((2 : Nat) : Int) := by norm_num
  have hs1' : (1 : Int) ≤ 1 ∧ (1 : Int) < ((2 : Nat) : Int) := by norm_num
  have hs2 : (1 : Int) ≤ 2 ∧ (2 : Int) ≤ ((2 : Nat) : Int) := by norm_num
  have hbt := u.btuh_pos.ne'
  have l8295 : frF (82 : K) < frF 95 := by rw [frF_lt]; norm_num
  have l1747 : frF (17 : K) < frF 47 := by rw [frF_lt]; norm_num
  have full2 : ∀ {t : Table K} {a c v1 v2 w1 w2 : K}, t.temperatures = [a, c] → Cell 2 t 1 a v1 → Cell 2 t 2 a v2 → Cell 2 t 1 c w1 →
      Cell 2 t 2 c w2 → Full2 2 [a, c] t := by
    intro t a c v1 v2 w1 w2 ht ha1 ha2 hc1 hc2
    refine ⟨ha1.wf, ?_, ha1.speeds, ht⟩
    rintro s x ⟨s1, s2⟩ hx
    rw [ha1.speeds] at s2
    have : s = 1 ∨ s = 2 := by omega
    rw [ht] at hx
    rcases List.mem_cons.1 hx with rfl | hx
    · rcases this with rfl | rfl
      · exact ⟨_, ha1.val⟩
      · exact ⟨_, ha2.val⟩
    · rw [List.mem_singleton.1 hx]
      rcases this with rfl | rfl
      · exact ⟨_, hc1.val⟩
      · exact ⟨_, hc2.val⟩
  -- cooling
  obtain ⟨q1, e1, t1, c1⟩ := set_step (n := 2) (s := 2) (x := frF 95) q95 (init_wf 2 sorted_82_95) rfl hs2 (by simp [Table.init])
  obtain ⟨q2, e2, t2, c2⟩ := ratio_step (n := 2) (s := 1) (0.728 : K) c1 hs1'
  have c1_2 := c1.op (op := .ratio _ _ _) e2 (by misses)
  obtain ⟨q3, e3, t3, c3⟩ := cooling_step (x := frF 82) c1_2 (by rw [t2, t1]; simp [Table.init]) l8295 hm0
  have c1_3 := c1_2.op (op := .maintenance _ _ _ _ _) e3 (by misses)
  have c2_3 := c2.op (op := .maintenance _ _ _ _ _) e3 (by misses)
  obtain ⟨q4, e4, t4, c4⟩ := ratio_step (n := 2) (s := 1) (0.728 : K) c3 hs1'
  have c1_4 := c1_3.op (op := .ratio _ _ _) e4 (by misses)
  have c2_4 := c2_3.op (op := .ratio _ _ _) e4 (by misses)
  have c3_4 := c3.op (op := .ratio _ _ _) e4 (by misses)
  obtain ⟨p1, e5, t5, k1⟩ := set_step (n := 2) (s := 2) (x := frF 95) (q95 / (eer2 * u.btuh)) (init_wf 2 sorted_82_95) rfl hs2
    (by simp [Table.init])
  obtain ⟨p2, e6, t6, k2⟩ := cooling_step (x := frF 82) k1 (by rw [t5]; simp [Table.init]) l8295 hm1
  have k1_2 := k1.op (op := .maintenance _ _ _ _ _) e6 (by misses)
  obtain ⟨p3, e7, t7, k3⟩ := set_step (n := 2) (s := 1) (x := frF 82) (q95 / (1 / b) * 0.728 / cop82.getD (seer2 / 2)) k2.wf k2.speeds hs1
    (by rw [t6, t5]; simp [Table.init])
  have k1_3 := k1_2.op (op := .set _ _ _) e7 (by misses)
  have k2_3 := k2.op (op := .set _ _ _) e7 (by misses)
  obtain ⟨p4, e8, t8, k4⟩ := cooling_up_step (x := frF 95) k3 (by rw [t7, t6, t5]; simp [Table.init]) l8295 hm1
  have k1_4 := k1_3.op (op := .maintenance _ _ _ _ _) e8 (by misses)
  have k2_4 := k2_3.op (op := .maintenance _ _ _ _ _) e8 (by misses)
  have k3_4 := k3.op (op := .maintenance _ _ _ _ _) e8 (by misses)
  obtain ⟨qc, pc, e9, f1, f2⟩ := full2_coolingExtremes (full2 (by rw [t4, t3, t2, t1]; rfl) c4 c3_4 c2_4 c1_4)
    (full2 (by rw [t8, t7, t6, t5]; rfl) k3_4 k2_4 k4 k1_4) hmx
  have hcool : twoCooling u q95 seer2 eer2 mx cop82 = .ok (qc, pc) := by
    simp only [twoCooling, hb, hb2, bind_ok, pdiv_ok hb0.ne', pdiv_ok hb20.ne', e1, e2, e3, e4,
      getOver_ok c1_4 (mul_ne_zero heer hbt), e5, e6, getOver_ok c4 hcop82, e7, e8, e9]
  -- heating
  obtain ⟨m, hm⟩ : ∃ m, qm17 (0.626 : K) q47 q17 = .ok m := by
    cases q17 with
    | none => exact ⟨_, rfl⟩
    | some q => exact ⟨_, pdiv_ok hq47⟩
  obtain ⟨r1, g1, s1, d1⟩ := set_step (n := 2) (s := 2) (x := frF 47) q47 (init_wf 2 sorted_17_47) rfl hs2 (by simp [Table.init])
  obtain ⟨r2, g2, s2, d2⟩ := ratio_step (n := 2) (s := 1) (0.712 : K) d1 hs1'
  have d1_2 := d1.op (op := .ratio _ _ _) g2 (by misses)
  obtain ⟨r3, g3, s3, d3⟩ := heating_step (x := frF 17) m d1_2 (by rw [s2, s1]; simp [Table.init]) l1747
  have d1_3 := d1_2.op (op := .maintenance _ _ _ _ _) g3 (by misses)
  have d2_3 := d2.op (op := .maintenance _ _ _ _ _) g3 (by misses)
  obtain ⟨r4, g4, s4, d4⟩ := ratio_step (n := 2) (s := 1) (0.712 : K) d3 hs1'
  have d1_4 := d1_3.op (op := .ratio _ _ _) g4 (by misses)
  have d2_4 := d2_3.op (op := .ratio _ _ _) g4 (by misses)
  have d3_4 := d3.op (op := .ratio _ _ _) g4 (by misses)
  obtain ⟨qh, g5, f3⟩ := full2_heatingExtremes (full2 (by rw [s4, s3, s2, s1]; rfl) d4 d3_4 d2_4 d1_4) hmn
  have d1_5 := heatingExtremes_cells g5 _ _ _ _ d1_4
  obtain ⟨w1, g6, s6, j1⟩ := set_step (n := 2) (s := 2) (x := frF 47) (q47 / cop47 hspf2 cop) (init_wf 2 sorted_17_47) rfl hs2
    (by simp [Table.init])
  obtain ⟨w2, g7, s7, j2⟩ := ratio_step (n := 2) (s := 1) (0.712 * 0.850 : K) j1 hs1'
  have j1_2 := j1.op (op := .ratio _ _ _) g7 (by misses)
  obtain ⟨w3, g8, s8, j3⟩ := heating_step (x := frF 17) (m * b') j1_2 (by rw [s7, s6]; simp [Table.init]) l1747
  have j1_3 := j1_2.op (op := .maintenance _ _ _ _ _) g8 (by misses)
  have j2_3 := j2.op (op := .maintenance _ _ _ _ _) g8 (by misses)
  obtain ⟨w4, g9, s9, j4⟩ := ratio_step (n := 2) (s := 1) (0.712 * 0.850 : K) j3 hs1'
  have j1_4 := j1_3.op (op := .ratio _ _ _) g9 (by misses)
  have j2_4 := j2_3.op (op := .ratio _ _ _) g9 (by misses)
  have j3_4 := j3.op (op := .ratio _ _ _) g9 (by misses)
  obtain ⟨ph, g10, f4⟩ := full2_heatingExtremes (full2 (by rw [s9, s8, s7, s6]; rfl) j4 j3_4 j2_4 j1_4) hmn
  have hheat : twoHeating q47 q17 hspf2 mn cop = .ok (qh, ph) := by
    simp only [twoHeating, hb', hm, bind_ok, g1, g2, g3, g4, g5, getOver_ok d1_5 (show cop47 hspf2 cop ≠ 0 from hcop), g6, g7, g8, g9, g10, pure_eq_ok]
  obtain ⟨d, hd⟩ := full2_finish f1 f2 f3 f4 (by simp) (by simp) two_ne_zero two_ne_zero
  exact ⟨d, by simp only [makeTwoSpeed, hcool, hheat, hd, bind_ok]⟩

/-! ## Concrete ratings -/

example : (makeSingleSpeed (Units.ofOnes ℚ) 10000 14 12 10000 (some 6000) 8).map (fun d => (d.coolingCapacity 1, d.coolingCop 1, d.heatingCop 1)) =
    .ok (.ok 10000, .ok 12, .ok (673 / 200)) := by decide +kernel

example : (makeTwoSpeed (Units.ofOnes ℚ) 10000 14 12 10000 (some 6000) 8).map (fun d => (d.coolingCapacity 2, d.coolingCop 2, d.heatingCop 2)) =
    .ok (.ok 10000, .ok 12, .ok (673 / 200)) := by decide +kernel

example : (makeNeepStatistical (Units.ofOnes ℚ) 10000 18 12 10000 (some 6000) 8).map (fun d => (d.coolingCapacity 2, d.coolingCop 2, d.heatingCop 2)) =
    .ok (.ok 10000, .ok 12, .ok (673 / 200)) := by decide +kernel

example : (12 : ℚ) ≠ 0 ∧ (frF 95 : ℚ) < frF 125 ∧ (frF (-20) : ℚ) < frF 5 := by decide +kernel

end Resdx.Props
