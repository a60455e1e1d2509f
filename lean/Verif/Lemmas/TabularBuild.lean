import Verif.Model.TabularBuild
import Verif.Lemmas.TabularAdd
import Verif.Lemmas.TabularInterp

set_option linter.unusedSectionVars false
set_option linter.unusedSimpArgs false

/-! # Helper lemmas for the table builders -/

namespace Resdx.Tabular

open Spec Util

variable {K : Type} [Field K] [LinearOrder K] [IsStrictOrderedRing K]

theorem exec_ok {σ : Type} {m : PyM σ Unit} {s s' : σ} : PyM.exec m s = .ok s' ↔ m s = (.ok (), s') := by
  unfold PyM.exec
  cases h : m s with
  | mk r s1 => cases r with
    | ok u => cases u; simp
    | error e => simp

namespace Table

/-- Well-formed table with `n` speeds whose cell `(s, x)` holds `v`. -/
structure Cell (n : Nat) (t : Table K) (s : Int) (x v : K) : Prop where
  wf : TableWF t
  speeds : t.nSpeeds = n
  speed : 1 ≤ s ∧ s ≤ n
  val : t.get s x = .ok (some v)

theorem Cell.mem {n : Nat} {t : Table K} {s : Int} {x v : K} (h : Cell n t s x v) : x ∈ t.temperatures := by
  by_contra hcon
  have := h.val
  rw [Table.get, pyIndex_not_mem hcon, bind_error] at this; simp at this

theorem Cell.isSpeed {n : Nat} {t : Table K} {s : Int} {x v : K} (h : Cell n t s x v) : IsSpeed t s :=
  ⟨h.speed.1, by rw [h.speeds]; exact h.speed.2⟩

/-- The call does not touch the cell `(s, x)`. -/
def Misses (n : Nat) (op : TableOp K) (s : Int) (x : K) : Prop :=
  match op with
  | .set s' x' _ | .ratio s' x' _ | .interpolation s' x' | .maintenance _ s' x' _ _ =>
    (1 ≤ s' ∧ s' ≤ n) ∧ (s' ≠ s ∨ x' ≠ x)
  | .add _ _ _ | .interpolator => True
  | .correction _ => False

/-- The cell a one-cell setter stores to. -/
theorem store_misses {n : Nat} {t t' : Table K} {s s' : Int} {x x' v : K} {i : Nat} {w : Option K} (hc : Cell n t s x v)
    (hs' : 1 ≤ s' ∧ s' ≤ n) (hne : s' ≠ s ∨ x' ≠ x) (hi : pyIndex t.temperatures x' = .ok i)
    (hrun : store (i : Int) (s' - 1) w t = (.ok (), t')) : Cell n t' s x v := by
  obtain ⟨k, hk, hkn⟩ := isSpeed_nat (t := t) (speed := s') ⟨hs'.1, by rw [hc.speeds]; exact hs'.2⟩
  have hi' := pyIndex_ok hi
  obtain ⟨c, hc'⟩ := at_of_wf hc.wf hi' hkn
  rw [hk, store_ok w hc'] at hrun
  simp only [Prod.mk.injEq, true_and] at hrun
  subst hrun
  refine ⟨wf_upd hc.wf _ _ _, hc.speeds, hc.speed, ?_⟩
  rw [get_upd_other hc.wf w hk hi' hc.isSpeed ?_, hc.val]
  rcases hne with h | h
  · exact .inl (Ne.symm h)
  · exact .inr (Ne.symm h)

/-- A cell survives a call that misses it. -/
theorem Cell.op {n : Nat} {t t' : Table K} {s : Int} {x v : K} (hc : Cell n t s x v) {op : TableOp K}
    (hrun : PyM.exec op.run t = .ok t') (hm : Misses n op s x) : Cell n t' s x v := by
  rw [exec_ok] at hrun
  cases op with
  | set s' x' w =>
    simp only [TableOp.run, Table.set, PyM.bind_run, PyM.get_run, PyM.liftM_run, PyM.monadLift_run] at hrun
    cases hi : pyIndex t.temperatures x' with
    | error e => rw [hi] at hrun; simp at hrun
    | ok i => rw [hi] at hrun; exact store_misses hc hm.1 hm.2 hi hrun
  | ratio s' x' r =>
    simp only [TableOp.run, Table.setByRatio, PyM.bind_run, PyM.get_run, PyM.liftM_run, PyM.monadLift_run] at hrun
    cases hi : pyIndex t.temperatures x' with
    | error e => rw [hi] at hrun; simp at hrun
    | ok i =>
      rw [hi] at hrun; simp only at hrun
      split at hrun
      · simp only [PyM.bind_run, PyM.liftM_run, PyM.monadLift_run] at hrun
        split at hrun
        · rename_i a s1 h1
          simp only [Prod.mk.injEq] at h1
          obtain ⟨-, rfl⟩ := h1
          split at hrun
          · rename_i a s2 h2
            simp only [Prod.mk.injEq] at h2
            obtain ⟨-, rfl⟩ := h2
            split at hrun
            · rename_i a s3 h3
              simp only [Prod.mk.injEq] at h3
              obtain ⟨-, rfl⟩ := h3
              exact store_misses hc hm.1 hm.2 hi hrun
            · simp at hrun
          · simp at hrun
        · simp at hrun
      · simp only [PyM.bind_run, PyM.liftM_run, PyM.monadLift_run] at hrun
        split at hrun
        · rename_i a s1 h1
          simp only [Prod.mk.injEq] at h1
          obtain ⟨-, rfl⟩ := h1
          split at hrun
          · rename_i a s2 h2
            simp only [Prod.mk.injEq] at h2
            obtain ⟨-, rfl⟩ := h2
            exact store_misses hc hm.1 hm.2 hi hrun
          · simp at hrun
        · simp at hrun
  | interpolation s' x' =>
    simp only [TableOp.run, Table.setByInterpolation, PyM.bind_run, PyM.get_run, PyM.liftM_run, PyM.monadLift_run] at hrun
    cases hi : pyIndex t.temperatures x' with
    | error e => rw [hi] at hrun; simp at hrun
    | ok i =>
      rw [hi] at hrun; simp only at hrun
      split at hrun
      · rename_i a s1 h1
        simp only [Prod.mk.injEq] at h1
        obtain ⟨-, rfl⟩ := h1
        exact store_misses hc hm.1 hm.2 hi hrun
      · simp at hrun
  | maintenance k s' x' ref r =>
    simp only [TableOp.run, Table.setByMaintenance, PyM.bind_run, PyM.get_run, PyM.liftM_run, PyM.monadLift_run] at hrun
    cases hi : pyIndex t.temperatures x' with
    | error e => rw [hi] at hrun; simp at hrun
    | ok i =>
      rw [hi] at hrun; simp only at hrun
      cases hj : pyIndex t.temperatures ref with
      | error e => rw [hj] at hrun; simp at hrun
      | ok j =>
        rw [hj] at hrun; simp only at hrun
        split at hrun
        · rename_i a s1 h1
          simp only [Prod.mk.injEq] at h1
          obtain ⟨-, rfl⟩ := h1
          split at hrun
          · rename_i a s2 h2
            simp only [Prod.mk.injEq] at h2
            obtain ⟨-, rfl⟩ := h2
            split at hrun
            · exact store_misses hc hm.1 hm.2 hi hrun
            · simp only [PyM.bind_run, PyM.liftM_run, PyM.monadLift_run] at hrun
              split at hrun
              · rename_i a s3 h3
                simp only [Prod.mk.injEq] at h3
                obtain ⟨-, rfl⟩ := h3
                exact store_misses hc hm.1 hm.2 hi hrun
              · simp at hrun
          · simp at hrun
        · simp at hrun
  | add y e limit =>
    simp only [TableOp.run] at hrun
    have hy : y ∉ t.temperatures := by
      intro hy; rw [addTemperature_present hy] at hrun; simp at hrun
    rw [addTemperature_new hc.wf hy] at hrun
    have hs := fillNew_sameBut y e limit (insPos t.temperatures y) (inserted t y)
    rw [hrun] at hs
    have hw := hs.wf (inserted_wf hc.wf hy)
    obtain ⟨k, hk, hkn⟩ := isSpeed_nat hc.isSpeed
    obtain ⟨i, hi⟩ := List.mem_iff_getElem?.1 hc.mem
    refine ⟨hw, ?_, hc.speed, ?_⟩
    · rw [hs.2.1]; exact hc.speeds
    · rw [← hc.val]
      obtain ⟨j, hj, hj1, hj2⟩ := inserted_at hc.wf hy hi
      rw [get_at hc.wf hk hi, get_at hw hk (by rw [hs.1]; exact hj1), hs.2.2.2.2.2 j k hj, hj2 k]
  | interpolator =>
    simp only [TableOp.run] at hrun
    rw [setInterpolator_run] at hrun
    cases hmk : Interp.make t.temperatures t.nSpeeds t.data with
    | error e => rw [hmk] at hrun; simp at hrun
    | ok f =>
      rw [hmk] at hrun
      simp only [Prod.mk.injEq, true_and] at hrun
      subst hrun
      exact ⟨⟨hc.wf.sorted, hc.wf.rows, hc.wf.cols⟩, hc.speeds, hc.speed, hc.val⟩
  | correction p => exact absurd hm (by simp [Misses])

theorem init_wf {temps : List K} (n : Nat) (h : temps.Pairwise (· < ·)) : TableWF (Table.init temps n) :=
  ⟨h, by simp [Table.init], by intro row hr; simp [Table.init] at hr; simp [hr, Table.init]⟩

/-- The cell written by `set`. -/
theorem cell_set {n : Nat} {t t' : Table K} {s : Int} {x v : K} (h : TableWF t) (hn : t.nSpeeds = n) (hs : 1 ≤ s ∧ s ≤ n)
    (hrun : PyM.exec (Table.set s x v) t = .ok t') : Cell n t' s x v := by
  rw [exec_ok] at hrun
  have hx : x ∈ t.temperatures := by
    by_contra hcon
    simp only [Table.set, PyM.bind_run, PyM.get_run, PyM.liftM_run, PyM.monadLift_run, pyIndex_not_mem hcon] at hrun
    simp at hrun
  obtain ⟨i, k, h1, h2, h3, h4⟩ := set_writes h (speed := s) v ⟨hs.1, by rw [hn]; exact hs.2⟩ hx
  rw [hrun] at h4
  simp only [Prod.mk.injEq, true_and] at h4
  subst h4
  exact ⟨wf_upd h _ _ _, hn, hs, get_upd_self h _ h1 h2 h3⟩

theorem cell_of_writes {n : Nat} {t t' : Table K} {m : PyM (Table K) Unit} {s : Int} {x v : K} (h : TableWF t) (hn : t.nSpeeds = n)
    (hw : Writes m t s x v) (hrun : PyM.exec m t = .ok t') : Cell n t' s x v := by
  rw [exec_ok] at hrun
  obtain ⟨i, k, h1, h2, h3, h4⟩ := hw
  rw [hrun] at h4
  simp only [Prod.mk.injEq, true_and] at h4
  subst h4
  exact ⟨wf_upd h _ _ _, hn, ⟨by omega, by omega⟩, get_upd_self h _ h1 h2 h3⟩

theorem exec_of_writes {t : Table K} {m : PyM (Table K) Unit} {s : Int} {x v : K} (hw : Writes m t s x v) :
    ∃ t', PyM.exec m t = .ok t' := by
  obtain ⟨i, k, h1, h2, h3, h4⟩ := hw
  exact ⟨_, exec_ok.2 h4⟩

theorem heating_writes {n : Nat} {t : Table K} {s : Int} {x ref m q : K} (hc : Cell n t s ref q) (hx : x ∈ t.temperatures) (hlt : x < ref) :
    Writes (setByMaintenance .heating s x ref m) t s x (q * m) := by
  obtain ⟨i, hi⟩ := List.mem_iff_getElem?.1 hx
  obtain ⟨j, hj⟩ := List.mem_iff_getElem?.1 hc.mem
  obtain ⟨k, hk, hkn⟩ := isSpeed_nat hc.isSpeed
  obtain ⟨c, hc'⟩ := at_of_wf hc.wf hi hkn
  have hcell := cell_of_get hc.wf hk hj hc.val
  have hmul : Kind.multiplies .heating i j := (sorted_lt_iff hc.wf.sorted hi hj).1 hlt
  refine ⟨i, k, hk, hkn, hi, ?_⟩
  simp only [setByMaintenance, PyM.bind_run, PyM.get_run, PyM.liftM_run, PyM.monadLift_run, pyIndex_sorted hc.wf.sorted hi,
    pyIndex_sorted hc.wf.sorted hj, hk, hcell, pyNum, if_pos hmul, store_ok _ hc']

/-- The cell written by the heating `set_by_maintenance` towards lower temperatures (any factor). -/
theorem cell_maintenance_heating {n : Nat} {t t' : Table K} {s : Int} {x ref m q : K} (hc : Cell n t s ref q) (hlt : x < ref)
    (hrun : PyM.exec (setByMaintenance .heating s x ref m) t = .ok t') : Cell n t' s x (q * m) := by
  by_cases hx : x ∈ t.temperatures
  · exact cell_of_writes hc.wf hc.speeds (heating_writes hc hx hlt) hrun
  · rw [exec_ok] at hrun
    simp only [setByMaintenance, PyM.bind_run, PyM.get_run, PyM.liftM_run, PyM.monadLift_run, pyIndex_not_mem hx] at hrun
    simp at hrun

/-- The cell written by the cooling `set_by_maintenance` towards lower temperatures. -/
theorem cell_maintenance_cooling {n : Nat} {t t' : Table K} {s : Int} {x ref m q : K} (hc : Cell n t s ref q) (hlt : x < ref) (hm : m ≠ 0)
    (hrun : PyM.exec (setByMaintenance .cooling s x ref m) t = .ok t') : Cell n t' s x (q / m) := by
  by_cases hx : x ∈ t.temperatures
  · have hw := setByMaintenance_writes hc.wf .cooling hc.isSpeed hx hm hlt.ne hc.val
    rw [if_neg (by simp; exact hlt.le)] at hw
    exact cell_of_writes hc.wf hc.speeds hw hrun
  · rw [exec_ok] at hrun
    simp only [setByMaintenance, PyM.bind_run, PyM.get_run, PyM.liftM_run, PyM.monadLift_run, pyIndex_not_mem hx] at hrun
    simp at hrun

/-- The cell written by the cooling `set_by_maintenance` towards higher temperatures. -/
theorem cell_maintenance_cooling_up {n : Nat} {t t' : Table K} {s : Int} {x ref m q : K} (hc : Cell n t s ref q) (hlt : ref < x) (hm : m ≠ 0)
    (hrun : PyM.exec (setByMaintenance .cooling s x ref m) t = .ok t') : Cell n t' s x (q * m) := by
  by_cases hx : x ∈ t.temperatures
  · have hw := setByMaintenance_writes hc.wf .cooling hc.isSpeed hx hm hlt.ne' hc.val
    rw [if_pos (by simp; exact hlt)] at hw
    exact cell_of_writes hc.wf hc.speeds hw hrun
  · rw [exec_ok] at hrun
    simp only [setByMaintenance, PyM.bind_run, PyM.get_run, PyM.liftM_run, PyM.monadLift_run, pyIndex_not_mem hx] at hrun
    simp at hrun

/-- The cell written by `set_by_ratio` below the highest speed. -/
theorem cell_ratio {n : Nat} {t t' : Table K} {s : Int} {x r q : K} (hc : Cell n t n x q) (hs : 1 ≤ s ∧ s < n)
    (hrun : PyM.exec (setByRatio s x r) t = .ok t') : Cell n t' s x (q * r) := by
  have hw := setByRatio_writes hc.wf (speed := s) (x := x) r ⟨hs.1, by rw [hc.speeds]; omega⟩ (by rw [hc.speeds]; omega) hc.mem
    (by rw [hc.speeds]; exact hc.val)
  exact cell_of_writes hc.wf hc.speeds hw hrun

/-- The cell written by `set_by_ratio` at the highest speed. -/
theorem cell_ratio_max {n : Nat} {t t' : Table K} {s : Int} {x r q : K} (hc : Cell n t s x q) (hs : s + 1 = n) (hr : r ≠ 0)
    (hrun : PyM.exec (setByRatio n x r) t = .ok t') : Cell n t' n x (q / r) := by
  have h2 := hc.speed
  have hw := setByRatio_max_writes hc.wf (x := x) (by rw [hc.speeds]; omega) hr hc.mem
    (by rw [hc.speeds, show ((n : Int) - 1) = s by omega]; exact hc.val)
  rw [hc.speeds] at hw
  exact cell_of_writes hc.wf hc.speeds hw hrun

/-- What a returned read means. -/
theorem Cell.getOver {n : Nat} {t : Table K} {s : Int} {x v d r : K} (hc : Cell n t s x v) (h : Tabular.getOver t s x d = .ok r) :
    d ≠ 0 ∧ r = v / d := by
  simp only [Tabular.getOver, hc.val, bind_ok, pyNum, pdiv_eq_ok] at h
  exact ⟨h.1, h.2.symm⟩

/-- After `set_interpolator` the cell is what the lookup returns. -/
theorem Cell.lookup {n : Nat} {t t' : Table K} {s : Int} {x v : K} (hc : Cell n t s x v)
    (hrun : PyM.exec setInterpolator t = .ok t') : t'.calculate (s : K) x = .ok v := by
  have hc' := hc.op (op := .interpolator) hrun trivial
  have hf : Fresh t' := ⟨t, exec_ok.1 hrun⟩
  obtain ⟨vs, hvs, hlen, hrows, ht, hn, -, hcalc⟩ := fresh_data hf
  obtain ⟨k, hk, hkn⟩ := isSpeed_nat hc'.isSpeed
  obtain ⟨i, hi⟩ := List.mem_iff_getElem?.1 hc'.mem
  obtain ⟨row, h1, h2⟩ := (fresh_cell hf hvs hk hi).1 hc'.val
  have hsk : (s : K) = (k : K) + 1 := by
    have : s = (k : Int) + 1 := by omega
    rw [this]; push_cast; rfl
  rw [hcalc]
  congr 1
  refine interp1_node (fresh_wf hf).sorted (by simpa using hlen) hi ?_
  rw [List.getElem?_map, h1]
  simp only [Option.map_some, Option.some.injEq]
  rw [hsk]
  exact interp1_node (speedGrid_sorted _) (by rw [speedGrid_length, hrows row (List.mem_of_getElem? h1)]) (speedGrid_get _ _ hkn) h2

theorem store_temps {t : Table K} {i s : Int} {v : Option K} : (store i s v t).2.temperatures = t.temperatures := by
  rcases store_cases t i s v with ⟨e, h1⟩ | ⟨i', k, h1⟩ <;> rw [h1]

/-- Rows are only ever added. -/
theorem op_sublist {t t' : Table K} {op : TableOp K} (hrun : PyM.exec op.run t = .ok t') (hcor : ∀ p, op ≠ .correction p) :
    t.temperatures.Sublist t'.temperatures := by
  rw [exec_ok] at hrun
  have e : t' = (op.run t).2 := by rw [hrun]
  rw [e]
  clear hrun e
  cases op with
  | set s' x' w =>
    simp only [TableOp.run, Table.set, PyM.bind_run, PyM.get_run, PyM.liftM_run, PyM.monadLift_run]
    split
    · rename_i a s1 h1; simp only [Prod.mk.injEq] at h1; obtain ⟨-, rfl⟩ := h1; rw [store_temps]
    · rename_i a s1 h1; simp only [Prod.mk.injEq] at h1; obtain ⟨-, rfl⟩ := h1; exact List.Sublist.refl _
  | ratio s' x' r =>
    simp only [TableOp.run, Table.setByRatio, PyM.bind_run, PyM.get_run, PyM.liftM_run, PyM.monadLift_run]
    cases pyIndex t.temperatures x' with
    | error e => exact List.Sublist.refl _
    | ok i =>
      simp only
      split <;> simp only [PyM.bind_run, PyM.liftM_run, PyM.monadLift_run] <;>
      · cases cell t.data i _ with
        | error e => exact List.Sublist.refl _
        | ok c =>
          simp only
          cases pyNum c with
          | error e => exact List.Sublist.refl _
          | ok c =>
            simp only
            first
              | (rw [store_temps])
              | (cases pdiv c r with
                  | error e => exact List.Sublist.refl _
                  | ok c => simp only; rw [store_temps])
  | interpolation s' x' =>
    simp only [TableOp.run, Table.setByInterpolation, PyM.bind_run, PyM.get_run, PyM.liftM_run, PyM.monadLift_run]
    cases pyIndex t.temperatures x' with
    | error e => exact List.Sublist.refl _
    | ok i =>
      simp only
      split
      · rename_i a s1 h1; simp only [Prod.mk.injEq] at h1; obtain ⟨-, rfl⟩ := h1; rw [store_temps]
      · rename_i a s1 h1; simp only [Prod.mk.injEq] at h1; obtain ⟨-, rfl⟩ := h1; exact List.Sublist.refl _
  | maintenance k s' x' ref r =>
    simp only [TableOp.run, Table.setByMaintenance, PyM.bind_run, PyM.get_run, PyM.liftM_run, PyM.monadLift_run]
    cases pyIndex t.temperatures x' with
    | error e => exact List.Sublist.refl _
    | ok i =>
      simp only
      cases pyIndex t.temperatures ref with
      | error e => exact List.Sublist.refl _
      | ok j =>
        simp only
        cases cell t.data j _ with
        | error e => exact List.Sublist.refl _
        | ok c =>
          simp only
          cases pyNum c with
          | error e => exact List.Sublist.refl _
          | ok c =>
            simp only
            split
            · rw [store_temps]
            · simp only [PyM.bind_run, PyM.liftM_run, PyM.monadLift_run]
              cases pdiv c r with
              | error e => exact List.Sublist.refl _
              | ok c => simp only; rw [store_temps]
  | add y e limit =>
    simp only [TableOp.run, addTemperature, PyM.bind_run, PyM.get_run]
    split
    · exact List.Sublist.refl _
    · have hsub : t.temperatures.Sublist (insort t.temperatures y) := by
        simp only [insort]
        generalize bisectRight t.temperatures y _ _ _ = k
        simp only [pyInsert]
        conv_lhs => rw [← List.take_append_drop k t.temperatures]
        exact List.Sublist.append (List.Sublist.refl _) (List.sublist_cons_self _ _)
      simp only [insertEmpty, PyM.bind_run, PyM.get_run, PyM.modify_run, PyM.liftM_run, PyM.monadLift_run, PyM.pure_run]
      cases pyIndex (insort t.temperatures y) y with
      | error e => exact hsub
      | ok i =>
        simp only
        rw [(fillNew_sameBut y e limit i _).1]
        exact hsub
  | interpolator =>
    simp only [TableOp.run, setInterpolator_run]
    cases Interp.make t.temperatures t.nSpeeds t.data <;> exact List.Sublist.refl _
  | correction p => exact absurd rfl (hcor p)

end Table

end Resdx.Tabular
