import Verif.Lemmas.TabularCells

set_option linter.unusedSectionVars false
set_option linter.unusedSimpArgs false

/-! # Helper lemmas for the tables built from measured data -/

namespace Resdx.Tabular

open Spec Util

variable {K : Type} [Field K] [LinearOrder K] [IsStrictOrderedRing K]

/-- A first call on one of the four tables, undone. -/
theorem onQc_bind {β : Type} {m : PyM (Table K) Unit} {k : Unit → PyM (Perf K) β} {p p' : Perf K} {b : β}
    (h : (Perf.onQc m >>= k) p = (.ok b, p')) :
    ∃ q, PyM.exec m p.coolingCapacities = .ok q ∧ k () { p with coolingCapacities := q } = (.ok b, p') := by
  simp only [PyM.bind_run, Perf.onQc, PyM.zoom_run] at h
  cases hm : m p.coolingCapacities with
  | mk r q => cases r with
    | ok u => rw [hm] at h; exact ⟨q, exec_ok.2 hm, h⟩
    | error e => rw [hm] at h; simp at h

theorem onPc_bind {β : Type} {m : PyM (Table K) Unit} {k : Unit → PyM (Perf K) β} {p p' : Perf K} {b : β}
    (h : (Perf.onPc m >>= k) p = (.ok b, p')) :
    ∃ q, PyM.exec m p.coolingPowers = .ok q ∧ k () { p with coolingPowers := q } = (.ok b, p') := by
  simp only [PyM.bind_run, Perf.onPc, PyM.zoom_run] at h
  cases hm : m p.coolingPowers with
  | mk r q => cases r with
    | ok u => rw [hm] at h; exact ⟨q, exec_ok.2 hm, h⟩
    | error e => rw [hm] at h; simp at h

theorem onQh_bind {β : Type} {m : PyM (Table K) Unit} {k : Unit → PyM (Perf K) β} {p p' : Perf K} {b : β}
    (h : (Perf.onQh m >>= k) p = (.ok b, p')) :
    ∃ q, PyM.exec m p.heatingCapacities = .ok q ∧ k () { p with heatingCapacities := q } = (.ok b, p') := by
  simp only [PyM.bind_run, Perf.onQh, PyM.zoom_run] at h
  cases hm : m p.heatingCapacities with
  | mk r q => cases r with
    | ok u => rw [hm] at h; exact ⟨q, exec_ok.2 hm, h⟩
    | error e => rw [hm] at h; simp at h

theorem onPh_bind {β : Type} {m : PyM (Table K) Unit} {k : Unit → PyM (Perf K) β} {p p' : Perf K} {b : β}
    (h : (Perf.onPh m >>= k) p = (.ok b, p')) :
    ∃ q, PyM.exec m p.heatingPowers = .ok q ∧ k () { p with heatingPowers := q } = (.ok b, p') := by
  simp only [PyM.bind_run, Perf.onPh, PyM.zoom_run] at h
  cases hm : m p.heatingPowers with
  | mk r q => cases r with
    | ok u => rw [hm] at h; exact ⟨q, exec_ok.2 hm, h⟩
    | error e => rw [hm] at h; simp at h

theorem onPh_last {m : PyM (Table K) Unit} {p p' : Perf K} {u : Unit} (h : Perf.onPh m p = (.ok u, p')) :
    PyM.exec m p.heatingPowers = .ok p'.heatingPowers ∧ p' = { p with heatingPowers := p'.heatingPowers } := by
  simp only [Perf.onPh, PyM.zoom_run, Prod.mk.injEq] at h
  obtain ⟨h1, h2⟩ := h
  subst h2
  refine ⟨exec_ok.2 ?_, rfl⟩
  exact Prod.ext h1 rfl

/-- What happens to a cooling table. -/
def CoolChain (maxCooling : K) (t t' : Table K) : Prop :=
  ∃ a b c, PyM.exec (Table.setByInterpolation 2 (frF 82)) t = .ok a ∧ PyM.exec (Table.addTemperature (frF 60) true (some 0.5)) a = .ok b ∧
    PyM.exec (Table.addTemperature maxCooling true none) b = .ok c ∧ PyM.exec Table.setInterpolator c = .ok t'

/-- What happens to a heating table between the 5 F row and the 60 F row. -/
inductive LowChain (lct : Option K) (minHeating : K) (t t' : Table K) : Prop
  | measured (h : lct = none) (h1 : PyM.exec (Table.addTemperature minHeating true none) t = .ok t')
  | above (x : K) (h : lct = some x) (hge : frF x ≤ minHeating) (h1 : PyM.exec (Table.setByInterpolation 2 (frF x)) t = .ok t')
  | below (x : K) (h : lct = some x) (hlt : minHeating < frF x) (a : Table K) (h1 : PyM.exec (Table.setByInterpolation 2 (frF x)) t = .ok a)
      (h2 : PyM.exec (Table.addTemperature minHeating true none) a = .ok t')

/-- What happens to a heating table. -/
def HeatChain (lct : Option K) (minHeating : K) (t t' : Table K) : Prop :=
  ∃ a b c, PyM.exec fillRated5 t = .ok a ∧ LowChain lct minHeating a b ∧ PyM.exec (Table.addTemperature (frF 60) false none) b = .ok c ∧
    PyM.exec Table.setInterpolator c = .ok t'

/-- A returned `make_neep_model_data` body is four independent sequences of table updates. -/
theorem neepBody_ok {lct : Option K} {mx mn : K} {p p' : Perf K} {u : Unit} (h : neepBody lct mx mn p = (.ok u, p')) :
    CoolChain mx p.coolingCapacities p'.coolingCapacities ∧ CoolChain mx p.coolingPowers p'.coolingPowers ∧
    HeatChain lct mn p.heatingCapacities p'.heatingCapacities ∧ HeatChain lct mn p.heatingPowers p'.heatingPowers := by
  unfold neepBody at h
  obtain ⟨a1, ha1, h⟩ := onQc_bind h
  obtain ⟨b1, hb1, h⟩ := onPc_bind h
  obtain ⟨a2, ha2, h⟩ := onQc_bind h
  obtain ⟨b2, hb2, h⟩ := onPc_bind h
  obtain ⟨a3, ha3, h⟩ := onQc_bind h
  obtain ⟨b3, hb3, h⟩ := onPc_bind h
  obtain ⟨c1, hc1, h⟩ := onQh_bind h
  obtain ⟨d1, hd1, h⟩ := onPh_bind h
  simp only at ha1 hb1 ha2 hb2 ha3 hb3 hc1 hd1
  have tail : ∀ {p1 : Perf K} {c2 d2 : Table K}, p1.coolingCapacities = a3 → p1.coolingPowers = b3 → p1.heatingCapacities = c2 →
      p1.heatingPowers = d2 → LowChain lct mn c1 c2 → LowChain lct mn d1 d2 →
      (do
        Perf.onQh (Table.addTemperature (frF 60) false none)
        Perf.onPh (Table.addTemperature (frF 60) false none)
        Perf.onQc Table.setInterpolator
        Perf.onPc Table.setInterpolator
        Perf.onQh Table.setInterpolator
        Perf.onPh Table.setInterpolator : PyM (Perf K) Unit) p1 = (.ok u, p') →
      CoolChain mx p.coolingCapacities p'.coolingCapacities ∧ CoolChain mx p.coolingPowers p'.coolingPowers ∧
      HeatChain lct mn p.heatingCapacities p'.heatingCapacities ∧ HeatChain lct mn p.heatingPowers p'.heatingPowers := by
    intro p1 c2 d2 e1 e2 e3 e4 hlc hld h
    obtain ⟨c3, hc3, h⟩ := onQh_bind h
    obtain ⟨d3, hd3, h⟩ := onPh_bind h
    obtain ⟨a4, ha4, h⟩ := onQc_bind h
    obtain ⟨b4, hb4, h⟩ := onPc_bind h
    obtain ⟨c4, hc4, h⟩ := onQh_bind h
    obtain ⟨hd4, hp⟩ := onPh_last h
    simp only [e1, e2, e3, e4] at hc3 hd3 ha4 hb4 hc4 hd4
    rw [hp]
    exact ⟨⟨a1, a2, a3, ha1, ha2, ha3, ha4⟩, ⟨b1, b2, b3, hb1, hb2, hb3, hb4⟩, ⟨c1, c2, c3, hc1, hlc, hc3, hc4⟩,
      ⟨d1, d2, d3, hd1, hld, hd3, hd4⟩⟩
  cases lct with
  | none =>
    simp only at h
    obtain ⟨c2, hc2, h⟩ := onQh_bind h
    obtain ⟨d2, hd2, h⟩ := onPh_bind h
    simp only at hc2 hd2
    exact tail rfl rfl rfl rfl (.measured rfl hc2) (.measured rfl hd2) h
  | some x =>
    simp only at h
    obtain ⟨c2, hc2, h⟩ := onQh_bind h
    obtain ⟨d2, hd2, h⟩ := onPh_bind h
    simp only at hc2 hd2
    by_cases hlt : mn < frF x
    · simp only [if_pos hlt, bind_assoc] at h
      obtain ⟨c3, hc3, h⟩ := onQh_bind h
      obtain ⟨d3, hd3, h⟩ := onPh_bind h
      simp only at hc3 hd3
      exact tail rfl rfl rfl rfl (.below x rfl hlt c2 hc2 hc3) (.below x rfl hlt d2 hd2 hd3) h
    · simp only [if_neg hlt, pure_bind] at h
      exact tail rfl rfl rfl rfl (.above x rfl (not_lt.1 hlt) hc2) (.above x rfl (not_lt.1 hlt) hd2) h

/-- Rows of values minus rows of temperatures. -/
def gap (t : Table K) : Int := (t.data.length : Int) - t.temperatures.length

theorem store_length {t : Table K} {i s : Int} {v : Option K} : (Table.store i s v t).2.data.length = t.data.length := by
  rcases Table.store_cases t i s v with ⟨e, h1⟩ | ⟨i', k, h1⟩ <;> rw [h1]
  simp [upd_length]

theorem gap_interpolation {t t' : Table K} {s : Int} {x : K} (h : PyM.exec (Table.setByInterpolation s x) t = .ok t') :
    gap t' = gap t ∧ t'.temperatures.length = t.temperatures.length := by
  rw [exec_ok] at h
  have e : t' = (Table.setByInterpolation s x t).2 := by rw [h]
  rw [e]
  simp only [Table.setByInterpolation, PyM.bind_run, PyM.get_run, PyM.liftM_run, PyM.monadLift_run]
  cases pyIndex t.temperatures x with
  | error e => exact ⟨rfl, rfl⟩
  | ok i =>
    simp only
    split
    · rename_i a s1 h1; simp only [Prod.mk.injEq] at h1; obtain ⟨-, rfl⟩ := h1
      simp only [gap, Table.store_temps, store_length, and_self]
    · rename_i a s1 h1; simp only [Prod.mk.injEq] at h1; obtain ⟨-, rfl⟩ := h1; exact ⟨rfl, rfl⟩

theorem gap_add {t t' : Table K} {x : K} {e : Bool} {limit : Option K} (h : PyM.exec (Table.addTemperature x e limit) t = .ok t') :
    gap t' = gap t ∧ t'.temperatures.length = t.temperatures.length + 1 := by
  rw [exec_ok] at h
  simp only [Table.addTemperature, PyM.bind_run, PyM.get_run] at h
  split at h
  · simp [PyM.raise_run] at h
  · simp only [Table.insertEmpty, PyM.bind_run, PyM.get_run, PyM.modify_run, PyM.liftM_run, PyM.monadLift_run, PyM.pure_run] at h
    cases hi : pyIndex (insort t.temperatures x) x with
    | error e => rw [hi] at h; simp at h
    | ok i =>
      rw [hi] at h
      simp only at h
      have hs := Table.fillNew_sameBut x e limit i
        { t with temperatures := insort t.temperatures x, data := pyInsert t.data i (List.replicate t.nSpeeds none) }
      rw [h] at hs
      simp only at hs
      have ht : t'.temperatures.length = t.temperatures.length + 1 := by rw [hs.1]; simp only [insort, pyInsert_length]
      refine ⟨?_, ht⟩
      rw [gap, gap, ht, hs.2.2.2.1]
      simp only [pyInsert_length]
      push_cast; ring

theorem gap_interpolator {t t' : Table K} (h : PyM.exec Table.setInterpolator t = .ok t') :
    gap t = 0 ∧ t'.data = t.data ∧ t'.temperatures = t.temperatures := by
  rw [exec_ok, Table.setInterpolator_run] at h
  cases hm : Interp.make t.temperatures t.nSpeeds t.data with
  | error e => rw [hm] at h; simp at h
  | ok f =>
    rw [hm] at h
    simp only [Prod.mk.injEq, true_and] at h
    subst h
    refine ⟨?_, rfl, rfl⟩
    unfold Interp.make at hm
    split at hm
    · rename_i h1; rw [gap, h1.1]; ring
    · simp at hm

theorem gap_coolChain {mx : K} {t t' : Table K} (h : CoolChain mx t t') : gap t = 0 ∧ t'.data.length = t.temperatures.length + 2 := by
  obtain ⟨a, b, c, h1, h2, h3, h4⟩ := h
  obtain ⟨g1, l1⟩ := gap_interpolation h1
  obtain ⟨g2, l2⟩ := gap_add h2
  obtain ⟨g3, l3⟩ := gap_add h3
  obtain ⟨g4, l4, -⟩ := gap_interpolator h4
  refine ⟨by omega, ?_⟩
  rw [l4]
  unfold gap at g4
  omega

/-- What `set_by_interpolation` and `add_temperature` leave alone. -/
theorem coolChain_cell {mx : K} {t t' : Table K} (h : CoolChain mx t t') {s : Int} {x v : K} (hc : Table.Cell 3 t s x v)
    (hne : s ≠ 2 ∨ x ≠ frF 82) : t'.calculate (s : K) x = .ok v := by
  obtain ⟨a, b, c, h1, h2, h3, h4⟩ := h
  have c1 := hc.op (op := .interpolation _ _) h1 ⟨by norm_num, by rcases hne with h | h; exact .inl h.symm; exact .inr h.symm⟩
  have c2 := c1.op (op := .add _ _ _) h2 trivial
  have c3 := c2.op (op := .add _ _ _) h3 trivial
  exact c3.lookup h4

theorem fillRated5_cell {t t' : Table K} (h : PyM.exec fillRated5 t = .ok t') {s : Int} {x v : K} (hc : Table.Cell 3 t s x v) :
    Table.Cell 3 t' s x v := by
  rw [exec_ok] at h
  simp only [fillRated5, PyM.bind_run, PyM.get_run, PyM.liftM_run, PyM.monadLift_run] at h
  cases hg : t.get 2 (frF 5) with
  | error e => rw [hg] at h; simp at h
  | ok c =>
    rw [hg] at h
    cases c with
    | none =>
      simp only at h
      refine hc.op (op := .interpolation _ _) (exec_ok.2 h) ⟨by norm_num, ?_⟩
      by_contra hcon
      push Not at hcon
      obtain ⟨rfl, rfl⟩ := hcon
      have := hc.val
      rw [hg] at this
      simp at this
    | some w =>
      simp only [PyM.pure_run, Prod.mk.injEq, true_and] at h
      rw [← h]; exact hc

theorem lowChain_cell {lct : Option K} {mn : K} {t t' : Table K} (h : LowChain lct mn t t') {s : Int} {x v : K} (hc : Table.Cell 3 t s x v)
    (hne : s ≠ 2 ∨ ∀ l, lct = some l → x ≠ frF l) : Table.Cell 3 t' s x v := by
  have miss : ∀ l, lct = some l → (2 : Int) ≠ s ∨ frF l ≠ x := by
    intro l hl
    rcases hne with h | h
    · exact .inl h.symm
    · exact .inr (h l hl).symm
  cases h with
  | measured hl h1 => exact hc.op (op := .add _ _ _) h1 trivial
  | above l hl hge h1 => exact hc.op (op := .interpolation _ _) h1 ⟨by norm_num, miss l hl⟩
  | below l hl hlt a h1 h2 =>
    exact (hc.op (op := .interpolation _ _) h1 ⟨by norm_num, miss l hl⟩).op (op := .add _ _ _) h2 trivial

theorem heatChain_cell {lct : Option K} {mn : K} {t t' : Table K} (h : HeatChain lct mn t t') {s : Int} {x v : K} (hc : Table.Cell 3 t s x v)
    (hne : s ≠ 2 ∨ ∀ l, lct = some l → x ≠ frF l) : t'.calculate (s : K) x = .ok v := by
  obtain ⟨a, b, c, h1, h2, h3, h4⟩ := h
  exact ((lowChain_cell h2 (fillRated5_cell h1 hc) hne).op (op := .add _ _ _) h3 trivial).lookup h4

theorem sublist_heatChain {lct : Option K} {mn : K} {t t' : Table K} (h : HeatChain lct mn t t') :
    t.temperatures.Sublist t'.temperatures ∧ t'.temperatures.Pairwise (· < ·) := by
  obtain ⟨a, b, c, h1, h2, h3, h4⟩ := h
  have s1 : t.temperatures.Sublist a.temperatures := by
    rw [exec_ok] at h1
    simp only [fillRated5, PyM.bind_run, PyM.get_run, PyM.liftM_run, PyM.monadLift_run] at h1
    cases hg : t.get 2 (frF 5) with
    | error e => rw [hg] at h1; simp at h1
    | ok c =>
      rw [hg] at h1
      cases c with
      | none => exact Table.op_sublist (op := .interpolation _ _) (exec_ok.2 h1) (by simp)
      | some w =>
        simp only [PyM.pure_run, Prod.mk.injEq, true_and] at h1
        rw [h1]
  have s2 : a.temperatures.Sublist b.temperatures := by
    cases h2 with
    | measured hl h1 => exact Table.op_sublist (op := .add _ _ _) h1 (by simp)
    | above l hl hge h1 => exact Table.op_sublist (op := .interpolation _ _) h1 (by simp)
    | below l hl hlt a h1 h2 =>
      exact (Table.op_sublist (op := .interpolation _ _) h1 (by simp)).trans (Table.op_sublist (op := .add _ _ _) h2 (by simp))
  have s3 := Table.op_sublist (op := .add _ _ _) h3 (by simp)
  have s4 := Table.op_sublist (op := .interpolator) h4 (by simp)
  exact ⟨((s1.trans s2).trans s3).trans s4, (Table.fresh_wf ⟨c, exec_ok.1 h4⟩).sorted⟩

end Resdx.Tabular
