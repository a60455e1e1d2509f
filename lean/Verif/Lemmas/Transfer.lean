import Verif.Model.TabularBuild
import Mathlib.Data.Rat.Cast.Order

/-!
# Transfer of table computations along a strictly monotone field homomorphism

Tables over the rationals can be computed; these lemmas carry the result over to the reals.
-/

set_option linter.unusedSectionVars false
set_option linter.unusedSimpArgs false

namespace Resdx.Transfer

open Tabular Table Util

variable {K : Type} [Field K] [LinearOrder K] [IsStrictOrderedRing K] {L : Type} [Field L] [LinearOrder L] [IsStrictOrderedRing L]
variable {φ : K →+* L} (hφ : StrictMono φ)

/-! ## Pure computations -/

theorem bind_map {α β γ δ : Type} {x : Py α} {f : α → β} {k : α → Py γ} {k' : β → Py δ} {g : γ → δ} (h : ∀ a, k' (f a) = (k a).map g) :
    (x.map f >>= k') = (x >>= k).map g := by
  cases x with
  | error e => rfl
  | ok a => exact h a

theorem pdiv_map (a b : K) : pdiv (φ a) (φ b) = (pdiv a b).map φ := by
  unfold pdiv
  by_cases h : b = 0
  · simp [h, Except.map]
  · rw [if_neg h, if_neg (by simpa using h)]; simp [Except.map]

theorem pyNum_map (x : Option K) : pyNum (x.map φ) = (pyNum x).map φ := by cases x <;> rfl

theorem pyGet_map {α β : Type} (f : α → β) (l : List α) (i : Nat) : pyGet (l.map f) i = (pyGet l i).map f := by
  unfold pyGet
  rw [List.getElem?_map]
  cases l[i]? <;> rfl

theorem pyGetI_map {α β : Type} (f : α → β) (l : List α) (i : Int) : pyGetI (l.map f) i = (pyGetI l i).map f := by
  unfold pyGetI
  rw [List.length_map]
  cases pyIdx l.length i with
  | error e => rfl
  | ok k => exact pyGet_map f l k

theorem pySetI_map {α β : Type} (f : α → β) (l : List α) (i : Int) (v : α) : pySetI (l.map f) i (f v) = (pySetI l i v).map (List.map f) := by
  unfold pySetI
  rw [List.length_map]
  cases pyIdx l.length i with
  | error e => rfl
  | ok k => simp [bind_ok, pure_eq_ok, Except.map, List.map_set]

theorem lit {x : K} {y : L} (q : ℚ) (hx : x = (q : K)) (hy : y = (q : L)) : φ x = y := by rw [hx, hy, map_ratCast]

theorem frF_map (x : K) : φ (frF x) = frF (φ x) := by
  unfold frF
  simp only [map_div₀, map_mul, map_add, map_ofNat]
  congr 3
  exact lit 459.67 (by norm_num) (by norm_num)

/-- Data of a table. -/
def dT (φ : K →+* L) (d : List (List (Option K))) : List (List (Option L)) := d.map (List.map (Option.map φ))

/-- An interpolator. -/
def iT (φ : K →+* L) (f : Interp K) : Interp L := ⟨f.temps.map φ, f.nSpeeds, f.values.map (List.map φ)⟩

/-- A table. -/
def tT (φ : K →+* L) (t : Table K) : Table L := ⟨t.temperatures.map φ, t.nSpeeds, dT φ t.data, t.interpolator.map (iT φ)⟩

/-- The four tables. -/
def pT (φ : K →+* L) (d : Perf K) : Perf L := ⟨tT φ d.coolingCapacities, tT φ d.coolingPowers, tT φ d.heatingCapacities, tT φ d.heatingPowers⟩

theorem pyIndex_map (l : List K) (x : K) : pyIndex (l.map φ) (φ x) = pyIndex l x := by
  induction l with
  | nil => rfl
  | cons a l ih =>
    simp only [List.map_cons, pyIndex, ih]
    by_cases h : a = x
    · simp [h]
    · rw [if_neg h, if_neg fun h' => h (φ.injective h')]

theorem cell_map (d : List (List (Option K))) (t s : Int) : cell (dT φ d) t s = (cell d t s).map (Option.map φ) := by
  unfold cell dT
  rw [pyGetI_map]
  exact bind_map fun row => pyGetI_map _ row s

theorem setCell_map (d : List (List (Option K))) (t s : Int) (v : Option K) : setCell (dT φ d) t s (v.map φ) = (setCell d t s v).map (dT φ) := by
  unfold setCell dT
  rw [pyGetI_map]
  refine bind_map fun row => ?_
  rw [pySetI_map]
  exact bind_map fun row => pySetI_map _ d t row

theorem osub_map (a b : Option K) : osub (a.map φ) (b.map φ) = (osub a b).map φ := by
  cases a with
  | none => rfl
  | some a => cases b with
    | none => rfl
    | some b => simp [osub, pyNum, bind_ok, pure_eq_ok, Except.map]

/-! ## Methods -/

/-- Two methods correspond along maps of the state and the result. -/
def Sim {σ σ' α β : Type} (f : σ → σ') (g : α → β) (m : PyM σ α) (m' : PyM σ' β) : Prop := ∀ s, m' (f s) = ((m s).1.map g, f (m s).2)

theorem Sim.bind {σ σ' α β γ δ : Type} {f : σ → σ'} {g : α → β} {h : γ → δ} {m : PyM σ α} {m' : PyM σ' β} {k : α → PyM σ γ} {k' : β → PyM σ' δ}
    (h1 : Sim f g m m') (h2 : ∀ a, Sim f h (k a) (k' (g a))) : Sim f h (m >>= k) (m' >>= k') := by
  intro s
  rw [PyM.bind_run, PyM.bind_run, h1 s]
  rcases hm : m s with ⟨r, s'⟩
  cases r with
  | error e => rfl
  | ok a => exact h2 a s'

theorem Sim.lift {σ σ' α β : Type} {f : σ → σ'} {g : α → β} {x : Py α} {x' : Py β} (h : x' = x.map g) : Sim f g (liftM x : PyM σ α) (liftM x' : PyM σ' β) := by
  intro s; rw [PyM.liftM_run, PyM.liftM_run, h]

theorem Sim.pure {σ σ' α β : Type} {f : σ → σ'} {g : α → β} (a : α) : Sim f g (Pure.pure a : PyM σ α) (Pure.pure (g a) : PyM σ' β) := fun _ => rfl

theorem Sim.get {σ σ' : Type} {f : σ → σ'} : Sim f f (PyM.get : PyM σ σ) PyM.get := fun _ => rfl

theorem Sim.modify {σ σ' : Type} {f : σ → σ'} {a : σ → σ} {b : σ' → σ'} (h : ∀ s, b (f s) = f (a s)) : Sim f (id : Unit → Unit) (PyM.modify a) (PyM.modify b) := by
  intro s; simp [PyM.modify_run, h, Except.map]

theorem Sim.raise {σ σ' α β : Type} {f : σ → σ'} {g : α → β} (e : PyErr) : Sim f g (PyM.raise e : PyM σ α) (PyM.raise e : PyM σ' β) := fun _ => rfl

theorem Sim.exec {σ σ' : Type} {f : σ → σ'} {m : PyM σ Unit} {m' : PyM σ' Unit} (h : Sim f id m m') (s : σ) : m'.exec (f s) = (m.exec s).map f := by
  unfold PyM.exec
  rw [h s]
  rcases m s with ⟨r, s'⟩
  cases r <;> rfl

theorem map_id' {α : Type} (x : Py α) : x = x.map id := by cases x <;> rfl

theorem Sim.index {l : List K} {x : K} : Sim (tT φ) id (liftM (pyIndex l x)) (liftM (pyIndex (l.map φ) (φ x))) :=
  Sim.lift (by rw [pyIndex_map]; exact map_id' _)

theorem store_sim (t s : Int) (v : Option K) : Sim (tT φ) id (store t s v) (store t s (v.map φ)) := by
  refine Sim.get.bind fun self => ?_
  refine (Sim.lift (g := dT φ) ?_).bind fun d => Sim.modify fun s => rfl
  exact setCell_map self.data t s v

theorem set_sim (speed : Int) (x v : K) : Sim (tT φ) id (Table.set speed x v) (Table.set speed (φ x) (φ v)) :=
  Sim.get.bind fun _ => Sim.index.bind fun _ => store_sim _ _ (some v)

theorem Sim.ite {σ σ' α β : Type} {f : σ → σ'} {g : α → β} {p q : Prop} [Decidable p] [Decidable q] (h : p ↔ q) {a b : PyM σ α} {a' b' : PyM σ' β} (h1 : Sim f g a a') (h2 : Sim f g b b') :
    Sim f g (if p then a else b) (if q then a' else b') := by
  by_cases hp : p
  · rw [if_pos hp, if_pos (h.1 hp)]; exact h1
  · rw [if_neg hp, if_neg fun hq => hp (h.2 hq)]; exact h2

theorem Sim.cell {d : List (List (Option K))} {t s : Int} : Sim (tT φ) (Option.map φ) (liftM (cell d t s)) (liftM (cell (dT φ d) t s)) := Sim.lift (cell_map d t s)
theorem Sim.num {x : Option K} : Sim (tT φ) φ (liftM (pyNum x)) (liftM (pyNum (x.map φ))) := Sim.lift (pyNum_map x)
theorem Sim.pdiv {a b : K} : Sim (tT φ) φ (liftM (pdiv a b)) (liftM (pdiv (φ a) (φ b))) := Sim.lift (pdiv_map a b)

theorem setByRatio_sim (speed : Int) (x r : K) : Sim (tT φ) id (setByRatio speed x r) (setByRatio speed (φ x) (φ r)) := by
  refine Sim.get.bind fun self => Sim.index.bind fun ti => Sim.ite Iff.rfl ?_ ?_
  · exact Sim.cell.bind fun c => Sim.num.bind fun c => Sim.pdiv.bind fun v => store_sim _ _ (some v)
  · refine Sim.cell.bind fun c => Sim.num.bind fun c => ?_
    have := store_sim (φ := φ) ti (speed - 1) (some (c * r))
    simpa using this

theorem interpolationValue_map (d : List (List (Option K))) (t1 t2 s0 s1 s2 : Int) :
    interpolationValue (dT φ d) t1 t2 s0 s1 s2 = (interpolationValue d t1 t2 s0 s1 s2).map φ := by
  unfold interpolationValue
  simp only [cell_map]
  refine bind_map fun a => bind_map fun b => bind_map fun c => ?_
  rw [osub_map]; refine bind_map fun d1 => bind_map fun b => bind_map fun c => ?_
  rw [osub_map]; refine bind_map fun d2 => ?_
  rw [pdiv_map]; refine bind_map fun q => bind_map fun b => bind_map fun c => ?_
  rw [osub_map]; refine bind_map fun d3 => ?_
  rw [pyNum_map]; refine bind_map fun v => ?_
  simp [pure_eq_ok, Except.map]

theorem setByInterpolation_sim (speed : Int) (x : K) : Sim (tT φ) id (setByInterpolation speed x) (setByInterpolation speed (φ x)) := by
  refine Sim.get.bind fun self => Sim.index.bind fun ti => ?_
  exact (Sim.lift (interpolationValue_map _ _ _ _ _ _)).bind fun v => store_sim _ _ (some v)

theorem getMaintenance_map (t : Table K) (speed : Int) (x r : K) : getMaintenance (tT φ t) speed (φ x) (φ r) = (getMaintenance t speed x r).map φ := by
  unfold getMaintenance tT
  simp only [pyIndex_map, cell_map]
  cases pyIndex t.temperatures x with
  | error e => rfl
  | ok ti => cases pyIndex t.temperatures r with
    | error e => rfl
    | ok ri =>
      simp only [bind_ok]
      refine bind_map fun a => bind_map fun b => ?_
      rw [pyNum_map, pyNum_map]
      exact bind_map fun a => bind_map fun b => pdiv_map a b

theorem get_map (t : Table K) (speed : Int) (x : K) : (tT φ t).get speed (φ x) = (t.get speed x).map (Option.map φ) := by
  unfold Table.get tT
  simp only [pyIndex_map, cell_map]
  cases pyIndex t.temperatures x with
  | error e => rfl
  | ok ti => rfl

theorem setByMaintenance_sim (k : Kind) (speed : Int) (x r c : K) : Sim (tT φ) id (setByMaintenance k speed x r c) (setByMaintenance k speed (φ x) (φ r) (φ c)) := by
  refine Sim.get.bind fun self => Sim.index.bind fun ti => Sim.index.bind fun ri => Sim.cell.bind fun v => Sim.num.bind fun v => Sim.ite Iff.rfl ?_ ?_
  · have := store_sim (φ := φ) ti (speed - 1) (some (v * c))
    simpa using this
  · exact Sim.pdiv.bind fun v => store_sim _ _ (some v)

/-! ## `add_temperature` -/

include hφ in
theorem bisectRight_map (l : List K) (x : K) (fuel lo hi : Nat) : bisectRight (l.map φ) (φ x) fuel lo hi = bisectRight l x fuel lo hi := by
  induction fuel generalizing lo hi with
  | zero => rfl
  | succ n ih =>
    unfold bisectRight
    have h : (l.map φ).getD ((lo + hi) / 2) (φ x) = φ (l.getD ((lo + hi) / 2) x) := by
      simp only [List.getD_eq_getElem?_getD, List.getElem?_map]
      cases l[(lo + hi) / 2]? <;> rfl
    rw [h]
    simp only [ih, hφ.lt_iff_lt]

theorem pyInsert_map {α β : Type} (f : α → β) (l : List α) (i : Nat) (x : α) : pyInsert (l.map f) i (f x) = (pyInsert l i x).map f := by
  simp [pyInsert, List.map_take, List.map_drop]

include hφ in
theorem insort_map (l : List K) (x : K) : insort (l.map φ) (φ x) = (insort l x).map φ := by
  unfold insort
  rw [List.length_map, bisectRight_map hφ, pyInsert_map]

include hφ in
theorem insertEmpty_sim (x : K) : Sim (tT φ) id (insertEmpty x) (insertEmpty (φ x)) := by
  refine (Sim.modify fun s => ?_).bind fun _ => Sim.get.bind fun self => Sim.index.bind fun ti => (Sim.modify fun s => ?_).bind fun _ => Sim.pure (g := id) ti
  · simp [tT, insort_map hφ]
  · simp only [tT, dT, Table.mk.injEq, true_and, and_true]
    have : List.replicate s.nSpeeds (none : Option L) = (List.replicate s.nSpeeds (none : Option K)).map (Option.map φ) := by simp
    rw [this]
    exact pyInsert_map (List.map (Option.map φ)) s.data ti _

theorem fillCell_sim (ti : Nat) {value : List (List (Option K)) → Int → Py (Option K)} {value' : List (List (Option L)) → Int → Py (Option L)}
    (h : ∀ d s, value' (dT φ d) s = (value d s).map (Option.map φ)) (si : Nat) : Sim (tT φ) id (fillCell ti value si) (fillCell ti value' si) :=
  Sim.get.bind fun self => (Sim.lift (h self.data si)).bind fun v => store_sim _ _ v

theorem fillRow_sim (ti : Nat) {value : List (List (Option K)) → Int → Py (Option K)} {value' : List (List (Option L)) → Int → Py (Option L)}
    (h : ∀ d s, value' (dT φ d) s = (value d s).map (Option.map φ)) (l : List Nat) : Sim (tT φ) id (fillRow ti value l) (fillRow ti value' l) := by
  induction l with
  | nil => exact Sim.pure (g := id) ()
  | cons s l ih => exact (fillCell_sim ti h s).bind fun _ => ih

include hφ in
theorem belowValue_map (t0 t1 t2 : K) (e : Bool) (limit : Option K) (d : List (List (Option K))) (s : Int) :
    belowValue (φ t0) (φ t1) (φ t2) e (limit.map φ) (dT φ d) s = (belowValue t0 t1 t2 e limit d s).map (Option.map φ) := by
  unfold belowValue
  cases e with
  | false => exact cell_map d 1 s
  | true =>
    simp only [cell_map, if_true]
    refine bind_map fun a => bind_map fun b => bind_map fun c => ?_
    rw [osub_map]; refine bind_map fun dd => ?_
    rw [← map_sub, pdiv_map]; refine bind_map fun q => ?_
    rw [pyNum_map]; refine bind_map fun v => ?_
    cases limit with
    | none => simp [pure_eq_ok, Except.map]
    | some l =>
      simp only [Option.map_some]
      refine bind_map fun c => ?_
      rw [pyNum_map]; refine bind_map fun w => ?_
      simp only [pure_eq_ok, Except.map, Option.map_some]
      rw [hφ.monotone.map_max]; simp

include hφ in
theorem aboveValue_map (t tm1 tm2 : K) (ti : Nat) (e : Bool) (limit : Option K) (d : List (List (Option K))) (s : Int) :
    aboveValue (φ t) (φ tm1) (φ tm2) ti e (limit.map φ) (dT φ d) s = (aboveValue t tm1 tm2 ti e limit d s).map (Option.map φ) := by
  unfold aboveValue
  cases e with
  | false => exact cell_map d _ s
  | true =>
    simp only [cell_map, if_true]
    refine bind_map fun a => bind_map fun b => bind_map fun c => ?_
    rw [osub_map]; refine bind_map fun dd => ?_
    rw [← map_sub, pdiv_map]; refine bind_map fun q => ?_
    rw [pyNum_map]; refine bind_map fun v => ?_
    cases limit with
    | none => simp [pure_eq_ok, Except.map]
    | some l =>
      simp only [Option.map_some]
      refine bind_map fun c => ?_
      rw [pyNum_map]; refine bind_map fun w => ?_
      simp only [pure_eq_ok, Except.map, Option.map_some]
      rw [hφ.monotone.map_min]; simp

theorem insideValue_map (t tm1 t1 : K) (ti : Nat) (d : List (List (Option K))) (s : Int) :
    insideValue (φ t) (φ tm1) (φ t1) ti (dT φ d) s = (insideValue t tm1 t1 ti d s).map (Option.map φ) := by
  unfold insideValue
  simp only [cell_map]
  refine bind_map fun a => bind_map fun b => bind_map fun c => ?_
  rw [osub_map]; refine bind_map fun dd => ?_
  rw [← map_sub, pdiv_map]; refine bind_map fun q => ?_
  rw [pyNum_map]; refine bind_map fun v => ?_
  simp [pure_eq_ok, Except.map]

include hφ in
theorem fillNew_sim (x : K) (e : Bool) (limit : Option K) (ti : Nat) : Sim (tT φ) id (fillNew x e limit ti) (fillNew (φ x) e (limit.map φ) ti) := by
  refine Sim.get.bind fun self => ?_
  have hg : ∀ i : Int, Sim (tT φ) φ (liftM (pyGetI self.temperatures i)) (liftM (pyGetI (tT φ self).temperatures i)) := fun i => Sim.lift (pyGetI_map φ _ i)
  refine Sim.ite Iff.rfl ?_ (Sim.ite (by simp [tT]) ?_ ?_)
  · exact (hg _).bind fun t1 => (hg _).bind fun t2 => fillRow_sim ti (fun d s => belowValue_map hφ x t1 t2 e limit d s) _
  · exact (hg _).bind fun t1 => (hg _).bind fun t2 => fillRow_sim ti (fun d s => aboveValue_map hφ x t1 t2 ti e limit d s) _
  · exact (hg _).bind fun t1 => (hg _).bind fun t2 => fillRow_sim ti (fun d s => insideValue_map x t1 t2 ti d s) _

include hφ in
theorem addTemperature_sim (x : K) (e : Bool) (limit : Option K) : Sim (tT φ) id (addTemperature x e limit) (addTemperature (φ x) e (limit.map φ)) := by
  refine Sim.get.bind fun self => Sim.ite ?_ (Sim.raise _) ((insertEmpty_sim hφ x).bind fun ti => fillNew_sim hφ x e limit ti)
  simp [tT, φ.injective.eq_iff]

/-! ## The interpolator -/

theorem fullRow_map (l : List (Option K)) : fullRow (l.map (Option.map φ)) = (fullRow l).map (List.map φ) := by
  induction l with
  | nil => rfl
  | cons a l ih =>
    cases a with
    | none => rfl
    | some v =>
      simp only [List.map_cons, Option.map_some, fullRow, ih]
      exact bind_map fun r => rfl

theorem fullData_map (d : List (List (Option K))) : fullData (dT φ d) = (fullData d).map (List.map (List.map φ)) := by
  induction d with
  | nil => rfl
  | cons row d ih =>
    unfold dT at ih ⊢
    simp only [List.map_cons, fullData, ih, fullRow_map]
    exact bind_map fun r => bind_map fun rs => rfl

include hφ in
theorem make_map (temps : List K) (n : Nat) (d : List (List (Option K))) : Interp.make (temps.map φ) n (dT φ d) = (Interp.make temps n d).map (iT φ) := by
  unfold Interp.make
  have h : ((dT φ d).length = (temps.map φ).length ∧ (∀ row ∈ dT φ d, row.length = n) ∧ (temps.map φ).Pairwise (· < ·) ∧ temps.map φ ≠ [] ∧ n ≠ 0) ↔
      (d.length = temps.length ∧ (∀ row ∈ d, row.length = n) ∧ temps.Pairwise (· < ·) ∧ temps ≠ [] ∧ n ≠ 0) := by
    simp [dT, List.pairwise_map, hφ.lt_iff_lt]
  by_cases hc : d.length = temps.length ∧ (∀ row ∈ d, row.length = n) ∧ temps.Pairwise (· < ·) ∧ temps ≠ [] ∧ n ≠ 0
  · rw [if_pos hc, if_pos (h.2 hc), fullData_map]
    exact bind_map fun v => rfl
  · rw [if_neg hc, if_neg fun h' => hc (h.1 h')]; rfl

include hφ in
theorem setInterpolator_sim : Sim (tT φ) id (setInterpolator (K := K)) setInterpolator :=
  Sim.get.bind fun self => (Sim.lift (make_map hφ _ _ _)).bind fun f => Sim.modify fun s => rfl

theorem init_map (temps : List K) (n : Nat) : Table.init (temps.map φ) n = tT φ (Table.init temps n) := by
  simp [Table.init, tT, dT]

theorem perfInit_map (a b c d : Table K) : Perf.init (tT φ a) (tT φ b) (tT φ c) (tT φ d) = (Perf.init a b c d).map (pT φ) := by
  simp only [Perf.init, tT, List.length_map]
  split
  · rfl
  split
  · rfl
  split
  · rfl
  split
  · rfl
  · rfl

end Resdx.Transfer
