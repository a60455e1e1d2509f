import Verif.Props.TabularBuild
import Verif.Spec.Ratings

/-!
# Tables given by their rows

`Rows n l t` says what a table with `n` speeds contains: the temperatures in order and the value at every speed. The builders' calls are followed row by row.
-/

set_option linter.unusedSectionVars false
set_option linter.unusedSimpArgs false

namespace Resdx.Tabular

open Spec Util Table Props

variable {K : Type} [Field K] [LinearOrder K] [IsStrictOrderedRing K]

/-- The table has these rows: temperature and value at each speed. -/
structure Rows (n : Nat) (l : List (K × (Int → K))) (t : Table K) : Prop where
  wf : TableWF t
  speeds : t.nSpeeds = n
  temps : t.temperatures = l.map (·.1)
  val : ∀ r ∈ l, ∀ s : Int, 1 ≤ s → s ≤ n → t.get s r.1 = .ok (some (r.2 s))

theorem Rows.cell {n : Nat} {l : List (K × (Int → K))} {t : Table K} (h : Rows n l t) {x : K} {f : Int → K} (hx : (x, f) ∈ l) {s : Int} (h1 : 1 ≤ s) (h2 : s ≤ n) : Cell n t s x (f s) :=
  ⟨h.wf, h.speeds, ⟨h1, h2⟩, h.val _ hx s h1 h2⟩

theorem Rows.full {n : Nat} {l : List (K × (Int → K))} {t : Table K} (h : Rows n l t) : Full2 n (l.map (·.1)) t := by
  refine ⟨h.wf, ?_, h.speeds, h.temps⟩
  rintro s x ⟨s1, s2⟩ hx
  rw [h.temps, List.mem_map] at hx
  obtain ⟨r, hr, rfl⟩ := hx
  rw [h.speeds] at s2
  exact ⟨_, h.val r hr s s1 s2⟩

theorem onLine_value {x0 y0 x1 y1 x y : K} (h : OnLine x0 y0 x1 y1 x y) (hne : x0 < x1) : y = lineAt x0 y0 x1 y1 x := by
  unfold OnLine at h
  unfold lineAt
  have : x1 - x0 ≠ 0 := sub_ne_zero.2 hne.ne'
  field_simp
  linarith

theorem Rows.sorted {n : Nat} {l : List (K × (Int → K))} {t : Table K} (h : Rows n l t) : (l.map (·.1)).Pairwise (· < ·) := h.temps ▸ h.wf.sorted

/-- A row added below the others by extrapolation. -/
theorem Rows.below {n : Nat} {x x1 x2 : K} {f g : Int → K} {rest : List (K × (Int → K))} {t : Table K} (h : Rows n ((x1, f) :: (x2, g) :: rest) t) (hx : x < x1) (limit : Option K) :
    ∃ t', PyM.exec (addTemperature x true limit) t = .ok t' ∧ Rows n ((x, fun s => limitedBelow limit (f s) (lineAt x1 (f s) x2 (g s) x)) :: (x1, f) :: (x2, g) :: rest) t' := by
  have h12 : x1 < x2 := by have := h.sorted; simp at this; exact this.1.1
  obtain ⟨t', e1, hw, e2⟩ := C28_below t h.wf x x1 x2 (rest.map (·.1)) (by rw [h.temps]; rfl) hx f g (fun s hs => h.val (x1, f) (by simp) s hs.1 (h.speeds ▸ hs.2))
    (fun s hs => h.val (x2, g) (by simp) s hs.1 (h.speeds ▸ hs.2)) limit
  obtain ⟨t'', e3, F⟩ := h.full.below (x := x) hx true limit
  have e : t'' = t' := by rw [exec_ok, e1] at e3; cases e3; rfl
  subst e
  refine ⟨t'', e3, hw, F.speeds, F.temps, ?_⟩
  intro r hr s s1 s2
  have hs : IsSpeed t s := ⟨s1, by rw [h.speeds]; exact s2⟩
  rcases List.mem_cons.1 hr with rfl | hr
  · obtain ⟨y, hy, hg⟩ := e2 s hs
    rw [hg, onLine_value hy h12]
  · exact ((h.cell (x := r.1) (f := r.2) hr s1 s2).op (op := .add _ _ _) e3 trivial).val

/-- A row added above the others by extrapolation. -/
theorem Rows.above {n : Nat} {x x1 x2 : K} {f g : Int → K} (rest : List (K × (Int → K))) {t : Table K} (h : Rows n (rest ++ [(x2, g), (x1, f)]) t) (hx : x1 < x) (limit : Option K) :
    ∃ t', PyM.exec (addTemperature x true limit) t = .ok t' ∧ Rows n (rest ++ [(x2, g), (x1, f), (x, fun s => limitedAbove limit (f s) (lineAt x2 (g s) x1 (f s) x))]) t' := by
  have h12 : x2 < x1 := by
    have := h.sorted; rw [List.map_append, List.pairwise_append] at this; simpa using this.2.1
  obtain ⟨t', e1, hw, e2⟩ := C28_above t h.wf x x1 x2 (rest.map (·.1)) (by rw [h.temps]; simp) hx f g (fun s hs => h.val (x1, f) (by simp) s hs.1 (h.speeds ▸ hs.2))
    (fun s hs => h.val (x2, g) (by simp) s hs.1 (h.speeds ▸ hs.2)) limit
  obtain ⟨t'', e3, F⟩ := Full2.above (x := x) (t1 := x1) (t2 := x2) (rest.map (·.1)) (by simpa using h.full) hx true limit
  have e : t'' = t' := by rw [exec_ok, e1] at e3; cases e3; rfl
  subst e
  refine ⟨t'', e3, hw, F.speeds, by rw [F.temps]; simp, ?_⟩
  intro r hr s s1 s2
  have hs : IsSpeed t s := ⟨s1, by rw [h.speeds]; exact s2⟩
  have hr' : r ∈ rest ++ [(x2, g), (x1, f)] ∨ r = (x, fun s => limitedAbove limit (f s) (lineAt x2 (g s) x1 (f s) x)) := by
    simp only [List.mem_append, List.mem_cons, List.not_mem_nil, or_false] at hr ⊢
    tauto
  rcases hr' with hr | rfl
  · exact ((h.cell (x := r.1) (f := r.2) hr s1 s2).op (op := .add _ _ _) e3 trivial).val
  · obtain ⟨y, hy, hg⟩ := e2 s hs
    rw [hg, onLine_value hy h12]

/-- A row added above the others as a copy. -/
theorem Rows.above_copy {n : Nat} {x x1 x2 : K} {f g : Int → K} (rest : List (K × (Int → K))) {t : Table K} (h : Rows n (rest ++ [(x2, g), (x1, f)]) t) (hx : x1 < x) (limit : Option K) :
    ∃ t', PyM.exec (addTemperature x false limit) t = .ok t' ∧ Rows n (rest ++ [(x2, g), (x1, f), (x, f)]) t' := by
  obtain ⟨t', e1, hw, e2⟩ := C28_above_copy t h.wf x x1 x2 (rest.map (·.1)) (by rw [h.temps]; simp) hx limit
  obtain ⟨t'', e3, F⟩ := Full2.above (x := x) (t1 := x1) (t2 := x2) (rest.map (·.1)) (by simpa using h.full) hx false limit
  have e : t'' = t' := by rw [exec_ok, e1] at e3; cases e3; rfl
  subst e
  refine ⟨t'', e3, hw, F.speeds, by rw [F.temps]; simp, ?_⟩
  intro r hr s s1 s2
  have hs : IsSpeed t s := ⟨s1, by rw [h.speeds]; exact s2⟩
  have hr' : r ∈ rest ++ [(x2, g), (x1, f)] ∨ r = (x, f) := by
    simp only [List.mem_append, List.mem_cons, List.not_mem_nil, or_false] at hr ⊢
    tauto
  rcases hr' with hr | rfl
  · exact ((h.cell (x := r.1) (f := r.2) hr s1 s2).op (op := .add _ _ _) e3 trivial).val
  · rw [e2 s hs]; exact h.val (x1, f) (by simp) s s1 s2

/-- The rows of the heating tables of one- and two-stage units. -/
def heatingRows (mn : K) (f g : Int → K) : List (K × (Int → K)) :=
  [(mn, fun s => lineAt (frF 17) (f s) (frF 47) (g s) mn), (frF 5, fun s => lineAt (frF 17) (f s) (frF 47) (g s) (frF 5)), (frF 17, f), (frF 47, g), (frF 60, g)]

/-- The rows of their cooling tables. -/
def coolingRows (mx : K) (f g : Int → K) : List (K × (Int → K)) :=
  [(frF 60, fun s => max (lineAt (frF 82) (f s) (frF 95) (g s) (frF 60)) (f s * 0.5)), (frF 82, f), (frF 95, g), (mx, fun s => lineAt (frF 82) (f s) (frF 95) (g s) mx)]

theorem lineAt_trans {x0 y0 x1 y1 x z : K} (h : x0 < x1) (hx : x < x0) : lineAt x (lineAt x0 y0 x1 y1 x) x0 y0 z = lineAt x0 y0 x1 y1 z := by
  unfold lineAt
  have h1 : x1 - x0 ≠ 0 := sub_ne_zero.2 h.ne'
  have h2 : x0 - x ≠ 0 := sub_ne_zero.2 hx.ne'
  field_simp
  ring

theorem rows_heatingExtremes {n : Nat} {t t' : Table K} {mn : K} {f g : Int → K} (h : Rows n [(frF 17, f), (frF 47, g)] t) (hmn : mn < frF 5) (hrun : heatingExtremes mn t = .ok t') :
    Rows n (heatingRows mn f g) t' := by
  have h5 : frF (5 : K) < frF 17 := by rw [frF_lt]; norm_num
  have h17 : frF (17 : K) < frF 47 := by rw [frF_lt]; norm_num
  have h60 : frF (47 : K) < frF 60 := by rw [frF_lt]; norm_num
  obtain ⟨q1, e1, g1⟩ := h.below h5 none
  obtain ⟨q2, e2, g2⟩ := g1.below hmn none
  obtain ⟨q3, e3, g3⟩ := Rows.above_copy [_, _] g2 h60 none
  simp only [heatingExtremes, e1, e2, e3, bind_ok, Except.ok.injEq] at hrun
  subst hrun
  simp only [limitedBelow, lineAt_trans h17 h5] at g3
  exact g3

theorem rows_coolingExtremes {n : Nat} {qc pc qc' pc' : Table K} {mx : K} {f g f' g' : Int → K} (h : Rows n [(frF 82, f), (frF 95, g)] qc) (h' : Rows n [(frF 82, f'), (frF 95, g')] pc)
    (hmx : frF 95 < mx) (hrun : coolingExtremes mx qc pc = .ok (qc', pc')) : Rows n (coolingRows mx f g) qc' ∧ Rows n (coolingRows mx f' g') pc' := by
  have h60 : frF (60 : K) < frF 82 := by rw [frF_lt]; norm_num
  obtain ⟨q1, e1, g1⟩ := h.below h60 (some 0.5)
  obtain ⟨p1, e2, g2⟩ := h'.below h60 (some 0.5)
  obtain ⟨q2, e3, g3⟩ := Rows.above [_] g1 hmx none
  obtain ⟨p2, e4, g4⟩ := Rows.above [_] g2 hmx none
  simp only [coolingExtremes, e1, e2, e3, e4, bind_ok, pure_eq_ok, Except.ok.injEq, Prod.mk.injEq] at hrun
  obtain ⟨rfl, rfl⟩ := hrun
  exact ⟨g3, g4⟩

/-- Rows survive `set_interpolator`. -/
theorem Rows.interpolator {n : Nat} {l : List (K × (Int → K))} {t t' : Table K} (h : Rows n l t) (hrun : PyM.exec setInterpolator t = .ok t') : Rows n l t' ∧ Fresh t' := by
  have hf : Fresh t' := ⟨t, exec_ok.1 hrun⟩
  have ht : t'.temperatures = t.temperatures ∧ t'.nSpeeds = t.nSpeeds := by
    rw [exec_ok, setInterpolator_run] at hrun
    cases hm : Interp.make t.temperatures t.nSpeeds t.data with
    | error e => rw [hm] at hrun; simp at hrun
    | ok f => rw [hm] at hrun; simp only [Prod.mk.injEq, true_and] at hrun; subst hrun; exact ⟨rfl, rfl⟩
  refine ⟨⟨fresh_wf hf, ht.2.trans h.speeds, ht.1.trans h.temps, ?_⟩, hf⟩
  intro r hr s s1 s2
  exact ((h.cell (x := r.1) (f := r.2) hr s1 s2).op (op := .interpolator) hrun trivial).val

/-- The value looked up at a row. -/
theorem Rows.node {n : Nat} {l : List (K × (Int → K))} {t : Table K} (h : Rows n l t) (hf : Fresh t) {x : K} {f : Int → K} (hx : (x, f) ∈ l) {s : Int} (h1 : 1 ≤ s) (h2 : s ≤ n) :
    t.calculate s x = .ok (f s) :=
  C30_node t hf s x (f s) ⟨h1, by rw [h.speeds]; exact h2⟩ (h.val _ hx s h1 h2)

/-- The value looked up between two neighbouring rows. -/
theorem Rows.between {n : Nat} {l : List (K × (Int → K))} {t : Table K} (h : Rows n l t) (hf : Fresh t) {x0 x1 x : K} {f g : Int → K} (m0 : (x0, f) ∈ l) (m1 : (x1, g) ∈ l)
    (hn : Neighbours (l.map (·.1)) x0 x1) (hx0 : x0 ≤ x) (hx1 : x ≤ x1) {s : Int} (h1 : 1 ≤ s) (h2 : s ≤ n) : t.calculate s x = .ok (lineAt x0 (f s) x1 (g s) x) := by
  obtain ⟨ya, yb, y, e1, e2, e3, e4⟩ := C30_linear_in_temperature t hf s x0 x1 x (by rw [h.temps]; exact hn) (.inl hx0) (.inl hx1)
  rw [h.node hf m0 h1 h2] at e1; cases e1
  rw [h.node hf m1 h1 h2] at e2; cases e2
  rw [e3, onLine_value e4 hn.2.2.1]

/-! ## One speed -/

theorem rows_one {t : Table K} {a b v w : K} (ht : t.temperatures = [a, b]) (ha : Cell 1 t 1 a v) (hb : Cell 1 t 1 b w) : Rows 1 [(a, fun _ => v), (b, fun _ => w)] t := by
  refine ⟨ha.wf, ha.speeds, by rw [ht]; rfl, ?_⟩
  intro r hr s s1 s2
  have : s = 1 := by simp at s2; omega
  subst this
  simp only [List.mem_cons, List.not_mem_nil, or_false] at hr
  rcases hr with rfl | rfl
  · exact ha.val
  · exact hb.val

theorem set_temps {t t' : Table K} {s : Int} {x v : K} (h : PyM.exec (Table.set s x v) t = .ok t') : t'.temperatures = t.temperatures := by
  rw [exec_ok] at h
  have := congrArg Prod.snd h
  simp only [Table.set, PyM.bind_run, PyM.get_run, PyM.liftM_run, PyM.monadLift_run] at h
  cases hi : pyIndex t.temperatures x with
  | error e => rw [hi] at h; simp at h
  | ok i =>
    rw [hi] at h
    have h3 := congrArg Prod.snd h
    simp only at h3
    rw [← h3]; exact store_temps

end Resdx.Tabular
