import Verif.Lemmas.TabularInterp
import Mathlib.Data.List.Nodup

set_option linter.unusedSectionVars false
set_option linter.unusedSimpArgs false

/-! # Helper lemmas for the fan power correction -/

namespace Resdx.Tabular

open Spec Util

variable {K : Type} [Field K] [LinearOrder K] [IsStrictOrderedRing K]

theorem interp1_speedInterpolant {p : List K} (n : Nat) (h : p.length = n) : SpeedInterpolant p (interp1 (speedGrid n) p) := by
  subst h
  refine ⟨?_, ?_, ?_⟩
  · intro k v hv
    exact interp1_node (speedGrid_sorted _) (by rw [speedGrid_length]) (speedGrid_get _ _ (List.getElem?_eq_some_iff.1 hv).1) hv
  · intro k v0 v1 σ h0 h1 hlo hhi
    have e0 := speedGrid_get (K := K) p.length k (List.getElem?_eq_some_iff.1 h0).1
    have e1 := speedGrid_get (K := K) p.length (k + 1) (List.getElem?_eq_some_iff.1 h1).1
    have hc : ((k + 1 : Nat) : K) + 1 = (k : K) + 2 := by push_cast; ring
    rw [hc] at e1
    rw [interp1_segment (speedGrid_sorted _) e0 e1 h0 h1 hlo (by rw [speedGrid_length]; exact hhi)]
    exact lerp_onLine (by linarith) _ _ _
  · intro h1 σ τ
    have hg : (speedGrid p.length : List K).length ≤ 1 := by rw [speedGrid_length, h1]
    rw [interp1_single hg, interp1_single hg]

namespace Table

theorem correctCell_run {t : Table K} {fp : List K} {i s : Nat} {v p : K} (h : at? t.data i s = some (some v)) (hp : fp[s]? = some p) :
    correctCell fp i s t = (if 0 < v - p then .ok () else .error .assertion, { t with data := upd t.data i s (some (v - p)) }) := by
  have hc : cell t.data (i : Int) (s : Int) = .ok (some v) := cell_nat_ok.2 h
  have hg : pyGetI fp (s : Int) = .ok p := by rw [pyGetI_nat_eq, hp]
  simp only [correctCell, PyM.bind_run, PyM.get_run, PyM.liftM_run, PyM.monadLift_run, hc, pyNum, hg, store_ok _ h]
  split <;> rfl

/-- The loop when every visited cell exceeds its fan power. -/
theorem correctCells_ok {fp : List K} : ∀ (ps : List (Nat × Nat)) {t : Table K}, TableWF t → ps.Nodup →
    (∀ q ∈ ps, ∃ v p, at? t.data q.1 q.2 = some (some v) ∧ fp[q.2]? = some p ∧ p < v) →
    ∃ t', correctCells fp ps t = (.ok (), t') ∧ TableWF t' ∧ t'.temperatures = t.temperatures ∧ t'.nSpeeds = t.nSpeeds ∧
      (∀ q ∈ ps, ∀ v p, at? t.data q.1 q.2 = some (some v) → fp[q.2]? = some p → at? t'.data q.1 q.2 = some (some (v - p))) ∧
      ∀ i s, (i, s) ∉ ps → at? t'.data i s = at? t.data i s
  | [], t, h, _, _ => ⟨t, rfl, h, rfl, rfl, by simp, fun _ _ _ => rfl⟩
  | (i, s) :: rest, t, h, hnd, hc => by
    obtain ⟨v, p, h1, h2, h3⟩ := hc (i, s) (by simp)
    have hrun := correctCell_run h1 h2
    rw [if_pos (sub_pos.2 h3)] at hrun
    simp only at h1 h2
    have hne : ∀ q ∈ rest, q.1 ≠ i ∨ q.2 ≠ s := by
      intro q hq
      by_contra hcon
      push Not at hcon
      have : q = (i, s) := Prod.ext hcon.1 hcon.2
      rw [this] at hq
      exact (List.nodup_cons.1 hnd).1 hq
    obtain ⟨t', e1, e2, e3, e4, e5, e6⟩ := correctCells_ok rest (wf_upd h i s (some (v - p))) (List.nodup_cons.1 hnd).2
      (by intro q hq
          obtain ⟨v', p', g1, g2, g3⟩ := hc q (by simp [hq])
          exact ⟨v', p', by simp only; rw [at?_upd_ne _ _ (hne q hq)]; exact g1, g2, g3⟩)
    refine ⟨t', ?_, e2, e3, e4, ?_, ?_⟩
    · simp only [correctCells, PyM.bind_run, hrun, e1]
    · intro q hq v' p' g1 g2
      rcases List.mem_cons.1 hq with rfl | hq
      · rw [e6 _ _ (List.nodup_cons.1 hnd).1]
        simp only at g1 g2 ⊢
        rw [h1] at g1; rw [h2] at g2
        simp only [Option.some.injEq] at g1 g2
        subst g1 g2
        exact at?_upd_self _ h1
      · refine e5 q hq v' p' ?_ g2
        simp only; rw [at?_upd_ne _ _ (hne q hq)]; exact g1
    · intro i' s' hq
      simp only [List.mem_cons, not_or] at hq
      rw [e6 i' s' hq.2]
      refine at?_upd_ne _ _ ?_
      by_contra hcon
      push Not at hcon
      exact hq.1 (Prod.ext hcon.1 hcon.2)

/-- The loop when some visited cell does not exceed its fan power. -/
theorem correctCells_fail {fp : List K} : ∀ (ps : List (Nat × Nat)) {t : Table K}, TableWF t → ps.Nodup →
    (∀ q ∈ ps, ∃ v p, at? t.data q.1 q.2 = some (some v) ∧ fp[q.2]? = some p) →
    (∃ q ∈ ps, ∃ v p, at? t.data q.1 q.2 = some (some v) ∧ fp[q.2]? = some p ∧ v ≤ p) →
    (correctCells fp ps t).1 = .error .assertion
  | [], _, _, _, _, h => by simp at h
  | (i, s) :: rest, t, h, hnd, hc, hbad => by
    obtain ⟨v, p, h1, h2⟩ := hc (i, s) (by simp)
    have hrun := correctCell_run h1 h2
    simp only at h1 h2
    by_cases h3 : p < v
    · rw [if_pos (sub_pos.2 h3)] at hrun
      have hne : ∀ q ∈ rest, q.1 ≠ i ∨ q.2 ≠ s := by
        intro q hq
        by_contra hcon
        push Not at hcon
        have : q = (i, s) := Prod.ext hcon.1 hcon.2
        rw [this] at hq
        exact (List.nodup_cons.1 hnd).1 hq
      have hrest := correctCells_fail rest (wf_upd h i s (some (v - p))) (List.nodup_cons.1 hnd).2
        (by intro q hq
            obtain ⟨v', p', g1, g2⟩ := hc q (by simp [hq])
            exact ⟨v', p', by simp only; rw [at?_upd_ne _ _ (hne q hq)]; exact g1, g2⟩)
        (by obtain ⟨q, hq, v', p', g1, g2, g3⟩ := hbad
            rcases List.mem_cons.1 hq with rfl | hq
            · simp only at g1 g2
              rw [h1] at g1; rw [h2] at g2
              simp only [Option.some.injEq] at g1 g2
              subst g1 g2
              exact absurd h3 (not_lt.2 g3)
            · exact ⟨q, hq, v', p', by simp only; rw [at?_upd_ne _ _ (hne q hq)]; exact g1, g2, g3⟩)
      simp only [correctCells, PyM.bind_run, hrun, hrest]
    · rw [if_neg (by simpa using h3)] at hrun
      simp only [correctCells, PyM.bind_run, hrun]

theorem mem_positions {d : List (List (Option K))} {i s : Nat} :
    (i, s) ∈ positions d ↔ ∃ row, d[i]? = some row ∧ s < row.length := by
  simp only [positions, List.mem_flatMap, List.mem_map, List.mem_range, Prod.mk.injEq, Prod.exists, List.mem_zipIdx_iff_getElem?]
  constructor
  · rintro ⟨row, j, h1, s', h2, rfl, rfl⟩; exact ⟨row, h1, h2⟩
  · rintro ⟨row, h1, h2⟩; exact ⟨row, i, h1, s, h2, rfl, rfl⟩

theorem positions_nodup (d : List (List (Option K))) : (positions d).Nodup := by
  rw [positions, List.nodup_flatMap]
  constructor
  · intro r _
    refine List.Nodup.map ?_ List.nodup_range
    intro a b h; simpa using h
  · have : (d.zipIdx.map Prod.snd).Nodup := by
      simp only [List.zipIdx_map_snd]; exact List.nodup_range'
    rw [List.Nodup, List.pairwise_map] at this
    refine this.imp ?_
    intro a b hab
    rw [Function.onFun, List.disjoint_left]
    rintro q h1 h2
    simp only [List.mem_map] at h1 h2
    obtain ⟨_, _, rfl⟩ := h1
    obtain ⟨_, _, h⟩ := h2
    simp only [Prod.mk.injEq] at h
    exact hab h.1.symm

/-- Two full tables of the same shape with the same cells are equal. -/
theorem full_ext {n : Nat} {a b : List (List K)} (hl : a.length = b.length) (ha : ∀ r ∈ a, r.length = n) (hb : ∀ r ∈ b, r.length = n)
    (h : ∀ (i s : Nat) v, (∃ row, b[i]? = some row ∧ row[s]? = some v) → ∃ row, a[i]? = some row ∧ row[s]? = some v) : a = b := by
  refine List.ext_getElem hl ?_
  intro i h1 h2
  refine List.ext_getElem (by rw [ha _ (List.getElem_mem h1), hb _ (List.getElem_mem h2)]) ?_
  intro s h3 h4
  obtain ⟨row, g1, g2⟩ := h i s _ ⟨b[i], List.getElem?_eq_getElem h2, List.getElem?_eq_getElem h4⟩
  rw [List.getElem?_eq_getElem h1] at g1
  simp only [Option.some.injEq] at g1
  subst g1
  rw [List.getElem?_eq_getElem h3] at g2
  exact Option.some.inj g2

/-- A full table: its rows of numbers. -/
theorem full_data {t : Table K} (h : TableWF t) (hfull : TableFull t) : ∃ vs : List (List K), t.data = vs.map (List.map some) := by
  have hrow : ∀ row ∈ t.data, ∃ r : List K, row = r.map some := by
    intro row hrow
    obtain ⟨i, hi⟩ := List.mem_iff_getElem?.1 hrow
    have hil : i < t.temperatures.length := by rw [← h.rows]; exact (List.getElem?_eq_some_iff.1 hi).1
    have hcell : ∀ c ∈ row, ∃ v : K, c = some v := by
      intro c hc
      obtain ⟨s, hs⟩ := List.mem_iff_getElem?.1 hc
      have hsl := (List.getElem?_eq_some_iff.1 hs).1
      rw [h.cols row hrow] at hsl
      obtain ⟨v, hv⟩ := hfull ((s : Int) + 1) _ ⟨by omega, by omega⟩ (List.getElem_mem hil)
      rw [get_ok_iff h (s := s) (by omega) (List.getElem?_eq_getElem hil)] at hv
      simp only [at?, hi, Option.bind_some, hs, Option.some.injEq] at hv
      exact ⟨v, hv⟩
    clear hrow hi
    induction row with
    | nil => exact ⟨[], rfl⟩
    | cons c row ih =>
      obtain ⟨v, rfl⟩ := hcell c (by simp)
      obtain ⟨r, rfl⟩ := ih (fun c hc => hcell c (by simp [hc]))
      exact ⟨v :: r, rfl⟩
  generalize t.data = d at hrow
  induction d with
  | nil => exact ⟨[], rfl⟩
  | cons row d ih =>
    obtain ⟨r, rfl⟩ := hrow row (by simp)
    obtain ⟨vs, rfl⟩ := ih (fun row hr => hrow row (by simp [hr]))
    exact ⟨r :: vs, rfl⟩

/-- The correction of a full table, when it applies. -/
theorem correction_ok {t : Table K} (h : Fresh t) {p : List K} (hp : p.length = t.nSpeeds) (hex : Exceeds t p) :
    ∃ t', applyFanPowerCorrection p t = (.ok (), t') ∧ Fresh t' ∧ t'.temperatures = t.temperatures ∧ t'.nSpeeds = t.nSpeeds ∧
      ∀ σ x y, t.calculate σ x = .ok y → t'.calculate σ x = .ok (y - interp1 (speedGrid t.nSpeeds) p σ) := by
  have hwf := fresh_wf h
  obtain ⟨vs, hvs, hlen, hrows, ht, hn, -, hcalc⟩ := fresh_data h
  have hcells : ∀ i s, (i, s) ∈ positions t.data → ∃ x row v, t.temperatures[i]? = some x ∧ vs[i]? = some row ∧ row[s]? = some v ∧
      s < t.nSpeeds ∧ at? t.data i s = some (some v) := by
    intro i s hm
    obtain ⟨r, h1, h2⟩ := mem_positions.1 hm
    rw [hvs, List.getElem?_map, Option.map_eq_some_iff] at h1
    obtain ⟨row, h1, rfl⟩ := h1
    have hi := (List.getElem?_eq_some_iff.1 h1).1
    have hs : s < row.length := by simpa using h2
    have hi' : i < t.temperatures.length := by omega
    refine ⟨_, row, _, List.getElem?_eq_getElem hi', h1, List.getElem?_eq_getElem hs, ?_, ?_⟩
    · rw [← hrows row (List.mem_of_getElem? h1)]; exact hs
    · rw [hvs, at?_full]; exact ⟨row, h1, List.getElem?_eq_getElem hs⟩
  obtain ⟨t1, e1, e2, e3, e4, e5, e6⟩ := correctCells_ok (fp := p) (positions t.data) hwf (positions_nodup _) (by
    rintro ⟨i, s⟩ hm
    obtain ⟨x, row, v, g1, g2, g3, g4, g5⟩ := hcells i s hm
    have hs : s < p.length := by omega
    refine ⟨v, p[s], g5, List.getElem?_eq_getElem hs, hex s x v _ ?_ (List.getElem?_eq_getElem hs)⟩
    rw [get_ok_iff hwf (s := s) (by omega) g1]; exact g5)
  -- the corrected data
  have hvl : ∀ row ∈ vs, (List.zipWith (· - ·) row p).length = t.nSpeeds := by
    intro row hr; simp [hrows row hr, hp]
  have hd : t1.data = (vs.map fun row => List.zipWith (· - ·) row p).map (List.map some) := by
    have hfull1 : TableFull t1 := by
      intro s x hs hx
      obtain ⟨k, hk, hkn⟩ := isSpeed_nat hs
      obtain ⟨i, hi⟩ := List.mem_iff_getElem?.1 hx
      rw [e3] at hi; rw [e4] at hkn
      have hi' := (List.getElem?_eq_some_iff.1 hi).1
      have hiv : i < vs.length := by omega
      have hkv : k < (vs[i]).length := by rw [hrows _ (List.getElem_mem hiv)]; exact hkn
      have hm : (i, k) ∈ positions t.data := by
        rw [mem_positions, hvs, List.getElem?_map, List.getElem?_eq_getElem hiv]
        exact ⟨_, rfl, by simpa using hkv⟩
      have hkp : k < p.length := by omega
      refine ⟨(vs[i])[k] - p[k], ?_⟩
      rw [get_ok_iff e2 hk (by rw [e3]; exact hi)]
      refine e5 (i, k) hm _ _ ?_ (List.getElem?_eq_getElem hkp)
      rw [hvs, at?_full]; exact ⟨_, List.getElem?_eq_getElem hiv, List.getElem?_eq_getElem hkv⟩
    obtain ⟨ws, hws⟩ := full_data e2 hfull1
    have hwl : ws.length = vs.length := by
      have := e2.rows; rw [hws, e3] at this; simp at this; omega
    rw [hws]; congr 1
    refine full_ext (n := t.nSpeeds) (by simpa using hwl) ?_ ?_ ?_
    · intro r hr
      have := e2.cols (r.map some) (by rw [hws]; exact List.mem_map_of_mem hr)
      simpa [e4] using this
    · intro r hr
      obtain ⟨row, hrow, rfl⟩ := List.mem_map.1 hr
      exact hvl row hrow
    · rintro i s v ⟨row, h1, h2⟩
      rw [List.getElem?_map, Option.map_eq_some_iff] at h1
      obtain ⟨row, h1, rfl⟩ := h1
      rw [List.getElem?_zipWith_eq_some] at h2
      obtain ⟨a, b, h2, h3, rfl⟩ := h2
      rw [← at?_full, ← hws]
      refine e5 (i, s) ?_ a b ?_ h3
      · rw [mem_positions, hvs, List.getElem?_map, h1]
        exact ⟨_, rfl, by simpa using (List.getElem?_eq_some_iff.1 h2).1⟩
      · rw [hvs, at?_full]; exact ⟨row, h1, h2⟩
  have hm : Interp.make t1.temperatures t1.nSpeeds t1.data =
      .ok ⟨t1.temperatures, t1.nSpeeds, vs.map fun row => List.zipWith (· - ·) row p⟩ :=
    make_eq_ok.2 ⟨e2.rows, e2.cols, e2.sorted, by rw [e3]; exact ht, by rw [e4]; exact hn, rfl, rfl, hd⟩
  have hset : setInterpolator t1 = (.ok (), { t1 with interpolator := (some
      (⟨t1.temperatures, t1.nSpeeds, vs.map fun row => List.zipWith (· - ·) row p⟩ : Interp K)) }) := by
    rw [setInterpolator_run, hm]
  refine ⟨_, ?_, ⟨t1, hset⟩, e3, e4, ?_⟩
  · simp only [applyFanPowerCorrection, PyM.bind_run, PyM.get_run, if_pos hp, e1, hset]
  · intro σ x y hy
    rw [hcalc] at hy
    simp only [Except.ok.injEq] at hy
    simp only [calculate, pyAttr, bind_ok, pure_eq_ok, Interp.eval, Except.ok.injEq, e3, e4, List.map_map]
    rw [← hy, ← interp1_sub_const (by simpa using hlen) ht]
    congr 1
    rw [List.map_map]
    refine List.map_congr_left ?_
    intro row hr
    simp only [Function.comp]
    exact interp1_sub (by rw [speedGrid_length, hrows row hr]) (by rw [speedGrid_length, hp]) σ

theorem correction_fail {t : Table K} (h : Fresh t) {p : List K} (hbad : ¬ (p.length = t.nSpeeds ∧ Exceeds t p)) :
    (applyFanPowerCorrection p t).1 = .error .assertion := by
  by_cases hp : p.length = t.nSpeeds
  · have hwf := fresh_wf h
    obtain ⟨vs, hvs, hlen, hrows, ht, hn, -, hcalc⟩ := fresh_data h
    have hex : ¬ Exceeds t p := fun hex => hbad ⟨hp, hex⟩
    unfold Exceeds at hex
    push Not at hex
    obtain ⟨k, x, v, q, h1, h2, h3⟩ := hex
    have hx : x ∈ t.temperatures := by
      by_contra hcon
      rw [Table.get, pyIndex_not_mem hcon, bind_error] at h1; simp at h1
    obtain ⟨i, hi⟩ := List.mem_iff_getElem?.1 hx
    obtain ⟨row, g1, g2⟩ := (fresh_cell h hvs (s := k) (by omega) hi).1 h1
    have := correctCells_fail (fp := p) (positions t.data) hwf (positions_nodup _) (by
      rintro ⟨j, s⟩ hm
      obtain ⟨r, f1, f2⟩ := mem_positions.1 hm
      rw [hvs, List.getElem?_map, Option.map_eq_some_iff] at f1
      obtain ⟨r', f1, rfl⟩ := f1
      have hs : s < r'.length := by simpa using f2
      have hsp : s < p.length := by rw [hp, ← hrows r' (List.mem_of_getElem? f1)]; exact hs
      exact ⟨_, _, by rw [hvs, at?_full]; exact ⟨r', f1, List.getElem?_eq_getElem hs⟩, List.getElem?_eq_getElem hsp⟩)
      ⟨(i, k), by rw [mem_positions, hvs, List.getElem?_map, g1]
                  exact ⟨_, rfl, by simpa using (List.getElem?_eq_some_iff.1 g2).1⟩,
        v, q, by rw [hvs, at?_full]; exact ⟨row, g1, g2⟩, h2, h3⟩
    simp only [applyFanPowerCorrection, PyM.bind_run, PyM.get_run, if_pos hp]
    cases hc : correctCells p (positions t.data) t with
    | mk r t' => rw [hc] at this; simp only at this; subst this; rfl
  · simp only [applyFanPowerCorrection, PyM.bind_run, PyM.get_run, if_neg hp, PyM.raise_run]

end Table

end Resdx.Tabular
