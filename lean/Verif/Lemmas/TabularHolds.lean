import Verif.Lemmas.TabularRows

/-!
# Following a builder cell by cell

`Holds n ts cs t` says that a table with `n` speeds and temperatures `ts` contains the listed cells (speed, temperature, value). Every setter adds one cell to the list.
-/

set_option linter.unusedSectionVars false
set_option linter.unusedSimpArgs false

namespace Resdx.Tabular

open Spec Util Table Props

variable {K : Type} [Field K] [LinearOrder K] [IsStrictOrderedRing K]

/-- The table contains these cells. -/
structure Holds (n : Nat) (ts : List K) (cs : List (Int × K × K)) (t : Table K) : Prop where
  wf : TableWF t
  speeds : t.nSpeeds = n
  temps : t.temperatures = ts
  val : ∀ c ∈ cs, (1 ≤ c.1 ∧ c.1 ≤ n) ∧ t.get c.1 c.2.1 = .ok (some c.2.2)

/-- None of the listed cells is the cell (s, x). -/
def Apart (s : Int) (x : K) (cs : List (Int × K × K)) : Prop := ∀ c ∈ cs, c.1 ≠ s ∨ c.2.1 ≠ x

theorem apart_nil {s : Int} {x : K} : Apart s x [] := by intro c hc; simp at hc

theorem apart_cons {s s' : Int} {x x' v : K} {cs : List (Int × K × K)} (h : s' ≠ s ∨ x' ≠ x) (hc : Apart s x cs) : Apart s x ((s', x', v) :: cs) := by
  intro c hm
  rcases List.mem_cons.1 hm with rfl | hm
  · exact h
  · exact hc c hm

theorem frF_ne {a b : K} (h : a ≠ b) : frF a ≠ frF b := by rw [ne_eq, frF_inj]; exact h

/-- Distinct cells. -/
macro "apart" : tactic => `(tactic| repeat' first | exact apart_nil | refine apart_cons (.inl (by decide)) ?_ | refine apart_cons (.inr (frF_ne (by norm_num))) ?_ | refine apart_cons (.inr (by assumption)) ?_)

/-- A listed cell. -/
macro "here" : tactic => `(tactic| repeat' first | exact List.mem_cons_self | apply List.mem_cons_of_mem)

namespace Holds

variable {n : Nat} {ts : List K} {cs : List (Int × K × K)} {t : Table K}

theorem cell (h : Holds n ts cs t) {s : Int} {x v : K} (hc : (s, x, v) ∈ cs) : Cell n t s x v :=
  ⟨h.wf, h.speeds, (h.val _ hc).1, (h.val _ hc).2⟩

theorem init (n : Nat) (hs : ts.Pairwise (· < ·)) : Holds n ts [] (Table.init ts n) :=
  ⟨init_wf n hs, rfl, rfl, by intro c hc; simp at hc⟩

theorem write (h : Holds n ts cs t) {m : PyM (Table K) Unit} {s : Int} {x v : K} (hw : Writes m t s x v) (ha : Apart s x cs) :
    ∃ t', PyM.exec m t = .ok t' ∧ Holds n ts ((s, x, v) :: cs) t' := by
  obtain ⟨i, k, h1, h2, h3, h4⟩ := hw
  refine ⟨_, exec_ok.2 h4, wf_upd h.wf _ _ _, h.speeds, h.temps, ?_⟩
  intro c hc
  rcases List.mem_cons.1 hc with rfl | hc
  · exact ⟨⟨by show 1 ≤ s; omega, by show s ≤ n; have := h.speeds; omega⟩, get_upd_self h.wf _ h1 h2 h3⟩
  · obtain ⟨a, b⟩ := h.val c hc
    exact ⟨a, (get_upd_other h.wf _ h1 h3 ⟨a.1, by rw [h.speeds]; exact a.2⟩ (ha c hc)).trans b⟩

theorem set (h : Holds n ts cs t) (s : Int) (x v : K) (hs : 1 ≤ s ∧ s ≤ n) (hx : x ∈ ts) (ha : Apart s x cs) :
    ∃ t', PyM.exec (Table.set s x v) t = .ok t' ∧ Holds n ts ((s, x, v) :: cs) t' :=
  h.write (set_writes h.wf v ⟨hs.1, by rw [h.speeds]; exact hs.2⟩ (by rw [h.temps]; exact hx)) ha

theorem ratio (h : Holds n ts cs t) (s : Int) (x r : K) {q : K} (hc : ((n : Int), x, q) ∈ cs) (hs : 1 ≤ s ∧ s < n) (ha : Apart s x cs) :
    ∃ t', PyM.exec (setByRatio s x r) t = .ok t' ∧ Holds n ts ((s, x, q * r) :: cs) t' :=
  have c := h.cell hc
  h.write (setByRatio_writes h.wf r ⟨hs.1, by rw [h.speeds]; omega⟩ (by rw [h.speeds]; omega) c.mem (by rw [h.speeds]; exact c.val)) ha

theorem ratioMax (h : Holds n ts cs t) (x r : K) {q : K} (hc : ((n : Int) - 1, x, q) ∈ cs) (hr : r ≠ 0) (ha : Apart (n : Int) x cs) :
    ∃ t', PyM.exec (setByRatio (n : Int) x r) t = .ok t' ∧ Holds n ts (((n : Int), x, q / r) :: cs) t' := by
  have c := h.cell hc
  have h2 := c.speed
  have hw := setByRatio_max_writes h.wf (x := x) (by rw [h.speeds]; omega) hr c.mem (by rw [h.speeds]; exact c.val)
  rw [h.speeds] at hw
  exact h.write hw ha

theorem coolDown (h : Holds n ts cs t) (s : Int) (x ref m : K) {q : K} (hc : (s, ref, q) ∈ cs) (hx : x ∈ ts) (hlt : x < ref) (hm : m ≠ 0) (ha : Apart s x cs) :
    ∃ t', PyM.exec (setByMaintenance .cooling s x ref m) t = .ok t' ∧ Holds n ts ((s, x, q / m) :: cs) t' := by
  have c := h.cell hc
  have hw := setByMaintenance_writes h.wf .cooling c.isSpeed (by rw [h.temps]; exact hx) hm hlt.ne c.val
  rw [if_neg (by simp; exact hlt.le)] at hw
  exact h.write hw ha

theorem coolUp (h : Holds n ts cs t) (s : Int) (x ref m : K) {q : K} (hc : (s, ref, q) ∈ cs) (hx : x ∈ ts) (hlt : ref < x) (hm : m ≠ 0) (ha : Apart s x cs) :
    ∃ t', PyM.exec (setByMaintenance .cooling s x ref m) t = .ok t' ∧ Holds n ts ((s, x, q * m) :: cs) t' := by
  have c := h.cell hc
  have hw := setByMaintenance_writes h.wf .cooling c.isSpeed (by rw [h.temps]; exact hx) hm hlt.ne' c.val
  rw [if_pos (by simp; exact hlt)] at hw
  exact h.write hw ha

theorem heatDown (h : Holds n ts cs t) (s : Int) (x ref m : K) {q : K} (hc : (s, ref, q) ∈ cs) (hx : x ∈ ts) (hlt : x < ref) (ha : Apart s x cs) :
    ∃ t', PyM.exec (setByMaintenance .heating s x ref m) t = .ok t' ∧ Holds n ts ((s, x, q * m) :: cs) t' :=
  have c := h.cell hc
  h.write (heating_writes c (by rw [h.temps]; exact hx) hlt) ha

/-- The middle of three speeds, in the proportion of the next temperature. -/
theorem interpolate (h : Holds n ts cs t) (x y : K) {a0 a2 b0 b1 b2 : K} (hn : 3 ≤ n) (hxy : Neighbours ts x y) (ha0 : ((1 : Int), x, a0) ∈ cs) (ha2 : ((3 : Int), x, a2) ∈ cs)
    (hb0 : ((1 : Int), y, b0) ∈ cs) (hb1 : ((2 : Int), y, b1) ∈ cs) (hb2 : ((3 : Int), y, b2) ∈ cs) (hb : b2 ≠ b0) (ha : Apart 2 x cs) :
    ∃ t', PyM.exec (setByInterpolation 2 x) t = .ok t' ∧ Holds n ts ((2, x, a0 + (b1 - b0) / (b2 - b0) * (a2 - a0)) :: cs) t' :=
  h.write (setByInterpolation_writes h.wf (speed := 2) ⟨by omega, by rw [h.speeds]; omega⟩ ⟨by omega, by rw [h.speeds]; omega⟩ (by rw [h.temps]; exact hxy) (h.cell ha0).val (h.cell ha2).val
    (h.cell hb0).val (h.cell hb1).val (h.cell hb2).val hb) ha

/-- A read divided by a number. -/
theorem over (h : Holds n ts cs t) {s : Int} {x v d : K} (hc : (s, x, v) ∈ cs) (hd : d ≠ 0) : getOver t s x d = .ok (v / d) := getOver_ok (h.cell hc) hd

theorem cop {t' : Table K} {cs' : List (Int × K × K)} (h : Holds n ts cs t) (h' : Holds n ts cs' t') {s : Int} {x v w : K} (hc : (s, x, v) ∈ cs) (hc' : (s, x, w) ∈ cs') (hd : w ≠ 0) :
    copAt t t' s x = .ok (v / w) := by
  simp only [copAt, (h.cell hc).val, (h'.cell hc').val, bind_ok, pyNum, pdiv_ok hd]

end Holds

end Resdx.Tabular
