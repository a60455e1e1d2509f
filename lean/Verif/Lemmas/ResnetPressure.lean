import Verif.Lemmas.ResnetFan

/-! # The rated pressures of the default fan of a RESNET unit -/

set_option linter.unusedSectionVars false
set_option linter.unusedSimpArgs false

namespace Resdx.ResnetFan

open BaseModel Fan Spec

variable {power : Base → Int → Option ℝ → Py ℝ}

/-- The rated pressure of speed `i` relates its airflow to that of speed 0. -/
def EspAt (fullESP : ℝ) (s : Side) (i : Nat) : Prop :=
  ∃ a a0 : ℝ, s.airflow[i]? = some (some a) ∧ s.airflow[0]? = some (some a0) ∧ a0 ≠ 0 ∧ s.esp[i]? = some (some (fullESP * (a / a0) ^ 2))

theorem otherSpeed_esp {fullESP : ℝ} {fs i : Nat} {s s' : Side} {b b' : Base} (hb : AlignedBase b)
    (h : otherSpeed power fullESP fs s b i = .ok (s', b')) (hi : i ≠ fs) : EspAt fullESP s' i := by
  unfold otherSpeed at h
  rw [if_neg hi] at h
  simp only [bind_eq_ok] at h
  obtain ⟨s1, h1, ⟨s2, b2⟩, h2, h3⟩ := h
  simp only [bind_eq_ok, numAt_eq_ok] at h3
  obtain ⟨full, h0, h4⟩ := h3
  obtain ⟨⟨a, ha⟩, -⟩ := setAirflow_ok h1
  obtain ⟨-, x2, -, x4, -⟩ := addDesign_ok hb ha h2
  obtain ⟨-, -, -, -, -, -, y7, -, y9, y10⟩ := addRated_ok x2 x4 h4
  obtain ⟨_, _, _, _, _, e⟩ := x4
  exact ⟨a, full, by rw [y7, e], by rw [y7, h0], y9, y10⟩

theorem EspAt.same {fullESP : ℝ} {s s' : Side} {i : Nat} (h : EspAt fullESP s i) (hi : SameAt s s' i) (h0 : SameAt s s' 0) : EspAt fullESP s' i := by
  obtain ⟨a, a0, h1, h2, h3, h4⟩ := h
  exact ⟨a, a0, by rw [hi.2.2.1, h1], by rw [h0.2.2.1, h2], h3, by rw [hi.2.2.2.2.1, h4]⟩

theorem otherSpeeds_esp (hp : Local power) {fullESP : ℝ} {fs : Nat} :
    ∀ (l : List Nat) (s s' : Side) (b b' : Base), l.Nodup → 0 ∉ l → AlignedBase b → otherSpeeds power fullESP fs l s b = .ok (s', b') →
    ∀ i ∈ l, i ≠ fs → EspAt fullESP s' i := by
  intro l
  induction l with
  | nil => intro s s' b b' _ _ _ _ i hi; simp at hi
  | cons j l ih =>
    intro s s' b b' hnd h0 hb h i hi hfs
    simp only [otherSpeeds, bind_eq_ok] at h
    obtain ⟨⟨s1, b1⟩, h1, h2⟩ := h
    obtain ⟨x1, x2, x3, x4, x5, x6⟩ := otherSpeed_ok hp hb h1
    obtain ⟨hn1, hn2⟩ := List.nodup_cons.1 hnd
    have h0' : 0 ∉ l := fun e => h0 (List.mem_cons_of_mem _ e)
    obtain ⟨y1, y2, y3, y4, y5, y6⟩ := otherSpeeds_ok hp l s1 s' b1 b' hn2 x2 h2
    rcases List.mem_cons.1 hi with rfl | hi
    · exact (otherSpeed_esp hb h1 hfs).same (y4 i (.inl hn1)) (y4 0 (.inl h0'))
    · exact ih s1 s' b1 b' hn2 h0' x2 h2 i hi hfs

theorem otherSpeeds_range_esp (hp : Local power) {fullESP : ℝ} {fs n : Nat} {s s' : Side} {b b' : Base} (hb : AlignedBase b)
    (h : otherSpeeds power fullESP fs (List.range n) s b = .ok (s', b')) : ∀ i, i < n → i ≠ fs → EspAt fullESP s' i := by
  intro i hi hfs
  obtain ⟨m, rfl⟩ : ∃ m, n = m + 1 := ⟨n - 1, by omega⟩
  rw [List.range_succ_eq_map] at h
  simp only [otherSpeeds, bind_eq_ok] at h
  obtain ⟨⟨s1, b1⟩, h1, h2⟩ := h
  obtain ⟨x1, x2, x3, x4, x5, x6⟩ := otherSpeed_ok hp hb h1
  have hnd : ((List.range m).map Nat.succ).Nodup := List.Nodup.map (fun _ _ => Nat.succ.inj) List.nodup_range
  have h0 : 0 ∉ (List.range m).map Nat.succ := by simp
  obtain ⟨y1, y2, y3, y4, y5, y6⟩ := otherSpeeds_ok hp _ s1 s' b1 b' hnd x2 h2
  by_cases hi0 : i = 0
  · subst hi0
    exact (otherSpeed_esp hb h1 hfs).same (y4 0 (.inl h0)) (y4 0 (.inl h0))
  · exact otherSpeeds_esp hp _ s1 s' b1 b' hnd h0 x2 h2 i (by simp; exact ⟨i - 1, by omega, by omega⟩) hfs

/-- What `set_fan` leaves for one mode with full-load speed `fs`: settings for every speed, and the rated pressures. -/
structure ModeSet (power : Base → Int → Option ℝ → Py ℝ) (fullESP design : ℝ) (fs : Nat) (s0 s : Side) (b : Base) : Prop where
  caps : s.caps = s0.caps
  perCap : s.perCap = s0.perCap
  rated : ∀ i, i < s.caps.length → D2 power s b i
  other : ∀ i, i < s.caps.length → i ≠ fs → EspAt fullESP s i
  full : ∃ a, HasAirflow s fs a ∧ s.esp[fs]? = some (some (fullESP * (a / design) ^ 2))

/-- Everything about the result of `set_fan`. -/
theorem setFan_sets (u : Units ℝ) (hp : Local power) {fullESP : ℝ} {cfs hfs : Nat} {c h c' h' : Side} {b : Base}
    (hrun : setFan u power fullESP cfs hfs c h = .ok (c', h', b)) :
    ∃ ac ah, HasAirflow c' cfs ac ∧ HasAirflow h' hfs ah ∧ max ac ah ≠ 0 ∧ b.airflow[0]? = some (max ac ah) ∧
      ModeSet power fullESP (max ac ah) cfs c c' b ∧ ModeSet power fullESP (max ac ah) hfs h h' b := by
  unfold setFan at hrun
  simp only [bind_eq_ok, numAt_eq_ok] at hrun
  obtain ⟨c1, r1, h1, r2, ac, r3, ah, r4, b0, r5, ⟨c2, h2, b1⟩, r6, ⟨c3, b2⟩, r7, ⟨h3, b3⟩, r8, ⟨c4, b4⟩, r9, ⟨h4, b5⟩, r10, r11⟩ := hrun
  simp only [pure_eq_ok, Except.ok.injEq, Prod.mk.injEq] at r11
  obtain ⟨rfl, rfl, rfl⟩ := r11
  obtain ⟨⟨a1, A1⟩, -, p1, p2⟩ := setAirflow_ok r1
  obtain ⟨⟨a2, A2⟩, -, p3, p4⟩ := setAirflow_ok r2
  have ea1 : a1 = ac := by obtain ⟨_, _, _, _, _, e⟩ := A1; rw [r3] at e; simpa using e.symm
  have ea2 : a2 = ah := by obtain ⟨_, _, _, _, _, e⟩ := A2; rw [r4] at e; simpa using e.symm
  subst ea1; subst ea2
  have hd : (if a2 ≤ a1 then a1 else a2) = max a1 a2 := by
    split
    · rename_i hle; exact (max_eq_left hle).symm
    · rename_i hle; exact (max_eq_right (not_le.1 hle).le).symm
  obtain ⟨B0, B1, -, B3⟩ := init_single r5
  obtain ⟨E1, AB1, dc, dh, Ac, Ah, p5, p6, p7, p8⟩ := fullSpeeds_ok (ac := a1) (ah := a2) B0 (by rw [B1]; simp) A1 A2 r6
  rw [hd] at r7 r8 B3 B1
  obtain ⟨E2, AB2, dc2, -, p9, p10, p11, p12, -, q1⟩ := addRated_ok AB1 Ac r7
  obtain ⟨E3, AB3, dh2, -, p13, p14, p15, p16, -, q2⟩ := addRated_ok AB2 Ah r8
  obtain ⟨E4, AB4, oc, sc, p17, p18⟩ := otherSpeeds_ok hp _ _ _ _ _ List.nodup_range AB3 r9
  obtain ⟨E5, AB5, oh, sh, p19, p20⟩ := otherSpeeds_ok hp _ _ _ _ _ List.nodup_range AB4 r10
  have Ac3 : HasAirflow c3 cfs a1 := by
    obtain ⟨q, r, w1, w2, w3, w4⟩ := Ac
    exact ⟨q, r, by rw [p9, w1], by rw [p10, w2], w3, by rw [p11, w4]⟩
  have Ah3 : HasAirflow h3 hfs a2 := by
    obtain ⟨q, r, w1, w2, w3, w4⟩ := Ah
    exact ⟨q, r, by rw [p13, w1], by rw [p14, w2], w3, by rw [p15, w4]⟩
  have sc' := sc cfs (.inr rfl)
  have sh' := sh hfs (.inr rfl)
  have Ac4 := Ac3.same sc'
  have Ah4 := Ah3.same sh'
  refine ⟨a1, a2, Ac4, Ah4, B3, ?_, ?_, ?_⟩
  · exact (E1.trans (E2.trans (E3.trans (E4.trans E5)))).get (by rw [B1]; rfl)
  · refine ⟨by rw [p17, p9, p5, p1], by rw [p18, p10, p6, p2], fun i hi => ?_, fun i hi hfs => ?_, a1, Ac4, by rw [sc'.2.2.2.2.1, q1]⟩
    · by_cases hi' : i = cfs
      · subst hi'; exact (dc2.ext hp (E3.trans (E4.trans E5))).same sc'
      · exact ((oc i (by rw [p17] at hi; simpa using hi) hi').2).ext hp E5
    · exact otherSpeeds_range_esp hp AB3 r9 i (by rw [p17] at hi; exact hi) hfs
  · refine ⟨by rw [p19, p13, p7, p3], by rw [p20, p14, p8, p4], fun i hi => ?_, fun i hi hfs => ?_, a2, Ah4, by rw [sh'.2.2.2.2.1, q2]⟩
    · by_cases hi' : i = hfs
      · subst hi'; exact (dh2.ext hp (E4.trans E5)).same sh'
      · exact (oh i (by rw [p19] at hi; simpa using hi) hi').2
    · exact otherSpeeds_range_esp hp AB4 r10 i (by rw [p19] at hi; exact hi) hfs

end Resdx.ResnetFan
