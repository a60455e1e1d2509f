import Verif.Lemmas.ResnetBpm

/-! # When the construction of a RESNET unit returns -/

set_option linter.unusedSectionVars false
set_option linter.unusedSimpArgs false

namespace Resdx.Build

open Spec Tabular BaseModel Props ResnetFan Fan Table

variable {u : Units ℝ} {brentq : Brentq}

/-! ## The fan -/

theorem bpm_bound {r s : ℝ} (hr : 0 < r) (hr3 : r ^ 2 ≤ 3) (hs : 0 ≤ s) (hs3 : s ≤ 3) (h : s ≤ 1 ∨ r ≤ 1) :
    0 < 0.171 * (r * r) + (0.281 * r ^ (1.75 : ℝ) - 0.171 * (r * r)) * s ∧ 0.171 * (r * r) + (0.281 * r ^ (1.75 : ℝ) - 0.171 * (r * r)) * s ≤ 0.843 := by
  have h2 : r ^ (2 : ℝ) = r * r := by rw [Real.rpow_two]; ring
  have hX : 0 < r ^ (1.75 : ℝ) := Real.rpow_pos_of_pos hr _
  have hrr : 0 < r * r := mul_pos hr hr
  by_cases h1 : r ≤ 1
  · have a1 : r * r ≤ r ^ (1.75 : ℝ) := by rw [← h2]; exact Real.rpow_le_rpow_of_exponent_ge hr h1 (by norm_num)
    have a2 : r ^ (1.75 : ℝ) ≤ 1 := Real.rpow_le_one hr.le h1 (by norm_num)
    generalize r ^ (1.75 : ℝ) = X at *
    generalize r * r = Y at *
    have a3 : 0 ≤ 0.281 * X - 0.171 * Y := by linarith
    constructor
    · have := mul_nonneg a3 hs
      linarith
    · have := mul_le_mul_of_nonneg_left hs3 a3
      linarith
  · have hs1 : s ≤ 1 := h.resolve_right h1
    have a1 : r ^ (1.75 : ℝ) ≤ r * r := by rw [← h2]; exact Real.rpow_le_rpow_of_exponent_le (not_le.1 h1).le (by norm_num)
    have a2 : r * r ≤ 3 := by nlinarith
    generalize r ^ (1.75 : ℝ) = X at *
    generalize r * r = Y at *
    constructor
    · nlinarith
    · have k1 := mul_nonneg (sub_nonneg.2 a1) hs
      have k2 := mul_nonneg hrr.le (sub_nonneg.2 hs1)
      have k3 : 0.171 * Y + (0.281 * X - 0.171 * Y) * s = 0.281 * Y - 0.281 * ((Y - X) * s) - 0.11 * (Y * (1 - s)) := by ring
      rw [k3]
      clear h2 hr3 h k3
      linarith

/-- The rated fan power of a speed lies between 0 and 0.843 W/cfm. -/
theorem power_bound {psc : Bool} (hbr : psc = false → BrentqSpec brentq) {fullESP d : ℝ} {fs : Nat} {s0 s : Side} {b : Base} (hb : GoodFan u d b) (hd : 0 < d)
    (M : ModeSet (motorPower u brentq psc) fullESP d fs s0 s b) (hp : 0 ≤ fullESP) (hp1 : fullESP ≤ 0.5 * u.inH2O) {i : Nat} {a a0 : ℝ}
    (hi : i < s.caps.length) (ha : s.airflow[i]? = some (some a)) (ha0 : s.airflow[0]? = some (some a0)) (h0 : 0 < a) (h1 : a ≤ a0) (h2 : (a / d) ^ 2 ≤ 3) (h3 : (d / a0) ^ 2 ≤ 3) :
    ∃ w, s.power[i]? = some (some w) ∧ 0 < w ∧ w ≤ 0.843 / u.cfm * a := by
  have hc := u.cfm_pos
  have hI := u.inH2O_pos
  obtain ⟨a', k, p, w, ⟨q, c, -, -, -, g1⟩, -, g2, g3, g4, g5⟩ := M.rated i hi
  rw [ha] at g1; cases g1
  refine ⟨w, g5, ?_⟩
  have hr : 0 < a / d := div_pos h0 hd
  have h00 : 0 < a0 := h0.trans_le h1
  cases psc with
  | true =>
    have e1 : ∀ p, resnetAirflow b k p = .ok a := by
      intro p
      obtain ⟨hlt, rfl⟩ := List.getElem?_eq_some_iff.1 g2
      exact pyGetI_nat hlt
    have e0 : ∀ p, resnetAirflow b 0 p = .ok d := by
      intro p
      obtain ⟨hlt, h⟩ := List.getElem?_eq_some_iff.1 hb.2.1
      have := pyGetI_nat hlt
      rw [h] at this
      exact this
    simp only [ResnetFan.motorPower, if_true, resnetPSCPower, resnetPSCEfficacy, resnetAirflowRatio, e1, e0, bind_ok, pdiv_ok hd.ne', pure_eq_ok, Except.ok.injEq] at g4
    rw [← g4]
    have hle : a / d ≤ 2 := by nlinarith
    have hs : PSC.slope = 0.3 := rfl
    rw [hs]
    have e : a * (0.414 / u.cfm * (0.3 * (a / d) + (1 - 0.3))) = a / u.cfm * (0.414 * (0.3 * (a / d) + (1 - 0.3))) := by ring
    rw [e]
    have hac : 0 < a / u.cfm := div_pos h0 hc
    constructor
    · positivity
    · have : 0.414 * (0.3 * (a / d) + (1 - 0.3)) ≤ 0.843 := by linarith
      calc a / u.cfm * (0.414 * (0.3 * (a / d) + (1 - 0.3))) ≤ a / u.cfm * 0.843 := mul_le_mul_of_nonneg_left this hac.le
        _ = 0.843 / u.cfm * a := by ring
  | false =>
    simp only [ResnetFan.motorPower, Bool.false_eq_true, if_false] at g4
    rw [bpm_power u (hbr rfl) hd hb g2 h0 h2 p] at g4
    simp only [Except.ok.injEq] at g4
    rw [← g4]
    -- the pressure relative to the operating pressure
    obtain ⟨e, he0, he1, hcase, hpe⟩ : ∃ e : ℝ, 0 ≤ e ∧ e ≤ 3 ∧ (e ≤ 1 ∨ a / d ≤ 1) ∧ p / (0.5 * u.inH2O * (a / d) ^ 2) = e := by
      refine ⟨_, ?_, ?_, ?_, rfl⟩
      all_goals
        have hE0 : 0 ≤ fullESP / (0.5 * u.inH2O) := by positivity
        have hE1 : fullESP / (0.5 * u.inH2O) ≤ 1 := by rw [div_le_one (by positivity)]; exact hp1
        have key : p / (0.5 * u.inH2O * (a / d) ^ 2) = fullESP / (0.5 * u.inH2O) ∨ p / (0.5 * u.inH2O * (a / d) ^ 2) = fullESP / (0.5 * u.inH2O) * (d / a0) ^ 2 := by
          by_cases hfs : i = fs
          · left
            subst hfs
            obtain ⟨x, ⟨_, _, _, _, _, y1⟩, y2⟩ := M.full
            rw [ha] at y1; cases y1
            rw [g3] at y2; cases y2
            field_simp
          · right
            obtain ⟨x, x0, y1, y2, y3, y4⟩ := M.other i hi hfs
            rw [ha] at y1; cases y1
            rw [ha0] at y2; cases y2
            rw [g3] at y4; cases y4
            field_simp
      · rcases key with h | h <;> rw [h] <;> positivity
      · rcases key with h | h <;> rw [h]
        · linarith
        · calc fullESP / (0.5 * u.inH2O) * (d / a0) ^ 2 ≤ 1 * (d / a0) ^ 2 := mul_le_mul_of_nonneg_right hE1 (sq_nonneg _)
            _ ≤ 3 := by linarith
      · rcases key with h | h <;> rw [h]
        · exact .inl hE1
        · by_cases had : a / d ≤ 1
          · exact .inr had
          · left
            have hda : d < a := by rwa [not_le, one_lt_div hd] at had
            have : (d / a0) ^ 2 ≤ 1 := by
              have h5 : d / a0 ≤ 1 := by rw [div_le_one h00]; linarith
              have h6 : 0 ≤ d / a0 := by positivity
              nlinarith
            calc fullESP / (0.5 * u.inH2O) * (d / a0) ^ 2 ≤ 1 * 1 := mul_le_mul hE1 this (sq_nonneg _) zero_le_one
              _ = 1 := one_mul 1
    obtain ⟨b1, b2⟩ := bpm_bound hr h2 he0 he1 hcase
    have hac : 0 < a / u.cfm := div_pos h0 hc
    have e' : a * (0.171 / u.cfm * (a / d) * (a / d) + (0.281 / u.cfm * (a / d) ^ (1.75 : ℝ) - 0.171 / u.cfm * (a / d) * (a / d)) * p / (0.5 * u.inH2O * (a / d) ^ 2)) =
        a / u.cfm * (0.171 * (a / d * (a / d)) + (0.281 * (a / d) ^ (1.75 : ℝ) - 0.171 * (a / d * (a / d))) * (p / (0.5 * u.inH2O * (a / d) ^ 2))) := by ring
    rw [e', hpe]
    refine ⟨mul_pos hac b1, ?_⟩
    calc a / u.cfm * _ ≤ a / u.cfm * 0.843 := mul_le_mul_of_nonneg_left b2 hac.le
      _ = 0.843 / u.cfm * a := by ring

/-! ## Tables -/

theorem calculate_pos {st : Staging} {t : Table ℝ} (h : Fresh t) (hn : t.nSpeeds = tableSpeeds st) (hp : ∀ (k : Nat) (x v : ℝ), k < t.nSpeeds → t.get ((k : Int) + 1) x = .ok (some v) → 0 < v)
    {x : ℝ} (hx : x ∈ t.temperatures) {i : Nat} {σ : ℝ} (hσ : TableSpeed st i σ) : ∃ y, t.calculate σ x = .ok y ∧ 0 < y := by
  have node : ∀ k : Nat, k < t.nSpeeds → ∃ y, t.calculate ((k : ℝ) + 1) x = .ok y ∧ 0 < y := by
    intro k hk
    obtain ⟨v, hv⟩ := fresh_full h hk hx
    have h1 := C30_node t h _ x v ⟨by omega, by omega⟩ hv
    push_cast at h1
    exact ⟨v, h1, hp k x v hk hv⟩
  have half : 2 ≤ t.nSpeeds → ∃ y, t.calculate (3 / 2) x = .ok y ∧ 0 < y := by
    intro h2
    obtain ⟨y0, e0, p0⟩ := node 0 (by omega)
    obtain ⟨y1, e1, p1⟩ := node 1 (by omega)
    obtain ⟨z0, z1, y, g0, g1, g, hline⟩ := C30_linear_in_speed t h 1 (3 / 2) x ⟨by norm_num, by omega⟩ ⟨by norm_num, by omega⟩ (.inr rfl) (.inl (by norm_num))
    norm_num at e0 e1 g0 g1
    rw [e0] at g0; rw [e1] at g1
    cases g0; cases g1
    refine ⟨y, g, ?_⟩
    unfold OnLine at hline
    push_cast at hline
    norm_num at hline
    linarith
  cases st with
  | single => obtain ⟨-, rfl⟩ := hσ; have := node 0 (by rw [hn]; decide); norm_num at this; exact this
  | two =>
    rcases hσ with ⟨-, rfl⟩ | ⟨-, rfl⟩
    · have := node 1 (by rw [hn]; decide); norm_num at this; exact this
    · have := node 0 (by rw [hn]; decide); norm_num at this; exact this
  | varSpeed =>
    rcases hσ with ⟨-, rfl⟩ | ⟨-, rfl⟩ | ⟨-, rfl⟩ | ⟨-, rfl⟩
    · have := node 2 (by rw [hn]; decide); norm_num at this; exact this
    · have := node 1 (by rw [hn]; decide); norm_num at this; exact this
    · exact half (by rw [hn]; decide)
    · have := node 0 (by rw [hn]; decide); norm_num at this; exact this

/-- Every table speed belongs to a compressor speed. -/
theorem speed_of_column (st : Staging) {k : Nat} (hk : k < tableSpeeds st) : ∃ i, TableSpeed st i ((k : ℝ) + 1) ∧ inverseGet (speedMap st) k = .ok i := by
  cases st with
  | single =>
    obtain rfl : k = 0 := by simp [tableSpeeds] at hk; exact hk
    exact ⟨0, by simp [TableSpeed], by simp [inverseGet, speedMap, List.findIdx?_cons]⟩
  | two =>
    have : k = 0 ∨ k = 1 := by simp [tableSpeeds] at hk; omega
    rcases this with rfl | rfl
    · exact ⟨1, by simp [TableSpeed], by simp [inverseGet, speedMap, List.findIdx?_cons]⟩
    · exact ⟨0, by simp [TableSpeed]; norm_num, by simp [inverseGet, speedMap, List.findIdx?_cons]; norm_num⟩
  | varSpeed =>
    have : k = 0 ∨ k = 1 ∨ k = 2 := by simp [tableSpeeds] at hk; omega
    rcases this with rfl | rfl | rfl
    · exact ⟨3, by simp [TableSpeed], by simp [inverseGet, speedMap, List.findIdx?_cons]; norm_num⟩
    · exact ⟨1, by simp [TableSpeed]; norm_num, by simp [inverseGet, speedMap, List.findIdx?_cons]; norm_num⟩
    · exact ⟨0, by simp [TableSpeed]; norm_num, by simp [inverseGet, speedMap, List.findIdx?_cons]; norm_num⟩

theorem ratedAt_length {st : Staging} {t : Table ℝ} {x : ℝ} {q : List ℝ} (h : RatedAt st t x q) : q.length = speedCount st := by
  have h1 : ∀ i, i < speedCount st → i < q.length := by
    intro i hi
    have : ∃ σ, (speedMap st)[i]? = some σ := ⟨(speedMap st)[i]'(by rw [speedMap_length]; exact hi), List.getElem?_eq_getElem _⟩
    obtain ⟨σ, hσ⟩ := this
    obtain ⟨c, hc, -⟩ := h.1 i σ (speedMap_get.1 hσ)
    exact (List.getElem?_eq_some_iff.1 hc).1
  have h2 : ∀ i, i < q.length → i < speedCount st := by
    intro i hi
    obtain ⟨σ, hσ⟩ := h.2 i q[i] (List.getElem?_eq_getElem hi)
    exact tableSpeed_lt hσ
  rcases lt_trichotomy q.length (speedCount st) with h | h | h
  · exact absurd (h1 _ h) (lt_irrefl _)
  · exact h
  · exact absurd (h2 _ h) (lt_irrefl _)

theorem ratedAt_mapM {st : Staging} {t : Table ℝ} {x : ℝ} {q : List ℝ} (h : RatedAt st t x q) : (speedMap st).mapM (fun s => t.calculate s x) = .ok q := by
  rw [mapM_ok_iff, List.forall₂_iff_get]
  have hl := ratedAt_length h
  refine ⟨by rw [speedMap_length, hl], fun i h1 h2 => ?_⟩
  obtain ⟨c, hc, hc'⟩ := h.1 i _ (speedMap_get.1 (List.getElem?_eq_getElem h1))
  rw [List.getElem?_eq_getElem h2] at hc
  cases hc
  exact hc'

theorem ratedAt_get {st : Staging} {t : Table ℝ} {x : ℝ} {q : List ℝ} (h : RatedAt st t x q) {i : Nat} {σ : ℝ} (hσ : TableSpeed st i σ) : ∃ c, q[i]? = some c := by
  obtain ⟨c, hc, -⟩ := h.1 i σ hσ; exact ⟨c, hc⟩

/-! ## The core of the model -/

theorem full_lt (st : Staging) : fullIndex st < speedCount st := by cases st <;> decide

theorem fullESP_ok (u : Units ℝ) (ducted : Bool) (std : Standard) {q : List ℝ} (hq : 0 < q.length) :
    ∃ p, fullFlowPressure u ducted std q = .ok p ∧ 0 ≤ p ∧ p ≤ 0.5 * u.inH2O := by
  have hi := u.inH2O_pos
  unfold fullFlowPressure
  split
  · exact ⟨0, rfl, le_rfl, by positivity⟩
  · cases std with
    | ahri2023 => exact ⟨_, rfl, by positivity, le_rfl⟩
    | ahri2017 =>
      simp only [pyGet_lt hq, bind_ok, pure_eq_ok]
      split
      · exact ⟨_, rfl, by positivity, by linarith⟩
      · split
        · exact ⟨_, rfl, by positivity, by linarith⟩
        · exact ⟨_, rfl, by positivity, by linarith⟩

theorem start_airflow' {n : Nat} {power : Base → Int → Option ℝ → Py ℝ} {fullESP d : ℝ} {fs : Nat} {q : List ℝ} {s : Side} {b : Base}
    (M : ModeSet power fullESP d fs (Side.start u n q none) s b) {i : Nat} {c : ℝ} (hc : q[i]? = some c) : s.airflow[i]? = some (some (c * (400 * u.cfm / u.ton))) := by
  have hq : s.caps = q := M.caps
  obtain ⟨hi, hc'⟩ := List.getElem?_eq_some_iff.1 hc
  obtain ⟨a, _, _, _, ⟨x, r, e1, e2, rfl, e4⟩, -⟩ := M.rated i (by rw [hq]; exact hi)
  rw [hq, hc] at e1; cases e1
  rw [M.perCap] at e2
  have : r = 400 * u.cfm / u.ton := by
    have := List.mem_of_getElem? e2
    simp [Side.start, setDefault, makeList] at this
    exact this.2
  rw [e4, this]

/-- The rated fan powers of a mode. -/
theorem mode_powers {st : Staging} {psc : Bool} (hbr : psc = false → BrentqSpec brentq) {fullESP D : ℝ} {fs : Nat} {q : List ℝ} {s : Side} {b : Base}
    (M : ModeSet (ResnetFan.motorPower u brentq psc) fullESP (D * (400 * u.cfm / u.ton)) fs (Side.start u (speedCount st) q none) s b)
    (hb : GoodFan u (D * (400 * u.cfm / u.ton)) b) (hD : 0 < D) (hR : RatedSizes D q) (hp : 0 ≤ fullESP) (hp1 : fullESP ≤ 0.5 * u.inH2O) {i : Nat} {c : ℝ} (hc : q[i]? = some c) :
    ∃ w, s.power[i]? = some (some w) ∧ 0 < w ∧ w ≤ 337.2 / u.ton * c := by
  have hcf := u.cfm_pos
  have ht := u.ton_pos
  have hr : 0 < 400 * u.cfm / u.ton := by positivity
  obtain ⟨hi, -⟩ := List.getElem?_eq_some_iff.1 hc
  have hl0 : 0 < q.length := by omega
  have h0 : q[0]? = some (q[0]'hl0) := List.getElem?_eq_getElem hl0
  have c0 : 0 < c := hR.pos c (List.mem_of_getElem? hc)
  have q0 : (0 : ℝ) < q[0]'hl0 := hR.pos _ (List.getElem_mem _)
  obtain ⟨w, w1, w2, w3⟩ := power_bound hbr hb (mul_pos hD hr) M hp hp1 (i := i) (by rw [M.caps]; exact hi) (start_airflow' M hc) (start_airflow' M h0) (mul_pos c0 hr)
    (mul_le_mul_of_nonneg_right (hR.order 0 i _ _ (Nat.zero_le _) h0 hc) hr.le)
    (by rw [mul_div_mul_right _ _ hr.ne', div_pow, div_le_iff₀ (by positivity)]; exact hR.below c (List.mem_of_getElem? hc))
    (by rw [mul_div_mul_right _ _ hr.ne', div_pow, div_le_iff₀ (by positivity)]; exact hR.above _ h0)
  refine ⟨w, w1, w2, w3.trans (le_of_eq ?_)⟩
  field_simp; norm_num

theorem tableFanPowers_returns {st : Staging} {q : List ℝ} {power : List (Option ℝ)} {t : Table ℝ} {x m : ℝ} (hq : RatedAt st t x q)
    (h : ∀ (i : Nat) (c : ℝ), q[i]? = some c → ∃ w, power[i]? = some (some w) ∧ 0 < w ∧ w ≤ m * c) :
    ∃ l, tableFanPowers (speedMap st) (tableSpeeds st) power = .ok l ∧ l.length = tableSpeeds st ∧
      ∀ (k : Nat) (w : ℝ), l[k]? = some w → ∃ i c, TableSpeed st i ((k : ℝ) + 1) ∧ q[i]? = some c ∧ 0 < w ∧ w ≤ m * c := by
  have key : ∀ k, k < tableSpeeds st → ∃ i c w, TableSpeed st i ((k : ℝ) + 1) ∧ q[i]? = some c ∧ 0 < w ∧ w ≤ m * c ∧ (do numAt power (← inverseGet (speedMap st) k)) = .ok w := by
    intro k hk
    obtain ⟨i, h1, h2⟩ := speed_of_column st hk
    obtain ⟨c, hc⟩ := ratedAt_get hq h1
    obtain ⟨w, w1, w2, w3⟩ := h i c hc
    exact ⟨i, c, w, h1, hc, w2, w3, by rw [h2, bind_ok, numAt_eq_ok]; exact w1⟩
  obtain ⟨l, hl⟩ := mapM_isOk (fun s => do numAt power (← inverseGet (speedMap st) s)) (List.range (tableSpeeds st)) fun k hk => by
    obtain ⟨_, _, w, -, -, -, -, e⟩ := key k (by simpa using hk)
    exact ⟨w, e⟩
  have hl' := hl
  rw [mapM_range_ok_iff] at hl'
  refine ⟨l, hl, hl'.1, fun k w hw => ?_⟩
  have hk : k < tableSpeeds st := by rw [← hl'.1]; exact (List.getElem?_eq_some_iff.1 hw).1
  obtain ⟨i, c, w', e1, e2, e3, e4, e5⟩ := key k hk
  obtain ⟨w'', f1, f2⟩ := hl'.2 k hk
  rw [hw] at f1; cases f1
  rw [e5] at f2; cases f2
  exact ⟨i, c, e1, e2, e3, e4⟩

theorem covers_pos {m : ℝ} (hm : 0 ≤ m) {st : Staging} {q : List ℝ} {t t' : Table ℝ} {x : ℝ} (hq : RatedAt st t' x q) (hp : ∀ c ∈ q, 0 < c) (hn : t.nSpeeds = tableSpeeds st) (h : Covers m st q t)
    (k : Nat) (y v : ℝ) (hk : k < t.nSpeeds) (hv : t.get ((k : Int) + 1) y = .ok (some v)) : 0 < v := by
  rw [hn] at hk
  obtain ⟨i, h1, -⟩ := speed_of_column st hk
  obtain ⟨c, hc⟩ := ratedAt_get hq h1
  have := h i k y v c h1 hc hv
  have := hp c (List.mem_of_getElem? hc)
  have : 0 ≤ m * c := by positivity
  linarith

theorem cop_ok {t p : Table ℝ} {σ x q w : ℝ} (h1 : t.calculate σ x = .ok q) (h2 : p.calculate σ x = .ok w) (h : 0 < w) : (do Perf.ndiv (← t.calculate σ x) (← p.calculate σ x)) = .ok (q / w) := by
  simp only [h1, h2, bind_ok, Perf.ndiv, h.ne', if_false]

theorem cops_return (st : Staging) {t p : Table ℝ} {x : ℝ} (ht : ∀ i σ, TableSpeed st i σ → ∃ y, t.calculate σ x = .ok y)
    (hp : ∀ i σ, TableSpeed st i σ → ∃ y, p.calculate σ x = .ok y ∧ 0 < y) :
    ∃ l : List ℝ, (speedMap st).mapM (fun s => (do Perf.ndiv (← t.calculate s x) (← p.calculate s x))) = .ok l ∧ l.length = speedCount st := by
  obtain ⟨l, hl⟩ := mapM_isOk (fun s => (do Perf.ndiv (← t.calculate s x) (← p.calculate s x))) (speedMap st) fun σ hσ => by
    obtain ⟨i, hi⟩ := List.getElem?_of_mem hσ
    obtain ⟨q, e1⟩ := ht i σ (speedMap_get.1 hi)
    obtain ⟨w, e2, e3⟩ := hp i σ (speedMap_get.1 hi)
    exact ⟨_, cop_ok e1 e2 e3⟩
  exact ⟨l, hl, by rw [(mapM_get hl).1, speedMap_length]⟩

/-- The core of the construction returns for sound tables. -/
theorem core_returns {a : Args} (ha1 : a.coolingPerCap = none) (ha2 : a.heatingPerCap = none) {st : Staging} (hbr : a.motorPSC.getD (defaultMotorPSC st) = false → BrentqSpec brentq)
    {rc rh : Roles} (hrc : rc.full = fullIndex st) (hrh : rh.full = fullIndex st) {net : Perf ℝ} {qc qh : List ℝ} (hs : Sound u st net qc qh) :
    ∃ k, core u brentq a st rc rh net = .ok k ∧ k.cool.caps = qc ∧ k.heat.caps = qh ∧
      (∀ (i : Nat) (c : ℝ), qc[i]? = some c → ∃ w, k.cool.power[i]? = some (some w) ∧ 0 < w ∧ w ≤ 337.2 / u.ton * c) ∧
      (∀ (i : Nat) (c : ℝ), qh[i]? = some c → ∃ w, k.heat.power[i]? = some (some w) ∧ 0 < w ∧ w ≤ 337.2 / u.ton * c) ∧
      k.netCoolingCop.length = speedCount st ∧ k.grossCoolingCop.length = speedCount st ∧ k.netHeatingCop.length = speedCount st ∧ k.grossHeatingCop.length = speedCount st := by
  have hcf := u.cfm_pos
  have ht := u.ton_pos
  have hm : 0 ≤ 337.2 / u.ton := by positivity
  have hr : 0 < 400 * u.cfm / u.ton := by positivity
  obtain ⟨x, y, hx, hy, Rc, Rh⟩ := hs.sizes
  obtain ⟨n1, n2, n3, n4⟩ := hs.rated.speeds
  have L1 := ratedAt_length hs.cooling
  have L2 := ratedAt_length hs.heating
  have hx0 := Rc.pos x (List.mem_of_getElem? hx)
  have hy0 := Rh.pos y (List.mem_of_getElem? hy)
  have hD : 0 < max x y := lt_max_of_lt_left hx0
  have hf := full_lt st
  obtain ⟨esp, he, he0, he1⟩ := fullESP_ok u a.ducted a.standard (q := qc) (by rw [L1]; omega)
  -- the fan
  obtain ⟨⟨cool, heat, fan⟩, hfan⟩ : ∃ r, setFan u (ResnetFan.motorPower u brentq (a.motorPSC.getD (defaultMotorPSC st))) esp rc.full rh.full (Side.start u (speedCount st) qc none)
      (Side.start u (speedCount st) qh none) = .ok r := by
    rw [hrc, hrh]
    cases hpsc : a.motorPSC.getD (defaultMotorPSC st) with
    | true => exact C36_resnet_psc_made u brentq esp _ _ _ _ hf hf qc qh L1 L2 Rc.pos Rh.pos
    | false =>
      have b : ∀ {q : List ℝ}, RatedSizes (max x y) q → ∀ z ∈ q, 0 < z ∧ (z / max x y) ^ 2 ≤ 3 := fun R z hz =>
        ⟨R.pos z hz, by rw [div_pow, div_le_iff₀ (by positivity)]; exact R.below z hz⟩
      exact C36_resnet_bpm_made u brentq (hbr hpsc) esp _ _ _ _ qc qh x y L1 L2 hx hy (b Rc) (b Rh)
  obtain ⟨ac, ah, A1, A2, A3, A4, M1, M2⟩ := setFan_sets u (motor_local u brentq _) hfan
  have e1 := start_airflow' M1 hx
  have e2 := start_airflow' M2 hy
  obtain ⟨_, _, _, _, _, f1⟩ := A1
  obtain ⟨_, _, _, _, _, f2⟩ := A2
  rw [hrc, e1] at f1; cases f1
  rw [hrh, e2] at f2; cases f2
  have hmax : max (x * (400 * u.cfm / u.ton)) (y * (400 * u.cfm / u.ton)) = max x y * (400 * u.cfm / u.ton) := (max_mul_of_nonneg _ _ hr.le).symm
  rw [hmax] at A4 M1 M2
  have hgood := setFan_good u (motor_local u brentq _) hfan A4 (mul_pos hD hr)
  have P1 := fun (i : Nat) (c : ℝ) (hc : qc[i]? = some c) => mode_powers hbr M1 hgood hD Rc he0 he1 hc
  have P2 := fun (i : Nat) (c : ℝ) (hc : qh[i]? = some c) => mode_powers hbr M2 hgood hD Rh he0 he1 hc
  obtain ⟨cp, hcp, lcp, bcp⟩ := tableFanPowers_returns hs.cooling P1
  obtain ⟨hp, hhp, lhp, bhp⟩ := tableFanPowers_returns hs.heating P2
  -- the gross tables
  have ex : ∀ {q : List ℝ} {t t' : Table ℝ} {T : ℝ} {p : List ℝ}, RatedAt st t' T q → Covers (337.2 / u.ton) st q t →
      (∀ (k : Nat) (w : ℝ), p[k]? = some w → ∃ i c, TableSpeed st i ((k : ℝ) + 1) ∧ q[i]? = some c ∧ 0 < w ∧ w ≤ 337.2 / u.ton * c) → Exceeds t p := by
    intro q t t' T p _ hcov hb k z v w hv hw
    obtain ⟨i, c, t1, t2, -, t3⟩ := hb k w hw
    exact t3.trans_lt (hcov i k z v c t1 t2 hv)
  have exn : Exceeds net.coolingCapacities (cp.map (- ·)) := by
    intro k z v w hv hw
    rw [List.getElem?_map] at hw
    obtain ⟨w', hw', rfl⟩ := Option.map_eq_some_iff.1 hw
    obtain ⟨i, c, t1, t2, t3, -⟩ := bcp k w' hw'
    have := hs.coversQc i k z v c t1 t2 hv
    simp only [zero_mul] at this
    linarith
  have hg := (C31_make_gross_returns net cp hp hs.rated.qc hs.rated.pc hs.rated.qh hs.rated.ph).1
    ⟨by rw [lcp, n1], exn, by rw [lcp, n2], ex hs.cooling hs.coversPc bcp, by rw [lhp, n3], ex hs.heating hs.coversQh bhp, by rw [lhp, n4], ex hs.heating hs.coversPh bhp⟩
  obtain ⟨gross, hgross⟩ : ∃ g, Perf.makeGross cp hp net = (.ok (), g) := ⟨(Perf.makeGross cp hp net).2, by rw [← hg]⟩
  obtain ⟨g1, g2, g3, g4⟩ := makeGross_tables hgross
  have nc := fun i σ (hσ : TableSpeed st i σ) => calculate_pos hs.rated.pc n2 (fun k y v hk hv => covers_pos hm hs.cooling Rc.pos n2 hs.coversPc k y v hk hv) hs.rated.cooling.2 hσ
  have nh := fun i σ (hσ : TableSpeed st i σ) => calculate_pos hs.rated.ph n4 (fun k y v hk hv => covers_pos hm hs.heating Rh.pos n4 hs.coversPh k y v hk hv) hs.rated.heating.2 hσ
  obtain ⟨ncc, c1, l1⟩ := cops_return st (fun i σ hσ => by obtain ⟨c, -, h⟩ := hs.cooling.1 i σ hσ; exact ⟨c, h⟩) nc
  obtain ⟨nhc, c2, l2⟩ := cops_return st (fun i σ hσ => by obtain ⟨c, -, h⟩ := hs.heating.1 i σ hσ; exact ⟨c, h⟩) nh
  obtain ⟨gcc, c3, l3⟩ := cops_return st (fun i σ hσ => by obtain ⟨c, h, -⟩ := pos_at hs.rated.qc n1 g1 hs.rated.cooling.1 hσ; exact ⟨c, h⟩)
    (fun i σ hσ => pos_at hs.rated.pc n2 g2 hs.rated.cooling.2 hσ)
  obtain ⟨ghc, c4, l4⟩ := cops_return st (fun i σ hσ => by obtain ⟨c, h, -⟩ := pos_at hs.rated.qh n3 g3 hs.rated.heating.1 hσ; exact ⟨c, h⟩)
    (fun i σ hσ => pos_at hs.rated.ph n4 g4 hs.rated.heating.2 hσ)
  refine ⟨{ st, rc, rh, net, gross, cool, heat, fan, psc := a.motorPSC.getD (defaultMotorPSC st), fullESP := esp, netCoolingCop := ncc, grossCoolingCop := gcc, netHeatingCop := nhc
            grossHeatingCop := ghc }, ?_, M1.caps, M2.caps, P1, P2, l1, l3, l2, l4⟩
  have s1 : (speedMap st).mapM (fun s => net.coolingCapacity s) = .ok qc := ratedAt_mapM hs.cooling
  have s2 : (speedMap st).mapM (fun s => net.heatingCapacity s) = .ok qh := ratedAt_mapM hs.heating
  have s3 : (speedMap st).mapM (fun s => net.coolingCop s) = .ok ncc := c1
  have s4 : (speedMap st).mapM (fun s => gross.coolingCop s) = .ok gcc := c3
  have s5 : (speedMap st).mapM (fun s => net.heatingCop s) = .ok nhc := c2
  have s6 : (speedMap st).mapM (fun s => gross.heatingCop s) = .ok ghc := c4
  have s7 : (Perf.makeGross cp hp).exec net = .ok gross := exec_iff.2 hgross
  simp only [core, s1, s2, bind_ok, he, ha1, ha2, hfan, n1, n3, hcp, hhp, s7, s3, s4, s5, s6, pure_eq_ok]

end Resdx.Build
