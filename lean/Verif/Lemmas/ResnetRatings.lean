import Verif.Lemmas.ResnetBpm
import Verif.Props.TabularBuild

/-! # The full-speed ratings of a unit constructed from ratings -/

set_option linter.unusedSectionVars false
set_option linter.unusedSimpArgs false

namespace Resdx.Build

open Spec Tabular BaseModel Props ResnetFan Fan Table

variable {u : Units ℝ} {E : Env ℝ} {T : Coil.Tools} {brentq : Brentq} {a : Args} {B : Built}

theorem number_ok {x : NumArg ℝ} {q : ℝ} (h : number x = .ok q) : x = .num q := by
  cases x with
  | num x => simp only [number, Except.ok.injEq] at h; rw [h]
  | list l => simp [number] at h

theorem pyNum_ok {x : Option ℝ} {q : ℝ} (h : pyNum x = .ok q) : x = some q := by
  cases x with
  | some x => simp only [pyNum, Except.ok.injEq] at h; rw [h]
  | none => simp [pyNum] at h

/-- The table speed of the full compressor speed. -/
noncomputable def fullTable (st : Staging) : ℝ := if st = .single then 1 else 2

theorem full_table (st : Staging) (r : Roles) : TableSpeed st (modelRoles st r).full (fullTable st) := by
  cases st <;> simp [TableSpeed, modelRoles, fullTable]

theorem fullTable_ne (st : Staging) : fullTable st ≠ 3 / 2 := by
  unfold fullTable; split <;> norm_num

/-- The steps of a construction, in terms of the result. -/
theorem build_steps (h : build u E T brentq a = .ok B) :
    ∃ st0 q47 nC nH, modelStaging a st0 = .ok B.core.st ∧ heating47 u a B.core.st = .ok q47 ∧ netTables u a B.core.st B.heatingOff q47 = .ok B.core.net ∧
      B.core.rc = modelRoles B.core.st (roles nC a.coolingFullSpeed a.coolingIntermediateSpeed) ∧ B.core.rh = modelRoles B.core.st (roles nH a.heatingFullSpeed a.heatingIntermediateSpeed) ∧
      core u brentq a B.core.st B.core.rc B.core.rh B.core.net = .ok B.core ∧ sys a B.core = .ok B.sys ∧
      Ratings.setRatingConditions E B.sys B.core.st B.core.rc B.core.rh = .ok B.points := by
  obtain ⟨st0, st, q47, net, rc, rh, b1, b2, b3, b4, b5, b6, b7, b8, b9, b10, b11, -⟩ := build_ok h
  have e : B.core.st = st ∧ B.core.rc = rc ∧ B.core.rh = rh ∧ B.core.net = net := by
    have b8' := b8
    unfold core at b8'
    simp only [bind_eq_ok, pure_eq_ok, Except.ok.injEq] at b8'
    obtain ⟨qc, -, qh, -, esp, -, ⟨cool, heat, fan⟩, -, cp, -, hp, -, gross, -, ncc, -, gcc, -, nhc, -, ghc, -, h12⟩ := b8'
    rw [← h12]; exact ⟨rfl, rfl, rfl, rfl⟩
  obtain ⟨rfl, rfl, rfl, rfl⟩ := e
  exact ⟨st0, q47, _, _, b2, b3, b4, b6, b7, b8, b9, b10⟩

theorem cop_power {x y z : ℝ} (h : Perf.ndiv x y = .ok z) (hx : x ≠ 0) (hz : z ≠ 0) : y ≠ 0 ∧ y = x / z := by
  unfold Perf.ndiv at h
  split at h
  · simp_all
  · rename_i hy
    refine ⟨hy, ?_⟩
    rw [← Except.ok.inj h]
    field_simp

/-- The full-speed cooling columns of tables made from ratings. -/
theorem ratings_cooling {st : Staging} {off q47 : ℝ} {net : Perf ℝ} (h : netTables u a st off q47 = .ok net) (ht : a.tables = none) :
    ∃ q eer, a.cooling = .num q ∧ inputEer a = some eer ∧ eer ≠ 0 ∧ net.coolingCapacity (fullTable st) (frF 95) = .ok q ∧
      (q ≠ 0 → net.coolingPower (fullTable st) (frF 95) = .ok (q / (eer * u.btuh))) := by
  have hb := u.btuh_pos.ne'
  have fin : ∀ {d : Perf ℝ} {σ q eer : ℝ}, eer ≠ 0 → d.coolingCapacity σ (frF 95) = .ok q → (∃ p, d.coolingPower σ (frF 95) = .ok p) → (q ≠ 0 → d.coolingCop σ (frF 95) = .ok (eer * u.btuh)) →
      (q ≠ 0 → d.coolingPower σ (frF 95) = .ok (q / (eer * u.btuh))) := by
    intro d σ q eer he h1 ⟨p, h2⟩ h3 hq
    have h3 := h3 hq
    simp only [Perf.coolingCop, h1, h2, bind_ok] at h3
    rw [h2, (cop_power h3 hq (mul_ne_zero he hb)).2]
  have hp : ∀ σ, ∃ p, net.coolingPower σ (frF 95) = .ok p := by
    intro σ
    obtain ⟨vs, -, -, -, -, -, -, hcalc⟩ := fresh_data (netTables_rated h ht).pc
    exact ⟨_, hcalc σ (frF 95)⟩
  unfold netTables at h
  rw [ht] at h
  cases st with
  | single =>
    simp only [bind_eq_ok] at h
    obtain ⟨q, c1, seer, c2, eer, c3, hspf, c4, c5⟩ := h
    obtain ⟨T1, T2, -⟩ := C32_single_speed u q seer eer q47 _ _ _ _ _ _ _ c5
    have N : eer ≠ 0 := by
      simp only [makeSingleSpeed, bind_eq_ok] at c5
      obtain ⟨⟨qc, pc⟩, y1, -⟩ := c5
      obtain ⟨m, hm, n1, -⟩ := singleCooling_cells y1
      exact left_ne_zero_of_mul n1
    exact ⟨q, eer, number_ok c1, pyNum_ok c3, N, by simpa [fullTable] using T1, by simpa [fullTable] using fin N T1 (hp 1) T2⟩
  | two =>
    simp only [bind_eq_ok] at h
    obtain ⟨q, c1, seer, c2, eer, c3, hspf, c4, c5⟩ := h
    obtain ⟨T1, T2, -⟩ := C32_two_speed u q seer eer q47 _ _ _ _ _ _ _ c5
    have N : eer ≠ 0 := by
      simp only [makeTwoSpeed, bind_eq_ok] at c5
      obtain ⟨⟨qc, pc⟩, y1, -⟩ := c5
      obtain ⟨m, hm, n1, -⟩ := twoCooling_cells y1
      exact left_ne_zero_of_mul n1
    exact ⟨q, eer, number_ok c1, pyNum_ok c3, N, by simpa [fullTable] using T1, by simpa [fullTable] using fin N T1 (hp 2) T2⟩
  | varSpeed =>
    simp only [bind_eq_ok] at h
    obtain ⟨q, c1, seer, c2, eer, c3, hspf, c4, c5⟩ := h
    obtain ⟨T1, T2, -⟩ := C32_variable_speed u q seer eer q47 _ _ _ _ _ _ _ _ c5
    have N : eer ≠ 0 := by
      simp only [makeNeepStatistical, bind_eq_ok] at c5
      obtain ⟨⟨qc, pc⟩, y1, -⟩ := c5
      obtain ⟨r, c, -, -, -, n1, -⟩ := neepStatCooling_cells y1
      exact left_ne_zero_of_mul n1
    exact ⟨q, eer, number_ok c1, pyNum_ok c3, N, by simpa [fullTable] using T1, by simpa [fullTable] using fin N T1 (hp 2) T2⟩

/-- The full-speed heating columns of tables made from ratings. -/
theorem ratings_heating {st : Staging} {off q47 : ℝ} {net : Perf ℝ} (h : netTables u a st off q47 = .ok net) (ht : a.tables = none) :
    net.heatingCapacity (fullTable st) (frF 47) = .ok q47 ∧
      (q47 ≠ 0 → ∀ c, a.netHeatingCop = some c → c ≠ 0 ∧ net.heatingPower (fullTable st) (frF 47) = .ok (q47 / c)) ∧
      ∀ q17, a.heating17 = some q17 → net.heatingCapacity (fullTable st) (frF 17) = .ok q17 := by
  have fin : ∀ {d : Perf ℝ} {σ q c : ℝ}, c ≠ 0 → d.heatingCapacity σ (frF 47) = .ok q → (∃ p, d.heatingPower σ (frF 47) = .ok p) → d.heatingCop σ (frF 47) = .ok c → q ≠ 0 →
      d.heatingPower σ (frF 47) = .ok (q / c) := by
    intro d σ q c he h1 ⟨p, h2⟩ h3 hq
    simp only [Perf.heatingCop, h1, h2, bind_ok] at h3
    rw [h2, (cop_power h3 hq he).2]
  have hp : ∀ σ, ∃ p, net.heatingPower σ (frF 47) = .ok p := by
    intro σ
    obtain ⟨vs, -, -, -, -, -, -, hcalc⟩ := fresh_data (netTables_rated h ht).ph
    exact ⟨_, hcalc σ (frF 47)⟩
  unfold netTables at h
  rw [ht] at h
  cases st with
  | single =>
    simp only [bind_eq_ok] at h
    obtain ⟨q, c1, seer, c2, eer, c3, hspf, c4, c5⟩ := h
    obtain ⟨-, -, -, T1, T2, T3⟩ := C32_single_speed u q seer eer q47 _ _ _ _ _ _ _ c5
    refine ⟨by simpa [fullTable] using T1, fun hq c hc => ?_, by simpa [fullTable] using T3⟩
    have hc0 : c ≠ 0 := by
      simp only [makeSingleSpeed, bind_eq_ok] at c5
      obtain ⟨-, -, ⟨qh, ph⟩, y1, -⟩ := c5
      obtain ⟨n4, -⟩ := singleHeating_cells y1
      rw [hc] at n4
      exact n4
    have T2 := T2 hq
    rw [hc] at T2
    exact ⟨hc0, by simpa [fullTable] using fin hc0 T1 (hp 1) T2 hq⟩
  | two =>
    simp only [bind_eq_ok] at h
    obtain ⟨q, c1, seer, c2, eer, c3, hspf, c4, c5⟩ := h
    obtain ⟨-, -, -, -, T1, T2, -, T3⟩ := C32_two_speed u q seer eer q47 _ _ _ _ _ _ _ c5
    refine ⟨by simpa [fullTable] using T1, fun hq c hc => ?_, by simpa [fullTable] using T3⟩
    have hc0 : c ≠ 0 := by
      simp only [makeTwoSpeed, bind_eq_ok] at c5
      obtain ⟨-, -, ⟨qh, ph⟩, y1, -⟩ := c5
      obtain ⟨n4, -⟩ := twoHeating_cells y1
      rw [hc] at n4
      exact n4
    have T2 := T2 hq
    rw [hc] at T2
    exact ⟨hc0, by simpa [fullTable] using fin hc0 T1 (hp 2) T2 hq⟩
  | varSpeed =>
    simp only [bind_eq_ok] at h
    obtain ⟨q, c1, seer, c2, eer, c3, hspf, c4, c5⟩ := h
    obtain ⟨-, -, -, -, T1, T2, T3⟩ := C32_variable_speed u q seer eer q47 _ _ _ _ _ _ _ _ c5
    refine ⟨by simpa [fullTable] using T1, fun hq c hc => ?_, fun q17 h17 => ?_⟩
    · have hc0 : c ≠ 0 := by
        simp only [makeNeepStatistical, bind_eq_ok] at c5
        obtain ⟨⟨qc, pc⟩, h1, m, hm, qh, h2, ph, h3, h4⟩ := c5
        obtain ⟨e1, e2, e3, e4⟩ := finish_ok h4
        have hmn : off < frF 5 := by
          have hs := neepStatHeatingQ_sub h2
          obtain ⟨t0, ht0⟩ : ∃ t0, setInterpolator t0 = (.ok (), net.heatingCapacities) := ⟨qh, exec_ok.1 e3⟩
          have hf : Fresh net.heatingCapacities := ⟨t0, ht0⟩
          have ht := op_sublist (op := .interpolator) e3 (by simp)
          have := (fresh_wf hf).sorted.sublist (hs.trans ht)
          simp only [List.pairwise_cons, List.mem_cons, forall_eq_or_imp] at this
          exact this.1.1
        obtain ⟨b1, b2⟩ := neepStatHeatingQ_cells hmn h2
        obtain ⟨n4, b3⟩ := neepStatHeatingP_cells hmn b1 h3
        rw [hc] at n4
        exact n4
      have T2 := T2 hq
      rw [hc] at T2
      exact ⟨hc0, by simpa [fullTable] using fin hc0 T1 (hp 2) T2 hq⟩
    · have := T3 q17 (by rw [h17]; rfl)
      simpa [fullTable] using this

/-- The A and H1 tests of every staging type are full-speed conditions. -/
theorem full_points {S : Sys ℝ} {rc rh : Roles} {P : DX.Points (Conditions ℝ)} {st : Staging} (h : Ratings.setRatingConditions E S st rc rh = .ok P) :
    S.makeCondition E false rc.full none (some (defaultOutdoor E false)) = .ok P.aFull ∧ S.makeCondition E false rc.full none (some (wetState E.atm (frF 82) (frF 65))) = .ok P.bFull ∧
      S.makeCondition E true rh.full none (some (defaultOutdoor E true)) = .ok P.h1Full ∧ S.makeCondition E true rh.full none (some (wetState E.atm (frF 17) (frF 15))) = .ok P.h3Full := by
  unfold Ratings.setRatingConditions at h
  simp only [bind_eq_ok] at h
  obtain ⟨x1, h1, x2, h2, x3, h3, x4, h4, x5, h5, x6, h6, h7⟩ := h
  split at h7
  · simp only [pure_eq_ok, Except.ok.injEq] at h7
    rw [← h7]; exact ⟨h1, h2, h3, h5⟩
  · simp only [bind_eq_ok] at h7
    obtain ⟨P2, ⟨P1, i1, i3⟩, i4⟩ := h7
    have e1 : P1.aFull = x1 ∧ P1.bFull = x2 ∧ P1.h1Full = x3 ∧ P1.h3Full = x5 := by
      unfold Ratings.setRatingConditions.intermediate at i1
      split at i1
      · simp only [bind_eq_ok, pure_eq_ok, Except.ok.injEq] at i1
        obtain ⟨_, -, _, -, _, -, rfl⟩ := i1
        exact ⟨rfl, rfl, rfl, rfl⟩
      · rw [← Except.ok.inj i1]; exact ⟨rfl, rfl, rfl, rfl⟩
    have e2 : P2.aFull = P1.aFull ∧ P2.bFull = P1.bFull ∧ P2.h1Full = P1.h1Full ∧ P2.h3Full = P1.h3Full := by
      unfold Ratings.setRatingConditions.boost at i3
      split at i3
      · rw [← Except.ok.inj i3]; exact ⟨rfl, rfl, rfl, rfl⟩
      · simp only [bind_eq_ok, pure_eq_ok, Except.ok.injEq] at i3
        obtain ⟨_, -, rfl⟩ := i3
        exact ⟨rfl, rfl, rfl, rfl⟩
    have e3 : P.aFull = P2.aFull ∧ P.bFull = P2.bFull ∧ P.h1Full = P2.h1Full ∧ P.h3Full = P2.h3Full := by
      unfold Ratings.setRatingConditions.low at i4
      simp only [bind_eq_ok, pure_eq_ok, Except.ok.injEq] at i4
      obtain ⟨_, -, _, -, _, -, _, -, _, -, _, -, _, -, _, -, _, -, rfl⟩ := i4
      exact ⟨rfl, rfl, rfl, rfl⟩
    rw [e3.1, e2.1, e1.1, e3.2.1, e2.2.1, e1.2.1, e3.2.2.1, e2.2.2.1, e1.2.2.1, e3.2.2.2, e2.2.2.2, e1.2.2.2]
    exact ⟨h1, h2, h3, h5⟩

end Resdx.Build
