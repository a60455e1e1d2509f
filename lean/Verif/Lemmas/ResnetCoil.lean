import Verif.Lemmas.ResnetBuild
import Verif.Lemmas.ResnetSeason

/-! # The coil data stored for each speed of a RESNET unit -/

set_option linter.unusedSectionVars false
set_option linter.unusedSimpArgs false

namespace Resdx.Build

open Spec Tabular BaseModel ResnetFan Fan

variable {u : Units ℝ} {E : Env ℝ} {T : Coil.Tools} {brentq : Brentq} {a : Args}

/-- `s` is the sensible heat ratio of the Title-24 correlation at the condition `c`. -/
def RatedRatio (u : Units ℝ) (c : Conditions ℝ) (s : ℝ) : Prop :=
  ∃ wb v, (Psych.getWb c.indoor).1 = .ok wb ∧ c.flow.stdVolPerCap = some v ∧ Title24.shrAt ⟨toF wb, toF c.outdoor.db, toF c.indoor.db, v * u.ton / u.cfm⟩ = .ok s

/-- One step stores the sensible heat ratio and the bypass data of one speed and leaves the others. -/
theorem coilStep_stored {total : Conditions ℝ → Py ℝ} {i : Nat} {c : Conditions ℝ} {d d' : CoilData} (h : coilStep u T total i c d = .ok d') (hi : c.flow.compressorSpeed = i) :
    ∃ s t bf n, total c = .ok t ∧ Coil.ratedBypass T c s t = .ok (bf, n) ∧ RatedRatio u c s ∧ i < d.shr.length ∧ i < d.bf.length ∧ i < d.ntu.length ∧
      d' = ⟨d.shr.set i (some s), d.bf.set i (some bf), d.ntu.set i (some n)⟩ := by
  simp only [coilStep, bind_eq_ok, pure_eq_ok, Except.ok.injEq, hi] at h
  obtain ⟨wb, hwb, v, hv, s, hs, l, hl, s', hs', t, ht, ⟨bf, n⟩, hr, b, hb, m, hm, rfl⟩ := h
  obtain ⟨l1, rfl⟩ := pySet_eq_ok.1 hl
  obtain ⟨l2, rfl⟩ := pySet_eq_ok.1 hb
  obtain ⟨l3, rfl⟩ := pySet_eq_ok.1 hm
  have : s' = s := by
    simp [Sys.at_, pyGet, l1, pyNum, bind_ok] at hs'
    exact hs'.symm
  subst this
  have hv' : c.flow.stdVolPerCap = some v := by
    cases hx : c.flow.stdVolPerCap with
    | none => rw [hx] at hv; cases hv
    | some z => rw [hx] at hv; exact congrArg some (Except.ok.inj hv)
  exact ⟨s', t, bf, n, ht, hr, ⟨wb, v, hwb, hv', hs⟩, l1, l2, l3, rfl⟩

theorem made_speed {S : Sys ℝ} {heating : Bool} {i : Nat} {x y : Option (Psych.PsychState ℝ)} {c : Conditions ℝ} (h : S.makeCondition E heating i x y = .ok c) : c.flow.compressorSpeed = i := by
  obtain ⟨_, _, _, _, _, -, -, -, -, -, -, -, -, -, rfl⟩ := Sys.makeCondition_spec E S heating _ _ _ _ h
  rfl

/-- The A tests of the speeds. -/
theorem a_points {S : Sys ℝ} {st : Staging} {rc rh : Roles} {P : DX.Points (Conditions ℝ)} (h : Ratings.setRatingConditions E S st rc rh = .ok P) :
    S.makeCondition E false rc.full = .ok P.aFull ∧ (st = .varSpeed → ∃ c, P.aInt = some c ∧ S.makeCondition E false rc.intermediate = .ok c) ∧
    (st ≠ .single → ∀ b, rc.boost = some b → ∃ c, P.aBoost = some c ∧ S.makeCondition E false b = .ok c) ∧
    (st ≠ .single → ∃ j c, rc.low = some j ∧ P.aLow = some c ∧ S.makeCondition E false j = .ok c) := by
  unfold Ratings.setRatingConditions at h
  simp only [bind_eq_ok] at h
  obtain ⟨x1, g1, x2, g2, x3, g3, x4, g4, x5, g5, x6, g6, h7⟩ := h
  split at h7
  · rename_i hs
    simp only [pure_eq_ok, Except.ok.injEq] at h7
    subst h7
    exact ⟨g1, by simp [hs], by simp [hs], by simp [hs]⟩
  · rename_i hs
    simp only [bind_eq_ok] at h7
    obtain ⟨P2, ⟨P1, i1, i2⟩, i4⟩ := h7
    unfold Ratings.setRatingConditions.low at i4
    simp only [bind_eq_ok, pure_eq_ok, Except.ok.injEq] at i4
    obtain ⟨i, k1, y, k2, b, k3, f, k4, j, k5, h0, k6, h1, k7, h2, k8, h3, k9, rfl⟩ := i4
    have num : rc.low = some i := by
      cases hx : rc.low with
      | none => rw [hx] at k1; cases k1
      | some z => rw [hx] at k1; exact congrArg some (Except.ok.inj k1)
    have e1 : P1.aFull = x1 ∧ (st = .varSpeed → ∃ c, P1.aInt = some c ∧ S.makeCondition E false rc.intermediate = .ok c) := by
      unfold Ratings.setRatingConditions.intermediate at i1
      split at i1
      · simp only [bind_eq_ok, pure_eq_ok, Except.ok.injEq] at i1
        obtain ⟨z, z1, z2, -, z3, -, rfl⟩ := i1
        exact ⟨rfl, fun _ => ⟨_, rfl, z1⟩⟩
      · rename_i hv
        cases i1
        exact ⟨rfl, fun h => absurd h hv⟩
    have e2 : P2.aFull = P1.aFull ∧ P2.aInt = P1.aInt ∧ ∀ b, rc.boost = some b → ∃ c, P2.aBoost = some c ∧ S.makeCondition E false b = .ok c := by
      unfold Ratings.setRatingConditions.boost at i2
      split at i2
      · rename_i hb
        cases i2
        exact ⟨rfl, rfl, fun b h => by rw [hb] at h; cases h⟩
      · rename_i b hb
        simp only [bind_eq_ok, pure_eq_ok, Except.ok.injEq] at i2
        obtain ⟨z, z1, rfl⟩ := i2
        exact ⟨rfl, rfl, fun b' h => by rw [hb] at h; cases h; exact ⟨_, rfl, z1⟩⟩
    refine ⟨by rw [show _ = x1 from e2.1.trans e1.1]; exact g1, fun h => ?_, fun _ => e2.2.2, fun _ => ⟨i, y, num, rfl, k2⟩⟩
    obtain ⟨c, h1, h2⟩ := e1.2 h
    exact ⟨c, e2.2.1.trans h1, h2⟩

/-- What the coil data hold for a speed. -/
def Stored (u : Units ℝ) (E : Env ℝ) (T : Coil.Tools) (S : Sys ℝ) (total : Conditions ℝ → Py ℝ) (d : CoilData) (i : Nat) : Prop :=
  ∃ c s t bf n, S.makeCondition E false i = .ok c ∧ total c = .ok t ∧ Coil.ratedBypass T c s t = .ok (bf, n) ∧ d.shr[i]? = some (some s) ∧ d.bf[i]? = some (some bf) ∧ d.ntu[i]? = some (some n) ∧ RatedRatio u c s

theorem coilStep_keeps {S : Sys ℝ} {total : Conditions ℝ → Py ℝ} {i : Nat} {c : Conditions ℝ} {d d' : CoilData} (h : coilStep u T total i c d = .ok d') (hc : S.makeCondition E false i = .ok c) :
    Stored u E T S total d' i ∧ ∀ j, Stored u E T S total d j → Stored u E T S total d' j := by
  obtain ⟨s, t, bf, n, h1, h2, hR, l1, l2, l3, rfl⟩ := coilStep_stored h (made_speed hc)
  have here : Stored u E T S total ⟨d.shr.set i (some s), d.bf.set i (some bf), d.ntu.set i (some n)⟩ i :=
    ⟨c, s, t, bf, n, hc, h1, h2, by simp [l1], by simp [l2], by simp [l3], hR⟩
  refine ⟨here, fun j hj => ?_⟩
  by_cases hij : i = j
  · exact hij ▸ here
  · obtain ⟨c', s', t', bf', n', g1, g2, g3, g4, g5, g6, g7⟩ := hj
    exact ⟨c', s', t', bf', n', g1, g2, g3, by simp [hij, g4], by simp [hij, g5], by simp [hij, g6], g7⟩

/-- Every compressor speed has coil data, found at its own rating condition. -/
theorem coil_stored {B : Built} (h : build u E T brentq a = .ok B) {i : Nat} (hi : i < speedCount B.core.st) :
    Stored u E T B.sys (fun c => (B.unit u E T brentq).grossTotalCoolingCapacity (some c)) B.coil i := by
  unfold build at h
  simp only [bind_eq_ok] at h
  obtain ⟨st0, h1, st, h2, q47, h3, net, h4, k, h5, S, h6, cr, h7, P, h8, coil, h9, h10⟩ := h
  split at h10
  · cases h10
  · split at h10
    · cases h10
    · simp only [bind_eq_ok, pure_eq_ok, Except.ok.injEq] at h10
      obtain ⟨-, -, rfl⟩ := h10
      have hk : k.st = st := by
        simp only [core, bind_eq_ok, pure_eq_ok, Except.ok.injEq] at h5
        obtain ⟨qc, -, qh, -, esp, -, ⟨cl, ht, fan⟩, -, w⟩ := h5
        obtain ⟨cp, -, hp, -, gross, -, a1, -, a2, -, a3, -, a4, -, rfl⟩ := w
        rfl
      simp only [hk] at hi ⊢
      obtain ⟨p1, p2, p3, p4⟩ := a_points h8
      change Stored u E T S (fun c => (performance u E T brentq k S P []).grossTotalCoolingCapacity (some c)) coil i
      generalize (fun c => (performance u E T brentq k S P []).grossTotalCoolingCapacity (some c)) = total at *
      unfold coilData at h9
      simp only [bind_eq_ok] at h9
      obtain ⟨d1, c1, h9⟩ := h9
      obtain ⟨k1, -⟩ := coilStep_keeps c1 p1
      have low : ∀ {d d' : CoilData}, coilData.low u T total (modelRoles st (roles (numberOfSpeeds (some a.cooling) a.staging) a.coolingFullSpeed a.coolingIntermediateSpeed)) P d = .ok d' →
          st ≠ .single → Stored u E T S total d' (speedCount st - 1) ∧ ∀ j, Stored u E T S total d j → Stored u E T S total d' j := by
        intro d d' hd hs
        obtain ⟨j, c, q1, q2, q3⟩ := p4 hs
        unfold coilData.low at hd
        simp only [q1, q2, Ratings.speedIndex, pyNum, pyAttr, bind_ok] at hd
        have hj : j = speedCount st - 1 := by
          cases st with
          | single => exact absurd rfl hs
          | two => exact (Option.some.inj q1).symm
          | varSpeed => exact (Option.some.inj q1).symm
        subst hj
        exact coilStep_keeps hd q3
      cases st with
      | single =>
        simp only [pure_eq_ok, Except.ok.injEq] at h9
        subst h9
        obtain rfl : i = 0 := by simpa [speedCount, Staging.value] using hi
        exact k1
      | two =>
        obtain ⟨g1, g2⟩ := low h9 (by decide)
        have : i = 0 ∨ i = 1 := by
          have : i < 2 := hi
          omega
        rcases this with rfl | rfl
        · exact g2 0 k1
        · exact g1
      | varSpeed =>
        simp only [bind_eq_ok] at h9
        obtain ⟨aInt, y1, d2, c2, d3, c3, c4⟩ := h9
        obtain ⟨ci, z1, z2⟩ := p2 rfl
        rw [z1] at y1; cases y1
        obtain ⟨m1, m2⟩ := coilStep_keeps c2 z2
        obtain ⟨cb, z3, z4⟩ := p3 (by decide) 0 rfl
        unfold coilData.boost at c3
        simp only [modelRoles, z3, pyAttr, bind_ok] at c3
        obtain ⟨n1, n2⟩ := coilStep_keeps c3 z4
        obtain ⟨g1, g2⟩ := low c4 (by decide)
        have : i = 0 ∨ i = 1 ∨ i = 2 ∨ i = 3 := by
          have : i < 4 := hi
          omega
        rcases this with rfl | rfl | rfl | rfl
        · exact g2 _ n1
        · exact g2 _ (n2 _ (m2 _ k1))
        · exact g2 _ (n2 _ m1)
        · exact g1

end Resdx.Build
