import Verif.Lemmas.ResnetTables
import Verif.Lemmas.ResnetPressure
import Verif.Props.Curves

/-! # Helper lemmas for constructed RESNET units -/

set_option linter.unusedSectionVars false
set_option linter.unusedSimpArgs false

namespace Resdx.Build

open Spec Tabular BaseModel Props ResnetFan Fan Table

theorem mapM_get {α β : Type} {f : α → Py β} {l : List α} {r : List β} (h : l.mapM f = .ok r) :
    r.length = l.length ∧ ∀ (i : Nat) (a : α), l[i]? = some a → ∃ b, r[i]? = some b ∧ f a = .ok b := by
  rw [mapM_ok_iff, List.forall₂_iff_get] at h
  obtain ⟨hl, h⟩ := h
  refine ⟨hl.symm, fun i a hi => ?_⟩
  obtain ⟨h1, rfl⟩ := List.getElem?_eq_some_iff.1 hi
  exact ⟨_, List.getElem?_eq_getElem (by omega), h i h1 (by omega)⟩

/-- The gross tables of a mode's quantities relative to the net tables: `f` is the fan power over table speeds. -/
structure GrossOf (net gross : Perf ℝ) (fc fh : ℝ → ℝ) : Prop where
  coolCap : ∀ σ x, ∃ q, net.coolingCapacity σ x = .ok q ∧ gross.coolingCapacity σ x = .ok (q + fc σ)
  coolPow : ∀ σ x, ∃ q, net.coolingPower σ x = .ok q ∧ gross.coolingPower σ x = .ok (q - fc σ)
  heatCap : ∀ σ x, ∃ q, net.heatingCapacity σ x = .ok q ∧ gross.heatingCapacity σ x = .ok (q - fh σ)
  heatPow : ∀ σ x, ∃ q, net.heatingPower σ x = .ok q ∧ gross.heatingPower σ x = .ok (q - fh σ)

/-- A table speed of a staging type has positive gross values at a tabulated temperature. -/
theorem pos_at {st : Staging} {t t' : Table ℝ} (h : Fresh t) (hn : t.nSpeeds = tableSpeeds st) {p : List ℝ} (hrun : Table.applyFanPowerCorrection p t = (.ok (), t'))
    {x : ℝ} (hx : x ∈ t.temperatures) {i : Nat} {σ : ℝ} (hσ : TableSpeed st i σ) : ∃ y, t'.calculate σ x = .ok y ∧ 0 < y := by
  have node : ∀ k : Nat, k < t.nSpeeds → ∃ y, t'.calculate ((k : ℝ) + 1) x = .ok y ∧ 0 < y := fun k hk => corrected_pos h hrun hk hx
  cases st with
  | single => obtain ⟨-, rfl⟩ := hσ; have := node 0 (by rw [hn]; decide); norm_num at this; exact this
  | two =>
    rcases hσ with ⟨-, rfl⟩ | ⟨-, rfl⟩
    · have := node 1 (by rw [hn]; decide); norm_num at this; exact this
    · have := node 0 (by rw [hn]; decide); norm_num at this; exact this
  | varSpeed =>
    rcases hσ with ⟨-, rfl⟩ | ⟨-, rfl⟩ | ⟨-, rfl⟩ | ⟨-, rfl⟩
    · have := node 2 (by rw [hn]; decide); norm_num at this; exact this
    · have := node 1 (by rw [hn]; decide); norm_num at this; exact this
    · exact corrected_pos_half h hrun (by rw [hn]; decide) hx
    · have := node 0 (by rw [hn]; decide); norm_num at this; exact this

/-- What the constructor knows after `set_net_capacities_and_fan`. -/
structure CoreFacts (u : Units ℝ) (brentq : Brentq) (a : Args) (st : Staging) (rc rh : Roles) (net : Perf ℝ) (k : Core) (fc fh : ℝ → ℝ) : Prop where
  isSt : k.st = st
  isRc : k.rc = rc
  isRh : k.rh = rh
  isNet : k.net = net
  psc : k.psc = a.motorPSC.getD (defaultMotorPSC st)
  gross : GrossOf net k.gross fc fh
  coolFan : ∀ i σ w, TableSpeed st i σ → σ ≠ 3 / 2 → k.cool.power[i]? = some (some w) → fc σ = w
  heatFan : ∀ i σ w, TableSpeed st i σ → σ ≠ 3 / 2 → k.heat.power[i]? = some (some w) → fh σ = w
  half : st = .varSpeed → fc (3 / 2) = (fc 1 + fc 2) / 2 ∧ fh (3 / 2) = (fh 1 + fh 2) / 2
  pos : ∀ i σ, TableSpeed st i σ → ∃ qc pc qh ph, k.gross.coolingCapacity σ (frF 95) = .ok qc ∧ 0 < qc ∧ k.gross.coolingPower σ (frF 95) = .ok pc ∧ 0 < pc ∧
    k.gross.heatingCapacity σ (frF 47) = .ok qh ∧ 0 < qh ∧ k.gross.heatingPower σ (frF 47) = .ok ph ∧ 0 < ph
  posAt : ∀ i σ, TableSpeed st i σ → (∀ x ∈ net.coolingCapacities.temperatures, ∃ y, k.gross.coolingCapacity σ x = .ok y ∧ 0 < y) ∧
    (∀ x ∈ net.coolingPowers.temperatures, ∃ y, k.gross.coolingPower σ x = .ok y ∧ 0 < y)
  coolCaps : k.cool.caps.length = speedCount st ∧ ∀ i σ, TableSpeed st i σ → ∃ q, k.cool.caps[i]? = some q ∧ net.coolingCapacity σ (frF 95) = .ok q
  heatCaps : k.heat.caps.length = speedCount st ∧ ∀ i σ, TableSpeed st i σ → ∃ q, k.heat.caps[i]? = some q ∧ net.heatingCapacity σ (frF 47) = .ok q
  coolCop : ∀ i σ, TableSpeed st i σ → ∃ c, k.grossCoolingCop[i]? = some c ∧ k.gross.coolingCop σ (frF 95) = .ok c
  heatCop : ∀ i σ, TableSpeed st i σ → ∃ c, k.grossHeatingCop[i]? = some c ∧ k.gross.heatingCop σ (frF 47) = .ok c
  fan : ∃ ac ah, HasAirflow k.cool rc.full ac ∧ HasAirflow k.heat rh.full ah ∧ max ac ah ≠ 0 ∧ k.fan.airflow[0]? = some (max ac ah) ∧
    ModeSet (motorPower u brentq k.psc) k.fullESP (max ac ah) rc.full (Side.start u (speedCount st) k.cool.caps a.coolingPerCap) k.cool k.fan ∧
    ModeSet (motorPower u brentq k.psc) k.fullESP (max ac ah) rh.full (Side.start u (speedCount st) k.heat.caps a.heatingPerCap) k.heat k.fan

theorem interpolant_half {p : List ℝ} {f : ℝ → ℝ} (hf : SpeedInterpolant p f) (h : 2 ≤ p.length) : f (3 / 2) = (f 1 + f 2) / 2 := by
  have e0 : p[0]? = some p[0] := List.getElem?_eq_getElem (by omega)
  have e1 : p[1]? = some p[1] := List.getElem?_eq_getElem (by omega)
  have h0 := hf.node 0 _ e0
  have h1 := hf.node 1 _ e1
  have hl := hf.line 0 _ _ (3 / 2) e0 e1 (.inr rfl) (.inl (by norm_num))
  unfold OnLine at hl
  norm_num at h0 h1 hl
  rw [h0, h1]
  linarith

theorem core_facts {u : Units ℝ} {brentq : Brentq} {a : Args} {st : Staging} {rc rh : Roles} {net : Perf ℝ} {k : Core}
    (h : core u brentq a st rc rh net = .ok k) (hnet : RatedTables (tableSpeeds st) net) : ∃ fc fh, CoreFacts u brentq a st rc rh net k fc fh := by
  unfold core at h
  simp only [bind_eq_ok] at h
  obtain ⟨qc, h1, qh, h2, esp, h3, ⟨cool, heat, fan⟩, h4, cp, h5, hp, h6, gross, h7, ncc, -, gcc, h9, nhc, -, ghc, h11, h12⟩ := h
  simp only [pure_eq_ok, Except.ok.injEq] at h12
  subst h12
  obtain ⟨n1, n2, n3, n4⟩ := hnet.speeds
  rw [n1] at h5; rw [n3] at h6
  obtain ⟨l5, f5⟩ := tableFanPowers_ok h5
  obtain ⟨l6, f6⟩ := tableFanPowers_ok h6
  rw [exec_iff] at h7
  obtain ⟨g1, g2, g3, g4⟩ := makeGross_tables h7
  obtain ⟨fc, fh, ic, ih, hrel⟩ := C31_make_gross net gross cp hp hnet.qc hnet.pc hnet.qh hnet.ph h7
  obtain ⟨L1, m1⟩ := mapM_get h1
  obtain ⟨L2, m2⟩ := mapM_get h2
  obtain ⟨-, m9⟩ := mapM_get h9
  obtain ⟨-, m11⟩ := mapM_get h11
  obtain ⟨ac, ah, A1, A2, A3, A4, A5, A6⟩ := setFan_sets u (motor_local u brentq _) h4
  have c1 : cool.caps = qc := A5.caps
  have c2 : heat.caps = qh := A6.caps
  refine ⟨fc, fh, rfl, rfl, rfl, rfl, rfl, ⟨?_, ?_, ?_, ?_⟩, ?_, ?_, ?_, ?_, ?_, ?_, ?_, ?_, ?_, ac, ah, A1, A2, A3, A4, ?_, ?_⟩
  · intro σ x; obtain ⟨q, _, _, _, e1, e2, _⟩ := hrel σ x; exact ⟨q, e1, e2⟩
  · intro σ x; obtain ⟨_, q, _, _, _, _, e1, e2, _⟩ := hrel σ x; exact ⟨q, e1, e2⟩
  · intro σ x; obtain ⟨_, _, q, _, _, _, _, _, e1, e2, _⟩ := hrel σ x; exact ⟨q, e1, e2⟩
  · intro σ x; obtain ⟨_, _, _, q, _, _, _, _, _, _, e1, e2⟩ := hrel σ x; exact ⟨q, e1, e2⟩
  · intro i σ w hσ h32 hw
    obtain ⟨s, w', rfl, e1, e2⟩ := f5 i σ hσ h32
    simp only at hw
    rw [hw] at e1; cases e1
    exact ic.node s w e2
  · intro i σ w hσ h32 hw
    obtain ⟨s, w', rfl, e1, e2⟩ := f6 i σ hσ h32
    simp only at hw
    rw [hw] at e1; cases e1
    exact ih.node s w e2
  · intro hst
    exact ⟨interpolant_half ic (by rw [l5, hst]; decide), interpolant_half ih (by rw [l6, hst]; decide)⟩
  · intro i σ hσ
    obtain ⟨y1, a1, b1⟩ := pos_at hnet.qc n1 g1 hnet.cooling.1 hσ
    obtain ⟨y2, a2, b2⟩ := pos_at hnet.pc n2 g2 hnet.cooling.2 hσ
    obtain ⟨y3, a3, b3⟩ := pos_at hnet.qh n3 g3 hnet.heating.1 hσ
    obtain ⟨y4, a4, b4⟩ := pos_at hnet.ph n4 g4 hnet.heating.2 hσ
    exact ⟨y1, y2, y3, y4, a1, b1, a2, b2, a3, b3, a4, b4⟩
  · exact fun i σ hσ => ⟨fun x hx => pos_at hnet.qc n1 g1 hx hσ, fun x hx => pos_at hnet.pc n2 g2 hx hσ⟩
  · refine ⟨by simp only; rw [c1, L1, speedMap_length], fun i σ hσ => ?_⟩
    simp only; rw [c1]; exact m1 i σ (speedMap_get.2 hσ)
  · refine ⟨by simp only; rw [c2, L2, speedMap_length], fun i σ hσ => ?_⟩
    simp only; rw [c2]; exact m2 i σ (speedMap_get.2 hσ)
  · exact fun i σ hσ => m9 i σ (speedMap_get.2 hσ)
  · exact fun i σ hσ => m11 i σ (speedMap_get.2 hσ)
  · simp only; rw [c1]; exact A5
  · simp only; rw [c2]; exact A6

/-! ## The tables of the three builders -/

theorem rated_of_cells {n : Nat} {qc pc qh ph : Table ℝ} {d : Perf ℝ} (h : finish qc pc qh ph = .ok d) {s : Int} {v1 v2 v3 v4 : ℝ}
    (c1 : Cell n qc s (frF 95) v1) (c2 : Cell n pc s (frF 95) v2) (c3 : Cell n qh s (frF 47) v3) (c4 : Cell n ph s (frF 47) v4) : RatedTables n d := by
  obtain ⟨e1, e2, e3, e4⟩ := finish_ok h
  have d1 := c1.op (op := .interpolator) e1 trivial
  have d2 := c2.op (op := .interpolator) e2 trivial
  have d3 := c3.op (op := .interpolator) e3 trivial
  have d4 := c4.op (op := .interpolator) e4 trivial
  exact ⟨⟨_, exec_iff.1 e1⟩, ⟨_, exec_iff.1 e2⟩, ⟨_, exec_iff.1 e3⟩, ⟨_, exec_iff.1 e4⟩, ⟨d1.speeds, d2.speeds, d3.speeds, d4.speeds⟩, ⟨d1.mem, d2.mem⟩, ⟨d3.mem, d4.mem⟩⟩

theorem single_rated {u : Units ℝ} {q95 seer2 eer2 q47 hspf2 mx mn cd : ℝ} {q17 cop : Option ℝ} {d : Perf ℝ}
    (h : makeSingleSpeed u q95 seer2 eer2 q47 q17 hspf2 mx mn cop cd = .ok d) : RatedTables 1 d := by
  simp only [makeSingleSpeed, bind_eq_ok] at h
  obtain ⟨⟨qc, pc⟩, h1, ⟨qh, ph⟩, h2, h3⟩ := h
  obtain ⟨m, hm, n1, n2, n3, a1, a2, a3, a4⟩ := singleCooling_cells h1
  obtain ⟨n4, b1, b2, b3⟩ := singleHeating_cells h2
  exact rated_of_cells h3 a1 a3 b1 b2

theorem single_82 {u : Units ℝ} {q95 seer2 eer2 q47 hspf2 mx mn cd : ℝ} {q17 cop : Option ℝ} {d : Perf ℝ}
    (h : makeSingleSpeed u q95 seer2 eer2 q47 q17 hspf2 mx mn cop cd = .ok d) :
    1 - 0.5 * cd ≠ 0 ∧ frF 82 ∈ d.coolingCapacities.temperatures ∧ frF 82 ∈ d.coolingPowers.temperatures := by
  simp only [makeSingleSpeed, bind_eq_ok] at h
  obtain ⟨⟨qc, pc⟩, h1, ⟨qh, ph⟩, h2, h3⟩ := h
  obtain ⟨m, hm, n1, n2, n3, a1, a2, a3, a4⟩ := singleCooling_cells h1
  obtain ⟨e1, e2, e3, e4⟩ := finish_ok h3
  exact ⟨n2, (a2.op (op := .interpolator) e1 trivial).mem, (a4.op (op := .interpolator) e2 trivial).mem⟩

theorem two_rated {u : Units ℝ} {q95 seer2 eer2 q47 hspf2 mx mn : ℝ} {q17 cop82 cop : Option ℝ} {d : Perf ℝ}
    (h : makeTwoSpeed u q95 seer2 eer2 q47 q17 hspf2 mx mn cop82 cop = .ok d) : RatedTables 2 d := by
  simp only [makeTwoSpeed, bind_eq_ok] at h
  obtain ⟨⟨qc, pc⟩, h1, ⟨qh, ph⟩, h2, h3⟩ := h
  obtain ⟨m, hm, n1, n2, a1, a2, a3, a4, a5⟩ := twoCooling_cells h1
  obtain ⟨n4, b1, b2, b3, b4⟩ := twoHeating_cells h2
  exact rated_of_cells h3 a1 a4 b1 b2

theorem variable_rated {u : Units ℝ} {q95 seer2 eer2 q47 hspf2 mx mn : ℝ} {q17 ratio cop82 cop : Option ℝ} {d : Perf ℝ}
    (h : makeNeepStatistical u q95 seer2 eer2 q47 q17 hspf2 mx mn ratio cop82 cop = .ok d) : RatedTables 3 d := by
  simp only [makeNeepStatistical, bind_eq_ok] at h
  obtain ⟨⟨qc, pc⟩, h1, m, hm, qh, h2, ph, h3, h4⟩ := h
  obtain ⟨r, c, g1, g1', g2, n1, n2, a1, a2, a3, a4, a5, a6⟩ := neepStatCooling_cells h1
  obtain ⟨e1, e2, e3, e4⟩ := finish_ok h4
  have hmn : mn < frF 5 := by
    have hs := neepStatHeatingQ_sub h2
    obtain ⟨t0, ht0⟩ : ∃ t0, setInterpolator t0 = (.ok (), d.heatingCapacities) := ⟨qh, exec_ok.1 e3⟩
    have hf : Fresh d.heatingCapacities := ⟨t0, ht0⟩
    have ht := op_sublist (op := .interpolator) e3 (by simp)
    have := (fresh_wf hf).sorted.sublist (hs.trans ht)
    simp only [List.pairwise_cons, List.mem_cons, forall_eq_or_imp] at this
    exact this.1.1
  obtain ⟨b1, b2⟩ := neepStatHeatingQ_cells hmn h2
  obtain ⟨n4, b3⟩ := neepStatHeatingP_cells hmn b1 h3
  exact rated_of_cells h4 a1 a5 b1 b3

/-! ## The fan at a rating condition -/

theorem toNat_map {l : List (Option Int)} {i n : Nat} (h : l[i]? = some (some (n : Int))) : (l.map (·.map Int.toNat))[i]? = some (some n) := by
  simp [h]

theorem fanPower_cond {u : Units ℝ} {brentq : Brentq} {E : Env ℝ} {S : Sys ℝ} {k : Core} {s s0 : Side} {heating : Bool} {i : Nat} {ind out : Option (Psych.PsychState ℝ)}
    {c : Conditions ℝ} {design : ℝ} {fs : Nat} (h : S.makeCondition E heating i ind out = .ok c) (hA : (if heating then S.heatingAirflow else S.coolingAirflow) = s.airflow)
    (hF : (if heating then S.ratedHeatingFanSpeed else S.ratedCoolingFanSpeed) = s.ratedFanSpeed.map (·.map Int.toNat)) (hE : S.fullESP = k.fullESP)
    (M : ModeSet (motorPower u brentq k.psc) k.fullESP design fs s0 s k.fan) (hi : i < s.caps.length)
    (hok : k.psc = true ∨ i ≠ fs ∨ s.airflow[0]? = some (some design)) : ∃ w, s.power[i]? = some (some w) ∧ fanPower u brentq k c = .ok w := by
  obtain ⟨rho, pr, a, cap, n, h1, h2, h3, h4, h5, h6, h7, ⟨full, h8, h9, rfl⟩, h10, rfl⟩ := Sys.makeCondition_spec E S heating _ _ _ _ h
  obtain ⟨a', m, p, w, ⟨q, r, g1, g2, g3, g4⟩, g5, g6, g7, g8, g9⟩ := M.rated i hi
  rw [hA] at h7 h8
  rw [hF, toNat_map g5] at h10
  rw [g4] at h7
  cases h7
  cases h10
  refine ⟨w, g9, ?_⟩
  simp only [fanPower, ratedFlow, pyNum, pyAttr, bind_ok]
  rcases hok with hp | hp | hp
  · rw [hp] at g8 ⊢
    simp only [ResnetFan.motorPower, if_true] at g8 ⊢
    exact g8
  · obtain ⟨b, b0, e1, e2, e3, e4⟩ := M.other i hi hp
    rw [e2] at h8; cases h8
    rw [g4] at e1; cases e1
    rw [g7] at e4; cases e4
    rw [hE]; exact g8
  · have h8' := h8
    rw [hp] at h8; cases h8
    by_cases hp : i = fs
    · subst hp
      obtain ⟨b, ⟨_, _, _, _, _, e1⟩, e2⟩ := M.full
      rw [g4] at e1; cases e1
      rw [g7] at e2; cases e2
      rw [hE]; exact g8
    · obtain ⟨b, b0, e1, e2, e3, e4⟩ := M.other i hi hp
      rw [h8'] at e2; cases e2
      rw [g4] at e1; cases e1
      rw [g7] at e4; cases e4
      rw [hE]; exact g8

/-! ## The gross ratings -/

theorem grossList_get {n : Nat} {caps : List ℝ} {power : List (Option ℝ)} {sign : ℝ} {l : List (Option ℝ)} (h : grossList n caps power sign = .ok l) {i : Nat} {q w : ℝ}
    (hi : i < n) (hq : caps[i]? = some q) (hw : power[i]? = some (some w)) : l[i]? = some (some (q + sign * w)) := by
  unfold grossList at h
  rw [comp_eq_ok] at h
  obtain ⟨v, e1, e2⟩ := h.2 i hi
  simp only [bind_eq_ok, pyGet_eq_ok, numAt_eq_ok, pure_eq_ok, Except.ok.injEq] at e2
  obtain ⟨q', e3, w', e4, rfl⟩ := e2
  rw [hq] at e3; cases e3
  rw [hw] at e4; cases e4
  exact e1

theorem sys_ok {a : Args} {k : Core} {S : Sys ℝ} (h : sys a k = .ok S) :
    S.netCooling = k.cool.caps ∧ S.netHeating = k.heat.caps ∧ S.coolingAirflow = k.cool.airflow ∧ S.heatingAirflow = k.heat.airflow ∧
      S.ratedCoolingFanSpeed = k.cool.ratedFanSpeed.map (·.map Int.toNat) ∧ S.ratedHeatingFanSpeed = k.heat.ratedFanSpeed.map (·.map Int.toNat) ∧ S.fullESP = k.fullESP ∧
      grossList (speedCount k.st) k.cool.caps k.cool.power 1 = .ok S.grossCooling ∧ grossList (speedCount k.st) k.heat.caps k.heat.power (-1) = .ok S.grossHeating ∧
      S.grossCoolingCop = k.grossCoolingCop.map some ∧ S.grossHeatingCop = k.grossHeatingCop.map some ∧ S.chargeDeviation = a.chargeDeviation ∧ S.defrost = a.defrost := by
  unfold sys at h
  simp only [bind_eq_ok, pure_eq_ok, Except.ok.injEq] at h
  obtain ⟨gc, h1, gh, h2, rfl⟩ := h
  exact ⟨rfl, rfl, rfl, rfl, rfl, rfl, rfl, h1, h2, rfl, rfl, rfl, rfl⟩

theorem tableSpeed_lt {st : Staging} {i : Nat} {σ : ℝ} (h : TableSpeed st i σ) : i < speedCount st := by
  cases st <;> simp only [TableSpeed] at h <;> simp only [speedCount, Staging.value, reduceCtorEq, if_true, if_false] <;> omega

/-- The rated gross cooling capacity and COP of a speed whose table speed is a whole number are those of the gross tables. -/
theorem rated_cooling {u : Units ℝ} {brentq : Brentq} {a : Args} {st : Staging} {rc rh : Roles} {net : Perf ℝ} {k : Core} {fc fh : ℝ → ℝ}
    (F : CoreFacts u brentq a st rc rh net k fc fh) {S : Sys ℝ} (hS : sys a k = .ok S) {i : Nat} {σ : ℝ} (hσ : TableSpeed st i σ) (h32 : σ ≠ 3 / 2) :
    ∃ q, S.grossCooling[i]? = some (some q) ∧ 0 < q := by
  obtain ⟨-, -, -, -, -, -, -, e1, -, -⟩ := sys_ok hS
  rw [F.isSt] at e1
  obtain ⟨ac, ah, -, -, -, -, M, -⟩ := F.fan
  have hi := tableSpeed_lt hσ
  obtain ⟨_, _, _, w, -, -, -, -, -, hw⟩ := M.rated i (by rw [F.coolCaps.1]; exact hi)
  obtain ⟨q, hq, hq'⟩ := F.coolCaps.2 i σ hσ
  refine ⟨_, grossList_get e1 hi hq hw, ?_⟩
  obtain ⟨g, _, _, _, p1, p2, -⟩ := F.pos i σ hσ
  obtain ⟨q', c1, c2⟩ := F.gross.coolCap σ (frF 95)
  rw [hq'] at c1; cases c1
  rw [p1] at c2; cases c2
  rw [F.coolFan i σ w hσ h32 hw] at p2
  linarith

theorem rated_heating {u : Units ℝ} {brentq : Brentq} {a : Args} {st : Staging} {rc rh : Roles} {net : Perf ℝ} {k : Core} {fc fh : ℝ → ℝ}
    (F : CoreFacts u brentq a st rc rh net k fc fh) {S : Sys ℝ} (hS : sys a k = .ok S) {i : Nat} {σ : ℝ} (hσ : TableSpeed st i σ) (h32 : σ ≠ 3 / 2) :
    ∃ q, S.grossHeating[i]? = some (some q) ∧ 0 < q := by
  obtain ⟨-, -, -, -, -, -, -, -, e1, -⟩ := sys_ok hS
  rw [F.isSt] at e1
  obtain ⟨ac, ah, -, -, -, -, -, M⟩ := F.fan
  have hi := tableSpeed_lt hσ
  obtain ⟨_, _, _, w, -, -, -, -, -, hw⟩ := M.rated i (by rw [F.heatCaps.1]; exact hi)
  obtain ⟨q, hq, hq'⟩ := F.heatCaps.2 i σ hσ
  refine ⟨_, grossList_get e1 hi hq hw, ?_⟩
  obtain ⟨_, _, g, _, -, -, -, -, p1, p2, -⟩ := F.pos i σ hσ
  obtain ⟨q', c1, c2⟩ := F.gross.heatCap σ (frF 47)
  rw [hq'] at c1; cases c1
  rw [p1] at c2; cases c2
  rw [F.heatFan i σ w hσ h32 hw] at p2
  linarith

theorem cop_cooling {u : Units ℝ} {brentq : Brentq} {a : Args} {st : Staging} {rc rh : Roles} {net : Perf ℝ} {k : Core} {fc fh : ℝ → ℝ}
    (F : CoreFacts u brentq a st rc rh net k fc fh) {S : Sys ℝ} (hS : sys a k = .ok S) {i : Nat} {σ : ℝ} (hσ : TableSpeed st i σ) :
    ∃ c, S.grossCoolingCop[i]? = some (some c) ∧ 0 < c := by
  obtain ⟨-, -, -, -, -, -, -, -, -, e1, -⟩ := sys_ok hS
  obtain ⟨c, h1, h2⟩ := F.coolCop i σ hσ
  obtain ⟨q, p, _, _, p1, p2, p3, p4, -⟩ := F.pos i σ hσ
  refine ⟨c, by simp [e1, h1], ?_⟩
  simp only [Perf.coolingCop, p1, p3, bind_ok, Perf.ndiv, if_neg p4.ne', Except.ok.injEq] at h2
  rw [← h2]; positivity

theorem cop_heating {u : Units ℝ} {brentq : Brentq} {a : Args} {st : Staging} {rc rh : Roles} {net : Perf ℝ} {k : Core} {fc fh : ℝ → ℝ}
    (F : CoreFacts u brentq a st rc rh net k fc fh) {S : Sys ℝ} (hS : sys a k = .ok S) {i : Nat} {σ : ℝ} (hσ : TableSpeed st i σ) :
    ∃ c, S.grossHeatingCop[i]? = some (some c) ∧ 0 < c := by
  obtain ⟨-, -, -, -, -, -, -, -, -, -, e1, -⟩ := sys_ok hS
  obtain ⟨c, h1, h2⟩ := F.heatCop i σ hσ
  obtain ⟨_, _, q, p, -, -, -, -, p1, p2, p3, p4⟩ := F.pos i σ hσ
  refine ⟨c, by simp [e1, h1], ?_⟩
  simp only [Perf.heatingCop, p1, p3, bind_ok, Perf.ndiv, if_neg p4.ne', Except.ok.injEq] at h2
  rw [← h2]; positivity

/-! ## Gross performance at rated indoor conditions and airflow -/

theorem heatCapT_pos (t : ℝ) : 0 < heatCapT 70 t := by
  unfold heatCapT; nlinarith [sq_nonneg (t + 93)]

theorem heatEirT_pos (t : ℝ) : 0 < heatEirT 70 t := by
  unfold heatEirT; nlinarith [sq_nonneg (t - 73)]

theorem gross_cooling {u : Units ℝ} {brentq : Brentq} {a : Args} {st : Staging} {rc rh : Roles} {net : Perf ℝ} {k : Core} {fc fh : ℝ → ℝ}
    (F : CoreFacts u brentq a st rc rh net k fc fh) {S : Sys ℝ} (hS : sys a k = .ok S) {i : Nat} {σ : ℝ} (hσ : TableSpeed st i σ) {Q : ℝ}
    (hQ : S.grossCooling[i]? = some (some Q)) (hQ0 : 0 < Q) {E : Env ℝ} {o r : Psych.PsychState ℝ} (ho : toF o.db ≤ 125) (hr : Resnet.ratedOutdoor E o.db = .ok r)
    {c : Conditions ℝ} (hc : S.makeCondition E false i none (some o) = .ok c) :
    Resnet.grossTotalCoolingCapacity E S (data k) c = k.gross.coolingCapacity σ o.db ∧ Resnet.grossCoolingPower E S (data k) c = k.gross.coolingPower σ o.db := by
  obtain ⟨cop, hcop, hcop0⟩ := cop_cooling F hS hσ
  have hc' := hc
  obtain ⟨rho, pr, x, cap, fs, _, _, _, _, _, _, _, _, _, rfl⟩ := Sys.makeCondition_spec E S false _ _ _ _ hc
  have hwb : (Psych.getWb (defaultIndoor E false)).1 = .ok (frF (67 : ℝ)) := rfl
  have e1 := C74_cooling_capacity S ⟨false, defaultIndoor E false, o, ratedFlow rho E.rhoStd i fs pr x cap⟩ (frF 67) 1 Q hwb rfl hQ
  have e2 := C74_cooling_power S ⟨false, defaultIndoor E false, o, ratedFlow rho E.rhoStd i fs pr x cap⟩ (frF 67) 1 Q cop hwb rfl hQ hcop hcop0.ne' _ rfl
  have f1 : coolCapF (1 : ℝ) = 1 := by unfold coolCapF; norm_num
  have f2 : coolEirF (1 : ℝ) = 1 := by unfold coolEirF; norm_num
  have f3 : clip 57 72 (toF (frF (67 : ℝ))) = 67 := by rw [toF_frF]; unfold clip; norm_num
  obtain ⟨p1, p2⟩ := C74_cooling_positive (67 : ℝ) (max 75 (toF o.db)) (by norm_num) (by norm_num) (le_max_left _ _) (max_le (by norm_num) ho)
  simp only [f1, f2, f3] at e1 e2
  have n1 : 0 < 1 * coolCapT 67 (max 75 (toF o.db)) * Q := by positivity
  have n2 : 0 < 1 * 1 * coolEirT 67 (max 75 (toF o.db)) * coolCapT 67 (max 75 (toF o.db)) * Q / cop := by positivity
  rw [if_neg (not_lt.2 n2.le)] at e2
  exact C73_rated_cooling E S (data k) k.gross rfl i o r _ σ _ _ (by rw [data, F.isSt]; exact speedMap_get.2 hσ) hr hc' e1 n1.ne' e2 n2.ne'

theorem gross_heating {u : Units ℝ} {brentq : Brentq} {a : Args} {st : Staging} {rc rh : Roles} {net : Perf ℝ} {k : Core} {fc fh : ℝ → ℝ}
    (F : CoreFacts u brentq a st rc rh net k fc fh) {S : Sys ℝ} (hS : sys a k = .ok S) {i : Nat} {σ : ℝ} (hσ : TableSpeed st i σ) {Q : ℝ}
    (hQ : S.grossHeating[i]? = some (some Q)) (hQ0 : Q ≠ 0) {E : Env ℝ} {o r : Psych.PsychState ℝ} (hr : Resnet.ratedOutdoor E o.db = .ok r)
    {c : Conditions ℝ} (hc : S.makeCondition E true i none (some o) = .ok c) :
    Resnet.grossSteadyHeatingCapacity E S (data k) c = k.gross.heatingCapacity σ o.db ∧ Resnet.grossSteadyHeatingPower E S (data k) c = k.gross.heatingPower σ o.db := by
  obtain ⟨cop, hcop, hcop0⟩ := cop_heating F hS hσ
  have hc' := hc
  obtain ⟨rho, pr, x, cap, fs, _, _, _, _, _, _, _, _, _, rfl⟩ := Sys.makeCondition_spec E S true _ _ _ _ hc
  obtain ⟨e1, e2⟩ := C74_heating S ⟨true, defaultIndoor E true, o, ratedFlow rho E.rhoStd i fs pr x cap⟩ 1 Q cop rfl hQ hcop hcop0.ne'
  have f1 : heatCapF (1 : ℝ) = 1 := by unfold heatCapF; norm_num
  have f2 : heatEirF (1 : ℝ) = 1 := by unfold heatEirF; norm_num
  have f3 : toF (defaultIndoor E true).db = (70 : ℝ) := by simp [defaultIndoor, wetState, Psych.blank, toF_frF]
  simp only [f1, f2, f3] at e1 e2
  have p1 := heatCapT_pos (toF o.db)
  have p2 := heatEirT_pos (toF o.db)
  refine C73_rated_heating E S (data k) k.gross rfl i o r _ σ _ _ (by rw [data, F.isSt]; exact speedMap_get.2 hσ) hr hc' e1 ?_ e2 ?_
  · exact mul_ne_zero (mul_ne_zero one_ne_zero p1.ne') hQ0
  · exact div_ne_zero (mul_ne_zero (mul_ne_zero (mul_ne_zero (by norm_num) p2.ne') p1.ne') hQ0) hcop0.ne'

/-! ## Net performance -/

/-- `limit_check(x, min=0)`. -/
theorem limitCheck_zero (x : ℝ) : Util.limitCheck x (min := some 0) = if x < 0 then .error .exception else .ok x := rfl

theorem unit_cooling {u : Units ℝ} {E : Env ℝ} {T : Coil.Tools} {brentq : Brentq} {k : Core} {S : Sys ℝ} {P : DX.Points (Conditions ℝ)} {ntu : List (Option ℝ)}
    {c : Conditions ℝ} {q p w : ℝ} (hd : S.chargeDeviation = 0) (hq : Resnet.grossTotalCoolingCapacity E S (data k) c = .ok q)
    (hp : Resnet.grossCoolingPower E S (data k) c = .ok p) (hw : fanPower u brentq k c = .ok w) :
    (performance u E T brentq k S P ntu).netTotalCoolingCapacity (some c) = (if q < 0 then .error .exception else .ok (q - w)) ∧
    (performance u E T brentq k S P ntu).netCoolingPower (some c) = (if p < 0 then .error .exception else .ok (p + w)) := by
  constructor
  · simp only [DX.Performance.netTotalCoolingCapacity, DX.Performance.grossTotalCoolingCapacity, DX.Performance.coolingFanHeat, DX.Performance.coolingFanPower, performance, Resnet.unit,
      Option.getD_some, hq, Nrel.gradingModel, hd, if_true, bind_ok, mul_one, limitCheck_zero, hw, pure_eq_ok]
    split <;> simp [bind_ok, bind_error]
  · simp only [DX.Performance.netCoolingPower, DX.Performance.grossCoolingPower, DX.Performance.coolingFanPower, performance, Resnet.unit,
      Option.getD_some, hp, Nrel.gradingModel, hd, if_true, bind_ok, mul_one, limitCheck_zero, hw, pure_eq_ok]
    split <;> simp [bind_ok, bind_error]

theorem unit_heating {u : Units ℝ} {E : Env ℝ} {T : Coil.Tools} {brentq : Brentq} {k : Core} {S : Sys ℝ} {P : DX.Points (Conditions ℝ)} {ntu : List (Option ℝ)}
    {c : Conditions ℝ} {q p w : ℝ} (hd : S.chargeDeviation = 0) (hq : Resnet.grossSteadyHeatingCapacity E S (data k) c = .ok q)
    (hp : Resnet.grossSteadyHeatingPower E S (data k) c = .ok p) (hw : fanPower u brentq k c = .ok w) :
    (performance u E T brentq k S P ntu).netSteadyHeatingCapacity (some c) = .ok (q + w) ∧ (performance u E T brentq k S P ntu).netSteadyHeatingPower (some c) = .ok (p + w) := by
  constructor
  · simp only [DX.Performance.netSteadyHeatingCapacity, DX.Performance.grossSteadyHeatingCapacity, DX.Performance.heatingFanPower, performance, Resnet.unit,
      Option.getD_some, hq, Nrel.gradingModel, hd, if_true, bind_ok, mul_one, hw, pure_eq_ok]
  · simp only [DX.Performance.netSteadyHeatingPower, DX.Performance.grossSteadyHeatingPower, DX.Performance.heatingFanPower, performance, Resnet.unit,
      Option.getD_some, hp, Nrel.gradingModel, hd, if_true, bind_ok, mul_one, hw, pure_eq_ok]

/-! ## The constructor -/

/-- The steps of a successful construction. -/
theorem build_ok {u : Units ℝ} {E : Env ℝ} {T : Coil.Tools} {brentq : Brentq} {a : Args} {B : Built} (h : build u E T brentq a = .ok B) :
    ∃ st0 st q47 net rc rh, stagingOf (numberOfSpeeds (a.heating.map NumArg.num) a.staging) a.staging = .ok st0 ∧ modelStaging a st0 = .ok st ∧ heating47 u a st = .ok q47 ∧
      netTables u a st B.heatingOff q47 = .ok net ∧ B.heatingOff = DX.offTemperature a.heatingOff st0 ∧
      rc = modelRoles st (roles (numberOfSpeeds (some a.cooling) a.staging) a.coolingFullSpeed a.coolingIntermediateSpeed) ∧
      rh = modelRoles st (roles (numberOfSpeeds (a.heating.map NumArg.num) a.staging) a.heatingFullSpeed a.heatingIntermediateSpeed) ∧
      core u brentq a st rc rh net = .ok B.core ∧ sys a B.core = .ok B.sys ∧ Ratings.setRatingConditions E B.sys st rc rh = .ok B.points ∧
      B.cdCooling = cd a.cdCooling ∧ B.cdHeating = cd a.cdHeating ∧ B.coolingOff = a.coolingOff ∧ B.cycling = a.cycling ∧ B.standard = a.standard ∧
      B.heatingOn = DX.onTemperature a.heatingOn B.heatingOff := by
  unfold build at h
  simp only [bind_eq_ok] at h
  obtain ⟨st0, h1, st, h2, q47, h3, net, h4, k, h5, S, h6, cr, h7, P, h8, coil, h9, h10⟩ := h
  split at h10
  · cases h10
  · split at h10
    · cases h10
    · simp only [bind_eq_ok, pure_eq_ok, Except.ok.injEq] at h10
      obtain ⟨-, -, rfl⟩ := h10
      exact ⟨st0, st, q47, net, _, _, h1, h2, h3, h4, rfl, rfl, rfl, h5, h6, h8, rfl, rfl, rfl, rfl, rfl, rfl⟩

/-- Tables made from ratings contain the rating temperatures. -/
theorem netTables_rated {u : Units ℝ} {a : Args} {st : Staging} {off q47 : ℝ} {net : Perf ℝ} (h : netTables u a st off q47 = .ok net) (ha : a.tables = none) :
    RatedTables (tableSpeeds st) net := by
  unfold netTables at h
  rw [ha] at h
  cases st with
  | single =>
    simp only [bind_eq_ok] at h
    obtain ⟨q, -, s, -, e, -, f, -, h⟩ := h
    exact single_rated h
  | two =>
    simp only [bind_eq_ok] at h
    obtain ⟨q, -, s, -, e, -, f, -, h⟩ := h
    exact two_rated h
  | varSpeed =>
    simp only [bind_eq_ok] at h
    obtain ⟨q, -, s, -, e, -, f, -, h⟩ := h
    exact variable_rated h

theorem netTables_given {u : Units ℝ} {a : Args} {st : Staging} {off q47 : ℝ} {net d : Perf ℝ} (h : netTables u a st off q47 = .ok net) (ha : a.tables = some d) : net = d := by
  unfold netTables at h
  rw [ha] at h
  cases st <;> exact (Except.ok.inj h).symm

theorem built_facts {u : Units ℝ} {E : Env ℝ} {T : Coil.Tools} {brentq : Brentq} {a : Args} {B : Built} (h : build u E T brentq a = .ok B)
    (ht : ∀ d, a.tables = some d → RatedTables (tableSpeeds B.core.st) d) :
    ∃ fc fh, CoreFacts u brentq a B.core.st B.core.rc B.core.rh B.core.net B.core fc fh := by
  obtain ⟨st0, st, q47, net, rc, rh, h1, h2, h3, h4, h5, h6, h7, h8, h9, -⟩ := build_ok h
  have e : B.core.st = st ∧ B.core.rc = rc ∧ B.core.rh = rh ∧ B.core.net = net := by
    unfold core at h8
    simp only [bind_eq_ok, pure_eq_ok, Except.ok.injEq] at h8
    obtain ⟨qc, -, qh, -, esp, -, ⟨cool, heat, fan⟩, -, cp, -, hp, -, gross, -, ncc, -, gcc, -, nhc, -, ghc, -, h12⟩ := h8
    rw [← h12]; exact ⟨rfl, rfl, rfl, rfl⟩
  obtain ⟨rfl, rfl, rfl, rfl⟩ := e
  refine core_facts h8 ?_
  cases hd : a.tables with
  | none => exact netTables_rated h4 hd
  | some d => rw [netTables_given h4 hd]; exact ht d hd

end Resdx.Build
