import Verif.Model.RatingSolver
import Verif.Lemmas.ResnetBuild
import Verif.Lemmas.ResnetTables
import Verif.Props.Ratings

/-! # What the heating COP argument changes in a constructed unit -/

set_option linter.unusedSectionVars false
set_option linter.unusedSimpArgs false

namespace Resdx.Build

open BaseModel Fan ResnetFan Tabular

variable {u : Units ℝ} {E : Env ℝ} {T : Coil.Tools} {brentq : Brentq} {a : Args}

/-- Two results of one computation. -/
theorem ok_unique {α : Type} {x : Py α} {v w : α} (h : x = .ok v) (h' : x = .ok w) : v = w := by
  rw [h] at h'; exact Except.ok.inj h'

theorem finish_powers {qc pc qh ph ph' : Table ℝ} {d d' : Perf ℝ} (h : finish qc pc qh ph = .ok d) (h' : finish qc pc qh ph' = .ok d') : d' = { d with heatingPowers := d'.heatingPowers } := by
  simp only [finish, bind_eq_ok] at h h'
  obtain ⟨a1, h1, a2, h2, a3, h3, a4, h4, h5⟩ := h
  obtain ⟨b1, g1, b2, g2, b3, g3, b4, g4, g5⟩ := h'
  obtain rfl := ok_unique h1 g1
  obtain rfl := ok_unique h2 g2
  obtain rfl := ok_unique h3 g3
  simp only [Perf.init] at h5 g5
  split_ifs at h5 g5
  cases h5
  cases g5
  rfl

theorem single_powers {q95 seer eer q47 : ℝ} {q17 : Option ℝ} {h1 h2 m off cdc : ℝ} {c c' : Option ℝ} {d d' : Perf ℝ} (h : makeSingleSpeed u q95 seer eer q47 q17 h1 m off c cdc = .ok d)
    (h' : makeSingleSpeed u q95 seer eer q47 q17 h2 m off c' cdc = .ok d') : d' = { d with heatingPowers := d'.heatingPowers } := by
  simp only [makeSingleSpeed, bind_eq_ok, Prod.exists] at h h'
  obtain ⟨qc, pc, e1, qh, ph, e2, e3⟩ := h
  obtain ⟨qc', pc', f1, qh', ph', f2, f3⟩ := h'
  obtain ⟨rfl, rfl⟩ := Prod.mk.inj (ok_unique e1 f1)
  have : qh = qh' := by
    simp only [singleHeating, bind_eq_ok, pure_eq_ok, Except.ok.injEq] at e2 f2
    obtain ⟨x1, a1, x2, a2, x3, a3, x4, a4, x5, a5, _, -, _, -, _, -, _, -, r⟩ := e2
    obtain ⟨y1, b1, y2, b2, y3, b3, y4, b4, y5, b5, _, -, _, -, _, -, _, -, r'⟩ := f2
    obtain rfl := ok_unique a2 b2
    obtain rfl := ok_unique a3 b3
    obtain rfl := ok_unique a4 b4
    obtain rfl := ok_unique a5 b5
    rw [← (Prod.mk.inj r).1, ← (Prod.mk.inj r').1]
  subst this
  exact finish_powers e3 f3

theorem two_powers {q95 s eer q47 : ℝ} {q17 : Option ℝ} {h1 h2 m off : ℝ} {c82 c c' : Option ℝ} {d d' : Perf ℝ} (h : makeTwoSpeed u q95 s eer q47 q17 h1 m off c82 c = .ok d)
    (h' : makeTwoSpeed u q95 s eer q47 q17 h2 m off c82 c' = .ok d') : d' = { d with heatingPowers := d'.heatingPowers } := by
  simp only [makeTwoSpeed, bind_eq_ok, Prod.exists] at h h'
  obtain ⟨qc, pc, e1, qh, ph, e2, e3⟩ := h
  obtain ⟨qc', pc', f1, qh', ph', f2, f3⟩ := h'
  obtain ⟨rfl, rfl⟩ := Prod.mk.inj (ok_unique e1 f1)
  have : qh = qh' := by
    simp only [twoHeating, bind_eq_ok, pure_eq_ok, Except.ok.injEq] at e2 f2
    obtain ⟨x1, a1, x2, a2, x3, a3, x4, a4, x5, a5, x6, a6, x7, a7, _, -, _, -, _, -, _, -, _, -, _, -, r⟩ := e2
    obtain ⟨y1, b1, y2, b2, y3, b3, y4, b4, y5, b5, y6, b6, y7, b7, _, -, _, -, _, -, _, -, _, -, _, -, r'⟩ := f2
    obtain rfl := ok_unique a2 b2
    obtain rfl := ok_unique a3 b3
    obtain rfl := ok_unique a4 b4
    obtain rfl := ok_unique a5 b5
    obtain rfl := ok_unique a6 b6
    obtain rfl := ok_unique a7 b7
    rw [← (Prod.mk.inj r).1, ← (Prod.mk.inj r').1]
  subst this
  exact finish_powers e3 f3

theorem variable_powers {q95 s eer q47 : ℝ} {q17 : Option ℝ} {h1 h2 m off : ℝ} {r95 c82 c c' : Option ℝ} {d d' : Perf ℝ} (h : makeNeepStatistical u q95 s eer q47 q17 h1 m off r95 c82 c = .ok d)
    (h' : makeNeepStatistical u q95 s eer q47 q17 h2 m off r95 c82 c' = .ok d') : d' = { d with heatingPowers := d'.heatingPowers } := by
  simp only [makeNeepStatistical, bind_eq_ok, Prod.exists] at h h'
  obtain ⟨qc, pc, e1, x, e2, qh, e3, ph, e4, e5⟩ := h
  obtain ⟨qc', pc', f1, y, f2, qh', f3, ph', f4, f5⟩ := h'
  obtain ⟨rfl, rfl⟩ := Prod.mk.inj (ok_unique e1 f1)
  obtain rfl := ok_unique e2 f2
  obtain rfl := ok_unique e3 f3
  exact finish_powers e5 f5

/-- The arguments with another heating COP and HSPF2. -/
def Args.withHeating (a : Args) (cop hspf : Option ℝ) : Args := { a with netHeatingCop := cop, hspf := hspf }

/-- The tables with another heating COP differ in the heating powers only. -/
theorem netTables_powers {st : Staging} {off q47 : ℝ} {c f : Option ℝ} {d d' : Perf ℝ} (h : netTables u a st off q47 = .ok d) (h' : netTables u (a.withHeating c f) st off q47 = .ok d') :
    d' = { d with heatingPowers := d'.heatingPowers } := by
  unfold netTables at h h'
  have et : (a.withHeating c f).tables = a.tables := rfl
  rw [et] at h'
  cases hta : a.tables with
  | some t =>
    rw [hta] at h h'
    cases st <;> (cases h; cases h'; rfl)
  | none =>
    rw [hta] at h h'
    cases st with
    | single =>
      simp only [bind_eq_ok] at h h'
      obtain ⟨q, e1, s, e2, e, e3, g, -, e5⟩ := h
      obtain ⟨q', f1, s', f2, e', f3, g', -, f5⟩ := h'
      obtain rfl := ok_unique e1 f1
      obtain rfl := ok_unique e2 f2
      obtain rfl := ok_unique e3 f3
      exact single_powers e5 f5
    | two =>
      simp only [bind_eq_ok] at h h'
      obtain ⟨q, e1, s, e2, e, e3, g, -, e5⟩ := h
      obtain ⟨q', f1, s', f2, e', f3, g', -, f5⟩ := h'
      obtain rfl := ok_unique e1 f1
      obtain rfl := ok_unique e2 f2
      obtain rfl := ok_unique e3 f3
      exact two_powers e5 f5
    | varSpeed =>
      simp only [bind_eq_ok] at h h'
      obtain ⟨q, e1, s, e2, e, e3, g, -, e5⟩ := h
      obtain ⟨q', f1, s', f2, e', f3, g', -, f5⟩ := h'
      obtain rfl := ok_unique e1 f1
      obtain rfl := ok_unique e2 f2
      obtain rfl := ok_unique e3 f3
      exact variable_powers e5 f5

/-- A unit with other heating powers. -/
def Core.withPowers (k : Core) (p g : Table ℝ) (n m : List ℝ) : Core :=
  { k with net := { k.net with heatingPowers := p }, gross := { k.gross with heatingPowers := g }, netHeatingCop := n, grossHeatingCop := m }

theorem core_powers {st : Staging} {rc rh : Roles} {net net' : Perf ℝ} {c f : Option ℝ} {k k' : Core} (hn : net' = { net with heatingPowers := net'.heatingPowers })
    (h : core u brentq a st rc rh net = .ok k) (h' : core u brentq (a.withHeating c f) st rc rh net' = .ok k') : ∃ p g n m, k' = k.withPowers p g n m := by
  obtain ⟨qc, pc, qh, ph⟩ := net
  obtain ⟨qc', pc', qh', ph'⟩ := net'
  obtain ⟨rfl, rfl, rfl, -⟩ := (Perf.mk.injEq ..).mp hn
  simp only [core, bind_eq_ok, pure_eq_ok, Except.ok.injEq, Prod.exists] at h h'
  obtain ⟨x1, a1, x2, a2, x3, a3, x4, x5, x6, a4, x7, a5, x8, a6, x9, a7, x10, a8, x11, a9, x12, -, x13, -, rfl⟩ := h
  obtain ⟨y1, b1, y2, b2, y3, b3, y4, y5, y6, b4, y7, b5, y8, b6, y9, b7, y10, b8, y11, b9, y12, -, y13, -, rfl⟩ := h'
  obtain rfl := ok_unique a1 b1
  obtain rfl := ok_unique a2 b2
  obtain rfl := ok_unique a3 b3
  obtain ⟨rfl, e⟩ := Prod.mk.inj (ok_unique a4 b4)
  obtain ⟨rfl, rfl⟩ := Prod.mk.inj e
  obtain rfl := ok_unique a5 b5
  obtain rfl := ok_unique a6 b6
  obtain ⟨t1, t2, t3, -⟩ := makeGross_tables (exec_iff.mp a7)
  obtain ⟨r1, r2, r3, -⟩ := makeGross_tables (exec_iff.mp b7)
  simp only at t1 t2 t3 r1 r2 r3
  have e1 := (Prod.mk.inj (t1.symm.trans r1)).2
  have e2 := (Prod.mk.inj (t2.symm.trans r2)).2
  have e3 := (Prod.mk.inj (t3.symm.trans r3)).2
  have hg : y9 = { x9 with heatingPowers := y9.heatingPowers } := by
    obtain ⟨_, _, _, _⟩ := x9
    obtain ⟨_, _, _, _⟩ := y9
    simp only at e1 e2 e3
    rw [e1, e2, e3]
  have hcc : y11 = x11 := by
    rw [hg] at b9
    exact ok_unique b9 a9
  have hcn : y10 = x10 := ok_unique b8 a8
  refine ⟨ph', y9.heatingPowers, y12, y13, ?_⟩
  rw [Core.withPowers, ← hg, hcc, hcn]
  rfl

/-- The attributes with other rated gross heating COPs. -/
def withCop (S : Sys ℝ) (m : List ℝ) : Sys ℝ := { S with grossHeatingCop := m.map some }

/-- A unit with other heating powers. -/
def Built.withPowers (B : Built) (p g : Table ℝ) (n m : List ℝ) : Built :=
  { B with core := B.core.withPowers p g n m, sys := withCop B.sys m }

/-- Every cooling test is a cooling condition. -/
theorem cooling_mode {S : Sys ℝ} {st : Staging} {rc rh : Roles} {P : DX.Points (Conditions ℝ)} (h : Ratings.setRatingConditions E S st rc rh = .ok P) {t : Ratings.Test} {c : Conditions ℝ}
    (hc : Ratings.get P t = some c) : c.heating = Ratings.testHeating t := by
  rcases Ratings.isTests h t with ⟨-, i, c', -, h1, h2⟩ | ⟨-, h1⟩
  · rw [hc] at h1; cases h1; exact h2.mode
  · rw [hc] at h1; cases h1

section Agree
variable {k : Core} {S : Sys ℝ} {P : DX.Points (Conditions ℝ)} {ntu : List (Option ℝ)} {p g : Table ℝ} {n m : List ℝ} {c : Conditions ℝ}

theorem grading_agree (ft : Nrel.FunctionType) (hc : c.heating = false) :
    Nrel.gradingModel E (withCop S m) (Resnet.raw E (withCop S m) (data (k.withPowers p g n m))) ft c =
      Nrel.gradingModel E S (Resnet.raw E S (data k)) ft c := by
  unfold Nrel.gradingModel
  rw [hc]
  cases ft <;> rfl

theorem total_agree (hc : c.heating = false) :
    (performance u E T brentq (k.withPowers p g n m) (withCop S m) P ntu).grossTotalCoolingCapacity (some c) =
      (performance u E T brentq k S P ntu).grossTotalCoolingCapacity (some c) := by
  simp only [DX.Performance.grossTotalCoolingCapacity, Option.getD_some, performance, Resnet.unit, grading_agree _ hc]
  rfl

theorem power_agree (hc : c.heating = false) :
    (performance u E T brentq (k.withPowers p g n m) (withCop S m) P ntu).grossCoolingPower (some c) = (performance u E T brentq k S P ntu).grossCoolingPower (some c) := by
  simp only [DX.Performance.grossCoolingPower, Option.getD_some, performance, Resnet.unit, grading_agree _ hc]
  rfl

theorem sensible_agree (hc : c.heating = false) :
    (performance u E T brentq (k.withPowers p g n m) (withCop S m) P ntu).sensible c = (performance u E T brentq k S P ntu).sensible c := by
  simp only [performance, DX.Performance.grossTotalCoolingCapacity, Option.getD_some, Resnet.unit, grading_agree _ hc]
  rfl

theorem fan_agree : (performance u E T brentq (k.withPowers p g n m) (withCop S m) P ntu).fanPower = (performance u E T brentq k S P ntu).fanPower := by
  simp only [performance, Resnet.unit]
  rfl

theorem heatCap_agree : (performance u E T brentq (k.withPowers p g n m) (withCop S m) P ntu).heatCap = (performance u E T brentq k S P ntu).heatCap := by
  simp only [performance, Resnet.unit]
  rfl

theorem capacity_agree : Nrel.gradingModel E (withCop S m) (Resnet.raw E (withCop S m) (data (k.withPowers p g n m))) .capacity c =
      Nrel.gradingModel E S (Resnet.raw E S (data k)) .capacity c := by
  unfold Nrel.gradingModel
  cases c.heating <;> rfl

theorem heatCharge_agree : (performance u E T brentq (k.withPowers p g n m) (withCop S m) P ntu).heatCapCharge = (performance u E T brentq k S P ntu).heatCapCharge := by
  simp only [performance, Resnet.unit]
  funext c
  exact capacity_agree

theorem intCap_agree : (performance u E T brentq (k.withPowers p g n m) (withCop S m) P ntu).intCap = (performance u E T brentq k S P ntu).intCap := by
  simp only [performance, Resnet.unit]
  funext c
  simp only [Resnet.grossIntegratedHeatingCapacity, Nrel.steadyCapacity, capacity_agree]
  rfl

theorem total_ntu (ntu' : List (Option ℝ)) : (performance u E T brentq k S P ntu').grossTotalCoolingCapacity (some c) = (performance u E T brentq k S P ntu).grossTotalCoolingCapacity (some c) := rfl
end Agree

/-- The coil data depend on the gross capacities at the cooling tests. -/
theorem coil_congr {total total' : Conditions ℝ → Py ℝ} {st : Staging} {r : Roles} {P : DX.Points (Conditions ℝ)}
    (h : ∀ t c, Ratings.testHeating t = false → Ratings.get P t = some c → total' c = total c) : coilData u T total' st r P = coilData u T total st r P := by
  have step : ∀ (i : Nat) t c d, Ratings.testHeating t = false → Ratings.get P t = some c → coilStep u T total' i c d = coilStep u T total i c d := fun i t c d ht hc => by
    simp only [coilStep, h t c ht hc]
  have low : ∀ d, coilData.low u T total' r P d = coilData.low u T total r P d := fun d => by
    simp only [coilData.low]
    cases hl : P.aLow with
    | none => rfl
    | some c => simp only [pyAttr, bind_ok, step _ .aLow c _ rfl hl]
  have boost : ∀ d, coilData.boost u T total' r P d = coilData.boost u T total r P d := fun d => by
    simp only [coilData.boost]
    cases hl : P.aBoost with
    | none => rfl
    | some c => simp only [pyAttr, bind_ok, step _ .aBoost c _ rfl hl]
  unfold coilData
  dsimp only
  rw [step _ .aFull P.aFull _ rfl rfl]
  cases st with
  | single => rfl
  | two => simp only [low]
  | varSpeed =>
    simp only [low, boost]
    cases hl : P.aInt with
    | none => rfl
    | some c => simp only [pyAttr, bind_ok, step _ .aInt c _ rfl hl]

/-- Units that differ in the heating COP or HSPF2 argument differ in heating power only. -/
theorem build_powers {c f : Option ℝ} {B B' : Built} (h : build u E T brentq a = .ok B) (h' : build u E T brentq (a.withHeating c f) = .ok B') :
    (∃ p g n m, B' = B.withPowers p g n m) ∧ ∃ rc rh, Ratings.setRatingConditions E B.sys B.core.st rc rh = .ok B.points := by
  unfold build at h h'
  simp only [bind_eq_ok] at h h'
  obtain ⟨st0, h1, st, h2, q47, h3, net, h4, k, h5, S, h6, cr, h7, P, h8, coil, h9, h10⟩ := h
  obtain ⟨st0', g1, st', g2, q47', g3, net', g4, k', g5, S', g6, cr', g7, P', g8, coil', g9, g10⟩ := h'
  obtain rfl := ok_unique h1 g1
  obtain rfl := ok_unique h2 g2
  obtain rfl := ok_unique h3 g3
  obtain ⟨p, g, n, m, rfl⟩ := core_powers (netTables_powers h4 g4) h5 g5
  have hS : S' = withCop S m := by
    simp only [sys, bind_eq_ok, pure_eq_ok, Except.ok.injEq] at h6 g6
    obtain ⟨x, a1, y, a2, rfl⟩ := h6
    obtain ⟨x', b1, y', b2, rfl⟩ := g6
    obtain rfl := ok_unique a1 b1
    obtain rfl := ok_unique a2 b2
    rfl
  subst hS
  obtain rfl : cr = cr' := ok_unique h7 g7
  obtain rfl : P = P' := ok_unique h8 g8
  have hst : k.st = st := by
    simp only [core, bind_eq_ok, pure_eq_ok, Except.ok.injEq, Prod.exists] at h5
    obtain ⟨_, -, _, -, _, -, _, _, _, -, _, -, _, -, _, -, _, -, _, -, _, -, _, -, rfl⟩ := h5
    rfl
  have key (r : Roles) : coilData u T (fun c => (performance u E T brentq (k.withPowers p g n m) (withCop S m) P []).grossTotalCoolingCapacity (some c)) st r P =
      coilData u T (fun c => (performance u E T brentq k S P []).grossTotalCoolingCapacity (some c)) st r P :=
    coil_congr fun t c ht hc => total_agree ((cooling_mode h8 hc).trans ht)
  rw [key] at g9
  obtain rfl : coil = coil' := ok_unique h9 g9
  have hB : ∀ {x : Py Unit} {k0 : Core} {S0 : Sys ℝ} {b1 b2 : Prop} [Decidable b1] [Decidable b2] {R : Built} (r : Built),
      (if b1 then .error .runtime else if b2 then .error .runtime else (do let _ ← x; return r)) = (.ok R : Py Built) → r = R := by
    intro x k0 S0 b1 b2 _ _ R r h
    split at h
    · cases h
    · split at h
      · cases h
      · simp only [bind_eq_ok, pure_eq_ok, Except.ok.injEq] at h
        obtain ⟨-, -, h⟩ := h
        exact h
  have e1 := hB (k0 := k) (S0 := S) _ h10
  have e2 := hB (k0 := k) (S0 := S) _ g10
  subst e1
  subst e2
  subst hst
  exact ⟨⟨p, g, n, m, rfl⟩, _, _, h8⟩

end Resdx.Build
