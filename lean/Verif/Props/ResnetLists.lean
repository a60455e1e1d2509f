import Verif.Lemmas.ResnetLists
import Verif.Lemmas.ResnetSample
import Verif.Props.ResnetBuild
import Verif.Props.ResnetReturns

/-!
# RESNET units made from lists of capacities

C110: what the constructor does with the given capacities and COPs. C111: the net performance at the rating tests. C112: a supplied fan; SEER and EER of a single-stage unit in closed form.
-/

set_option linter.unusedSectionVars false
set_option linter.unusedSimpArgs false

namespace Resdx.Props

open Spec BaseModel Tabular ResnetFan Fan ListBuild UnitBuild
open Build (IndoorAir CoilReturns ratedShr shrAt_rated RatedCond fullESP_ok start_airflow')

variable {u : Units ℝ} {E : Env ℝ} {T : Coil.Tools} {brentq : Brentq} {a : ListBuild.Args} {B : ListBuild.Built}

/-! ## C110: the constructor -/

/-- C110: a made unit has the given net capacities, one speed per capacity; the gross capacity is the net capacity plus (cooling) or minus (heating) the fan power of the speed; a COP was given for both modes, and the COPs
and powers are those of the arguments (`CopsSet`). -/
theorem C110_construct (h : ListBuild.build u E T brentq a = .ok B) (heating : Bool) :
    (∃ qc, a.cooling = .list qc) ∧ (B.side heating).n = (a.caps heating).length ∧ (B.side heating).netCap = a.caps heating ∧
      (∀ i < (a.caps heating).length, ∃ q w, (a.caps heating)[i]? = some q ∧ (B.side heating).fanPower[i]? = some (some w) ∧ (B.side heating).grossCap[i]? = some (some (if heating then q - w else q + w))) ∧
      ¬ (a.netCop heating = none ∧ a.grossCop heating = none) ∧ CopsSet heating (a.netCop heating) (a.grossCop heating) (B.side heating) := by
  obtain ⟨qc, p, gc, gh, s⟩ := build_steps h
  obtain ⟨e1, e2, e3, e4, e5, e6, e7⟩ := s.copsSet heating
  have hl := s.capsLength heating
  refine ⟨⟨qc, s.list⟩, by rw [e1, hl], e2, fun i hi => ?_, e6, e7⟩
  obtain ⟨q, w, f1, f2, f3⟩ := s.power heating (by rw [hl] at hi; exact hi)
  exact ⟨q, w, f1, by rw [e3]; exact f2, by rw [e4]; exact f3⟩

/-- C110 fails for a cooling capacity given as a number with a list of heating capacities: no unit is made. -/
theorem C110_number_refuted (q : ℝ) (hq : a.cooling = .num q) : ListBuild.build u E T brentq a ≠ .ok B := by
  intro h
  obtain ⟨qc, p, gc, gh, s⟩ := build_steps h
  rw [s.list] at hq; cases hq

/-- C110 fails for a two-stage unit given one cooling capacity: deriving the low speed's capacity is an `IndexError`, so no unit is made. -/
theorem C110_low_speed_refuted (hst : a.staging = some .two ∨ (a.staging = none ∧ a.heating.length = 2)) (q : ℝ) (hq : a.cooling = .list [q]) : ListBuild.build u E T brentq a ≠ .ok B := by
  intro h
  obtain ⟨qc, p, gc, gh, s⟩ := build_steps h
  have h1 := s.staging
  have h2 := s.stages
  rw [s.list] at hq
  have hst : B.st = .two := by
    rcases hst with e | ⟨e1, e2⟩
    · rw [e] at h1; simp only [stagingOf, Except.ok.injEq] at h1; exact h1.symm
    · rw [e1, ListBuild.Args.nH, e2] at h1
      simp [stagingOf, Staging.ofValue] at h1
      exact h1.symm
  exact h2 ⟨hst, by cases hq; rfl⟩

/-- C110 fails for a net COP given without `None` for the gross COP: the default gross COP (3.72 cooling, 3.82 heating) is set last, whatever the net COP. -/
theorem C110_default_refuted (h : ListBuild.build u E T brentq a = .ok B) (hc : a.grossCoolingCop = defaultGrossCoolingCop) (hh : a.grossHeatingCop = defaultGrossHeatingCop) :
    B.cool.grossCop[0]? = some (some (372 / 100)) ∧ B.heat.grossCop[0]? = some (some (382 / 100)) := by
  obtain ⟨-, -, -, -, -, c⟩ := C110_construct h false
  obtain ⟨-, -, -, -, -, k⟩ := C110_construct h true
  refine ⟨(c.grossGiven (.num (372 / 100)) ?_).2 0 _ (.inl ⟨rfl, rfl⟩), (k.grossGiven (.num (382 / 100)) ?_).2 0 _ (.inl ⟨rfl, rfl⟩)⟩
  · simp only [Args.grossCop, Bool.false_eq_true, if_false, hc, defaultGrossCoolingCop]; norm_num
  · simp only [Args.grossCop, if_true, hh, defaultGrossHeatingCop]; norm_num

/-- C110 fails for three or more speeds and a gross COP given as a number (as the defaults are), unless net COPs are given as a list: no unit is made. -/
theorem C110_many_speeds_refuted (heating : Bool) (hn : 3 ≤ (a.caps heating).length) (x : ℝ) (hg : a.grossCop heating = some (.num x)) (hl : ∀ l, a.netCop heating ≠ some (.list l)) :
    ListBuild.build u E T brentq a ≠ .ok B := by
  intro h
  obtain ⟨qc, p, gc, gh, s⟩ := build_steps h
  rw [s.capsLength] at hn
  have hc := s.cops
  unfold ListBuild.cops at hc
  split at hc
  · cases hc
  · split at hc
    · cases hc
    · simp only [bind_eq_ok, pure_eq_ok, Except.ok.injEq, Prod.mk.injEq] at hc
      obtain ⟨c1, i1, c2, i2, h1, i3, h2, i4, -, -⟩ := hc
      have fresh : ∀ (n : Nat) (caps : List ℝ) (pw : List (Option ℝ)), 3 ≤ n → (Rated.fresh n caps pw).grossCop[1]? = some none := by
        intro n caps pw hn
        simp only [Rated.fresh, List.getElem?_replicate, if_pos (show 1 < n by omega)]
      have key : ∀ (n : Nat) (caps : List ℝ) (pw g : List (Option ℝ)) (s1 s2 : Rated ℝ) (net : Option (NumArg ℝ)), 3 ≤ n → (∀ l, net ≠ some (.list l)) →
          applyOpt (Nrel.setNetCop heating) net { Rated.fresh n caps pw with grossCap := g } = .ok s1 → Nrel.setGrossCop heating (.num x) s1 ≠ .ok s2 := by
        intro n caps pw g s1 s2 net hn hnet e1
        have : s1.n = n ∧ s1.grossCop[1]? = some none := by
          cases net with
          | none => simp only [applyOpt, Except.ok.injEq] at e1; subst e1; exact ⟨rfl, fresh n caps pw hn⟩
          | some y => cases y with
            | list l => exact absurd rfl (hnet l)
            | num y =>
              obtain ⟨-, e2, -⟩ := C110_net_many_refuted heating y _ s1 hn e1 1 (by norm_num)
              exact ⟨(C110_net_number heating y _ s1 e1).1.1, by rw [e2]; exact fresh n caps pw hn⟩
        exact C110_gross_many_refuted heating x s1 s2 (by omega) ⟨1, by omega, by norm_num, this.2⟩
      cases heating with
      | false => simp only [Args.grossCop, Bool.false_eq_true, if_false] at hg; rw [hg] at i2; exact key _ _ _ _ _ _ _ hn hl i1 i2
      | true => simp only [Args.grossCop, if_true] at hg; rw [hg] at i4; exact key _ _ _ _ _ _ _ hn hl i3 i4

/-! ## C111: net performance -/

theorem side_sys (h : ListBuild.build u E T brentq a = .ok B) {i : Nat} : B.sys.chargeDeviation = a.chargeDeviation ∧
    (∀ q Q w p P c C, HasRatings B.cool i q Q w p P c C → B.sys.grossCooling[i]? = some (some Q) ∧ B.sys.grossCoolingCop[i]? = some (some C)) ∧
    (∀ q Q w p P c C, HasRatings B.heat i q Q w p P c C → B.sys.grossHeating[i]? = some (some Q) ∧ B.sys.grossHeatingCop[i]? = some (some C)) := by
  obtain ⟨qc, p, gc, gh, s⟩ := build_steps h
  obtain ⟨-, -, -, e4, e5, -⟩ := s.copsSet false
  obtain ⟨-, -, -, f4, f5, -⟩ := s.copsSet true
  refine ⟨by rw [s.sys]; rfl, fun q Q w p P c C r => ?_, fun q Q w p P c C r => ?_⟩
  · simp only [Built.side, Bool.false_eq_true, if_false] at e4 e5
    rw [← e4, ← e5]; exact ⟨r.grossCap, r.grossCop⟩
  · simp only [Built.side, if_true] at f4 f5
    rw [← f4, ← f5]; exact ⟨r.grossCap, r.grossCop⟩

/-- C111, cooling: at rated indoor air and airflow and any outdoor temperature up to 125 °F, the net capacity is the gross capacity on the published curve less the fan power at the condition, and the net power the gross
power on the curves plus it. -/
theorem C111_cooling (h : ListBuild.build u E T brentq a = .ok B) (hd : a.chargeDeviation = 0) {i : Nat} {q Q w p P k C : ℝ} (r : HasRatings B.cool i q Q w p P k C) (hQC : Q = C * P)
    (hQ : 0 < Q) (hP : 0 < P) {o : Psych.PsychState ℝ} (ho : toF o.db ≤ 125) {c : Conditions ℝ} (hc : B.sys.makeCondition E false i none (some o) = .ok c) {w' : ℝ}
    (hw : ListBuild.fanPower B.fan c = .ok w') :
    (B.unit E T).netTotalCoolingCapacity (some c) = .ok (Q * coolCapT 67 (max 75 (toF o.db)) - w') ∧
    (B.unit E T).netCoolingPower (some c) = .ok (P * (coolEirT 67 (max 75 (toF o.db)) * coolCapT 67 (max 75 (toF o.db))) + w') := by
  obtain ⟨s1, s2, -⟩ := side_sys h (i := i)
  obtain ⟨g1, g2⟩ := s2 _ _ _ _ _ _ _ r
  have hC : C = Q / P := by rw [hQC]; field_simp
  have hC0 : 0 < C := by rw [hC]; positivity
  obtain ⟨rho, pr, x, cap, fs, _, _, _, _, _, _, _, _, _, rfl⟩ := Sys.makeCondition_spec E B.sys false _ _ _ _ hc
  simp only [Option.getD_none, Option.getD_some] at hw ⊢
  have hwb : (Psych.getWb (defaultIndoor E false)).1 = .ok (frF (67 : ℝ)) := rfl
  have e1 := C74_cooling_capacity B.sys ⟨false, defaultIndoor E false, o, ratedFlow rho E.rhoStd i fs pr x cap⟩ (frF 67) 1 Q hwb rfl g1
  have e2 := C74_cooling_power B.sys ⟨false, defaultIndoor E false, o, ratedFlow rho E.rhoStd i fs pr x cap⟩ (frF 67) 1 Q C hwb rfl g1 g2 hC0.ne' _ rfl
  have f1 : coolCapF (1 : ℝ) = 1 := by unfold coolCapF; norm_num
  have f2 : coolEirF (1 : ℝ) = 1 := by unfold coolEirF; norm_num
  have f3 : clip 57 72 (toF (frF (67 : ℝ))) = 67 := by rw [toF_frF]; unfold clip; norm_num
  obtain ⟨p1, p2⟩ := C74_cooling_positive (67 : ℝ) (max 75 (toF o.db)) (by norm_num) (by norm_num) (le_max_left _ _) (max_le (by norm_num) ho)
  simp only [f1, f2, f3] at e1 e2
  have n1 : 0 < Q * coolCapT 67 (max 75 (toF o.db)) := by positivity
  have n2 : 0 < P * (coolEirT 67 (max 75 (toF o.db)) * coolCapT 67 (max 75 (toF o.db))) := by positivity
  rw [show 1 * coolCapT 67 (max 75 (toF o.db)) * Q = Q * coolCapT 67 (max 75 (toF o.db)) by ring] at e1
  rw [show 1 * 1 * coolEirT 67 (max 75 (toF o.db)) * coolCapT 67 (max 75 (toF o.db)) * Q / C = P * (coolEirT 67 (max 75 (toF o.db)) * coolCapT 67 (max 75 (toF o.db))) by
    rw [hQC]; field_simp, if_neg (not_lt.2 n2.le)] at e2
  constructor
  · simp only [DX.Performance.netTotalCoolingCapacity, DX.Performance.grossTotalCoolingCapacity, DX.Performance.coolingFanHeat, DX.Performance.coolingFanPower, ListBuild.Built.unit, ListBuild.performance, Resnet.unit,
      Resnet.grossTotalCoolingCapacity, Option.getD_some, e1, Nrel.gradingModel, s1, hd, if_true, bind_ok, mul_one, Build.limitCheck_zero, if_neg (not_lt.2 n1.le), hw, pure_eq_ok]
  · simp only [DX.Performance.netCoolingPower, DX.Performance.grossCoolingPower, DX.Performance.coolingFanPower, ListBuild.Built.unit, ListBuild.performance, Resnet.unit, Resnet.grossCoolingPower,
      Option.getD_some, e2, Nrel.gradingModel, s1, hd, if_true, bind_ok, mul_one, Build.limitCheck_zero, if_neg (not_lt.2 n2.le), hw, pure_eq_ok]

/-- C111, heating: the same at any outdoor temperature; in defrost the gross capacity and power are reduced by the published factors. -/
theorem C111_heating (h : ListBuild.build u E T brentq a = .ok B) (hd : a.chargeDeviation = 0) {i : Nat} {q Q w p P k C : ℝ} (r : HasRatings B.heat i q Q w p P k C) (hQC : Q = C * P)
    (hC : C ≠ 0) {o : Psych.PsychState ℝ} {c : Conditions ℝ} (hc : B.sys.makeCondition E true i none (some o) = .ok c) {w' : ℝ} (hw : ListBuild.fanPower B.fan c = .ok w') {F : ℝ}
    (hF : F = if a.defrost.inDefrost o.db then max 0 (min (8 / 100) ((134 - 3 * toF o.db) / 1000)) else 0) :
    (B.unit E T).netSteadyHeatingCapacity (some c) = .ok (Q * heatCapT 70 (toF o.db) + w') ∧
    (B.unit E T).netSteadyHeatingPower (some c) = .ok (P * (heatEirT 70 (toF o.db) * heatCapT 70 (toF o.db)) + w') ∧
    (B.unit E T).netIntegratedHeatingCapacity (some c) = .ok (Q * heatCapT 70 (toF o.db) * (1 - 18 / 10 * F) + w') ∧
    (B.unit E T).netIntegratedHeatingPower (some c) = .ok (P * (heatEirT 70 (toF o.db) * heatCapT 70 (toF o.db)) * (1 - 3 / 10 * F) + w') := by
  obtain ⟨s1, -, s2⟩ := side_sys h (i := i)
  obtain ⟨g1, g2⟩ := s2 _ _ _ _ _ _ _ r
  have hdef : B.sys.defrost = a.defrost := by
    obtain ⟨qc, p, gc, gh, s⟩ := build_steps h
    rw [s.sys]; rfl
  obtain ⟨rho, pr, x, cap, fs, _, _, _, _, _, _, _, _, _, rfl⟩ := Sys.makeCondition_spec E B.sys true _ _ _ _ hc
  simp only [Option.getD_none, Option.getD_some] at hw ⊢
  obtain ⟨e1, e2⟩ := C74_heating B.sys ⟨true, defaultIndoor E true, o, ratedFlow rho E.rhoStd i fs pr x cap⟩ 1 Q C rfl g1 g2 hC
  have f1 : heatCapF (1 : ℝ) = 1 := by unfold heatCapF; norm_num
  have f2 : heatEirF (1 : ℝ) = 1 := by unfold heatEirF; norm_num
  have f3 : toF (defaultIndoor E true).db = (70 : ℝ) := by simp [defaultIndoor, wetState, Psych.blank, toF_frF]
  simp only [f1, f2, f3] at e1 e2
  rw [show 1 * heatCapT 70 (toF o.db) * Q = Q * heatCapT 70 (toF o.db) by ring] at e1
  rw [show 1 * 1 * heatEirT 70 (toF o.db) * heatCapT 70 (toF o.db) * Q / C = P * (heatEirT 70 (toF o.db) * heatCapT 70 (toF o.db)) by rw [hQC]; field_simp] at e2
  have fd : Resnet.fdef o.db = max 0 (min (8 / 100) ((134 - 3 * toF o.db) / 1000)) := by
    unfold Resnet.fdef
    rw [max_comm, min_comm]
    congr 2
    · norm_num
    · ring
  refine ⟨?_, ?_, ?_, ?_⟩
  · simp only [DX.Performance.netSteadyHeatingCapacity, DX.Performance.grossSteadyHeatingCapacity, DX.Performance.heatingFanPower, ListBuild.Built.unit, ListBuild.performance, Resnet.unit,
      Resnet.grossSteadyHeatingCapacity, Option.getD_some, e1, Nrel.gradingModel, s1, hd, if_true, bind_ok, mul_one, hw, pure_eq_ok]
  · simp only [DX.Performance.netSteadyHeatingPower, DX.Performance.grossSteadyHeatingPower, DX.Performance.heatingFanPower, ListBuild.Built.unit, ListBuild.performance, Resnet.unit,
      Resnet.grossSteadyHeatingPower, Option.getD_some, e2, Nrel.gradingModel, s1, hd, if_true, bind_ok, mul_one, hw, pure_eq_ok]
  · simp only [DX.Performance.netIntegratedHeatingCapacity, DX.Performance.grossIntegratedHeatingCapacity, DX.Performance.heatingFanPower, ListBuild.Built.unit, ListBuild.performance, Resnet.unit,
      Resnet.grossIntegratedHeatingCapacity, Nrel.steadyCapacity, Resnet.raw, Resnet.grossSteadyHeatingCapacity, Option.getD_some, e1, Nrel.gradingModel, s1, hd, if_true, bind_ok, mul_one, hw, pure_eq_ok, hdef, fd]
    split at hF <;> rename_i hb <;> simp only [hb, if_true, if_false, bind_ok, Bool.false_eq_true, ← hF] <;> congr 1
    · norm_num
    · rw [hF]; ring
  · simp only [DX.Performance.netIntegratedHeatingPower, DX.Performance.grossIntegratedHeatingPower, DX.Performance.heatingFanPower, ListBuild.Built.unit, ListBuild.performance, Resnet.unit,
      Resnet.grossIntegratedHeatingPower, Resnet.grossSteadyHeatingPower, Option.getD_some, e2, Nrel.gradingModel, s1, hd, if_true, bind_ok, mul_one, hw, pure_eq_ok, hdef, fd]
    split at hF <;> rename_i hb <;> simp only [hb, if_true, if_false, bind_ok, Bool.false_eq_true, ← hF] <;> congr 1
    · norm_num
    · rw [hF]; ring

/-- Two factors close to one. -/
theorem two_factors {x y e : ℝ} (hx : |x - 1| ≤ e) (hy : |y - 1| ≤ e) (he : e ≤ 1 / 2) : |y * x - 1| ≤ 5 / 2 * e := by
  have h1 := abs_nonneg (x - 1)
  have h2 := abs_nonneg (y - 1)
  have : y * x - 1 = (y - 1) * (x - 1) + (x - 1) + (y - 1) := by ring
  rw [this]
  calc _ ≤ |(y - 1) * (x - 1) + (x - 1)| + |y - 1| := abs_add_le _ _
    _ ≤ |(y - 1) * (x - 1)| + |x - 1| + |y - 1| := by linarith [abs_add_le ((y - 1) * (x - 1)) (x - 1)]
    _ ≤ _ := by
      rw [abs_mul]
      nlinarith [mul_le_mul hy hx h1 (h2.trans hy)]

/-- C111, A test: a unit whose fan runs at its rated power returns the given net cooling capacity to within 2 · 10⁻⁶ of the gross capacity, and its rated net power to within 5 · 10⁻⁶ of the gross power: the constants of the
published curves are rounded. -/
theorem C111_rated_cooling (h : ListBuild.build u E T brentq a = .ok B) (hd : a.chargeDeviation = 0) {q Q w p P k C : ℝ} (r : HasRatings B.cool a.rc.full q Q w p P k C) (hQC : Q = C * P) (hp : p = P + w)
    (hi : a.rc.full < (a.caps false).length) (hQ : 0 < Q) (hP : 0 < P) (hw : ListBuild.fanPower B.fan B.points.aFull = .ok w) :
    ∃ q' p', (B.unit E T).netTotalCoolingCapacity (some B.points.aFull) = .ok q' ∧ (B.unit E T).netCoolingPower (some B.points.aFull) = .ok p' ∧ |q' - q| ≤ 2 / 10 ^ 6 * Q ∧ |p' - p| ≤ 5 / 10 ^ 6 * P := by
  obtain ⟨qc, pr, gc, gh, s⟩ := build_steps h
  obtain ⟨pA, -, -, -⟩ := Build.full_points s.points
  have ht : toF (defaultOutdoor E false).db = (95 : ℝ) := by simp [defaultOutdoor, wetState, Psych.blank, toF_frF]
  obtain ⟨e1, e2⟩ := C111_cooling (T := T) h hd r hQC hQ hP (o := defaultOutdoor E false) (by rw [ht]; norm_num) pA hw
  rw [ht, show max (75 : ℝ) 95 = 95 by norm_num] at e1 e2
  obtain ⟨c1, c2, -⟩ := C74_rated (K := ℝ)
  obtain ⟨-, -, -, hg, -⟩ := C110_construct h false
  obtain ⟨q0, w0, g1, g2, g3⟩ := hg _ hi
  obtain ⟨-, hn, -⟩ := s.copsSet false
  simp only [Built.side, Bool.false_eq_true, if_false] at g2 g3 hn
  have := r.netCap; rw [hn, g1] at this; cases this
  have := r.fan; rw [g2] at this; cases this
  have := r.grossCap; rw [g3] at this; cases this
  refine ⟨_, _, e1, e2, ?_, ?_⟩
  · rw [show (q + w) * coolCapT 67 95 - w - q = (q + w) * (coolCapT 67 95 - 1) by ring, abs_mul, abs_of_pos hQ, mul_comm]
    exact mul_le_mul_of_nonneg_right c1 hQ.le
  · rw [hp, show P * (coolEirT 67 95 * coolCapT 67 95) + w - (P + w) = P * (coolEirT 67 95 * coolCapT 67 95 - 1) by ring, abs_mul, abs_of_pos hP, mul_comm]
    refine mul_le_mul_of_nonneg_right ((two_factors c1 c2 (by norm_num)).trans (by norm_num)) hP.le

/-- C111, H1 test: likewise in heating. -/
theorem C111_rated_heating (h : ListBuild.build u E T brentq a = .ok B) (hd : a.chargeDeviation = 0) {q Q w p P k C : ℝ} (r : HasRatings B.heat a.rh.full q Q w p P k C) (hQC : Q = C * P) (hp : p = P + w)
    (hi : a.rh.full < (a.caps true).length) (hQ : 0 < Q) (hP : 0 < P) (hw : ListBuild.fanPower B.fan B.points.h1Full = .ok w) :
    ∃ q' p', (B.unit E T).netSteadyHeatingCapacity (some B.points.h1Full) = .ok q' ∧ (B.unit E T).netSteadyHeatingPower (some B.points.h1Full) = .ok p' ∧ |q' - q| ≤ 2 / 10 ^ 6 * Q ∧ |p' - p| ≤ 5 / 10 ^ 6 * P := by
  obtain ⟨qc, pr, gc, gh, s⟩ := build_steps h
  obtain ⟨-, -, pH, -⟩ := Build.full_points s.points
  have ht : toF (defaultOutdoor E true).db = (47 : ℝ) := by simp [defaultOutdoor, wetState, Psych.blank, toF_frF]
  have hC : C ≠ 0 := by rintro rfl; rw [zero_mul] at hQC; exact hQ.ne' hQC
  obtain ⟨e1, e2, -, -⟩ := C111_heating (T := T) h hd r hQC hC (o := defaultOutdoor E true) pH hw rfl
  rw [ht] at e1 e2
  obtain ⟨-, -, -, -, c1, c2, -⟩ := C74_rated (K := ℝ)
  obtain ⟨-, -, -, hg, -⟩ := C110_construct h true
  obtain ⟨q0, w0, g1, g2, g3⟩ := hg _ hi
  obtain ⟨-, hn, -⟩ := s.copsSet true
  simp only [Built.side, if_true] at g2 g3 hn
  have := r.netCap; rw [hn, g1] at this; cases this
  have := r.fan; rw [g2] at this; cases this
  have := r.grossCap; rw [g3] at this; cases this
  refine ⟨_, _, e1, e2, ?_, ?_⟩
  · rw [show (q - w) * heatCapT 70 47 + w - q = (q - w) * (heatCapT 70 47 - 1) by ring, abs_mul, abs_of_pos hQ, mul_comm]
    exact mul_le_mul_of_nonneg_right c1 hQ.le
  · rw [hp, show P * (heatEirT 70 47 * heatCapT 70 47) + w - (P + w) = P * (heatEirT 70 47 * heatCapT 70 47 - 1) by ring, abs_mul, abs_of_pos hP, mul_comm]
    refine mul_le_mul_of_nonneg_right ((two_factors c1 c2 (by norm_num)).trans (by norm_num)) hP.le

/-- C111: the model's own fan runs at its rated power at every rating condition of a speed with a PSC motor, without ducts, away from full load, or in a mode whose first airflow is the design airflow. -/
theorem C111_own_fan (h : ListBuild.build u E T brentq a = .ok B) (hf : a.fan = none) {heating : Bool} {i : Nat} (hi : i < (a.caps heating).length) (hok : SamePower a B heating i)
    {ind out : Option (Psych.PsychState ℝ)} {c : Conditions ℝ} (hc : B.sys.makeCondition E heating i ind out = .ok c) :
    ∃ w, (B.side heating).fanPower[i]? = some (some w) ∧ ListBuild.fanPower B.fan c = .ok w := by
  obtain ⟨qc, p, gc, gh, s⟩ := build_steps h
  obtain ⟨-, -, e3, -⟩ := s.copsSet heating
  rw [e3]
  rw [s.capsLength] at hi
  exact own_cond s hf hi hc hok

/-! ## C112: a supplied fan; SEER and EER -/

/-- C112: with a supplied fan the speeds are those given, the rated airflow and fan power are the fan's at its own operating point, and at a rating condition the fan is asked for its power at the condition's pressure. -/
theorem C112_given_fan (h : ListBuild.build u E T brentq a = .ok B) {f : AnyFan} (hf : a.fan = some f) {heating : Bool} {i : Nat} (hi : i < (a.caps heating).length)
    {ind out : Option (Psych.PsychState ℝ)} {c : Conditions ℝ} (hc : B.sys.makeCondition E heating i ind out = .ok c) :
    ∃ l k p x w, (if heating then a.ratedHeatingFanSpeed else a.ratedCoolingFanSpeed) = some l ∧ l[i]? = some k ∧ f.airflow k none = .ok x ∧ (B.fan.airflow heating)[i]? = some (some x) ∧
      f.power k none = .ok w ∧ (B.side heating).fanPower[i]? = some (some w) ∧ c.flow.esp = some p ∧ ListBuild.fanPower B.fan c = f.power k (some p) := by
  obtain ⟨qc, p, gc, gh, s⟩ := build_steps h
  obtain ⟨-, -, e3, -⟩ := s.copsSet heating
  rw [e3]
  rw [s.capsLength] at hi
  exact given_cond s hf hi hc

/-- C112: EER of any unit and SEER of a single-stage unit in closed form, from the gross rating, the fan powers at the two tests and the published curves. -/
theorem C112_ratings (h : ListBuild.build u E T brentq a = .ok B) (hd : a.chargeDeviation = 0) (hu : u.btuh ≠ 0) {q Q w p P k C wA wB : ℝ} (r : HasRatings B.cool a.rc.full q Q w p P k C)
    (hQC : Q = C * P) (hQ : 0 < Q) (hP : 0 < P) (hwA : ListBuild.fanPower B.fan B.points.aFull = .ok wA) (hwB : ListBuild.fanPower B.fan B.points.bFull = .ok wB) (hA0 : 0 ≤ wA) (hB0 : 0 ≤ wB) :
    B.eer u E T = .ok ((Q * coolCapT 67 95 - wA) / (P * (coolEirT 67 95 * coolCapT 67 95) + wA) / u.btuh) ∧
    (B.st = .single → B.seer u E T = .ok ((1 - B.cdCooling / 2) * ((Q * coolCapT 67 82 - wB) / (P * (coolEirT 67 82 * coolCapT 67 82) + wB)) / u.btuh)) := by
  obtain ⟨qc, pr, gc, gh, s⟩ := build_steps h
  obtain ⟨pA, pB, -, -⟩ := Build.full_points s.points
  have htA : toF (defaultOutdoor E false).db = (95 : ℝ) := by simp [defaultOutdoor, wetState, Psych.blank, toF_frF]
  have htB : toF (wetState E.atm (frF 82) (frF 65)).db = (82 : ℝ) := by simp [wetState, Psych.blank, toF_frF]
  obtain ⟨e1, e2⟩ := C111_cooling (T := T) h hd r hQC hQ hP (o := defaultOutdoor E false) (by rw [htA]; norm_num) pA hwA
  obtain ⟨e3, e4⟩ := C111_cooling (T := T) h hd r hQC hQ hP (o := wetState E.atm (frF 82) (frF 65)) (by rw [htB]; norm_num) pB hwB
  rw [htA, show max (75 : ℝ) 95 = 95 by norm_num] at e1 e2
  rw [htB, show max (75 : ℝ) 82 = 82 by norm_num] at e3 e4
  obtain ⟨a1, a2⟩ := C74_cooling_positive (67 : ℝ) 95 (by norm_num) (by norm_num) (by norm_num) (by norm_num)
  obtain ⟨b1, b2⟩ := C74_cooling_positive (67 : ℝ) 82 (by norm_num) (by norm_num) (by norm_num) (by norm_num)
  have n1 : P * (coolEirT 67 95 * coolCapT 67 95) + wA ≠ 0 := by positivity
  have n2 : P * (coolEirT 67 82 * coolCapT 67 82) + wB ≠ 0 := by positivity
  have ha : (B.unit E T).aFull = B.points.aFull := rfl
  constructor
  · have e1' : (B.unit E T).netTotalCoolingCapacity none = .ok (Q * coolCapT 67 95 - wA) := e1
    have e2' : (B.unit E T).netCoolingPower none = .ok (P * (coolEirT 67 95 * coolCapT 67 95) + wA) := e2
    simp only [ListBuild.Built.eer, DX.Performance.eer, DX.Performance.netTotalCoolingCOP, e1', e2', bind_ok, pdiv_ok n1, pdiv_ok hu]
  · intro hst
    simp only [ListBuild.Built.seer, DX.seer, hst, DX.Performance.netTotalCoolingCOP, e3, e4, bind_ok, pdiv_ok n2, pdiv_ok hu]
    congr 1
    rw [show (0.5 : ℝ) = 1 / 2 by norm_num]
    ring

/-! ## Construction of single-speed units returns -/

theorem comp_one {f : Nat → Py ℝ} {v : ℝ} (h : f 0 = .ok v) : comp 1 f = .ok [some v] := by
  rw [comp_eq_ok]
  refine ⟨rfl, fun i hi => ?_⟩
  obtain rfl : i = 0 := by omega
  exact ⟨v, rfl, h⟩

/-- A gross COP given as a number to a mode with one speed. -/
theorem gross_one (heating : Bool) {x q Q w : ℝ} {pw g : List (Option ℝ)} (hw : pw[0]? = some (some w)) (hg : g[0]? = some (some Q)) (hx : x ≠ 0) (hp : Q / x + w ≠ 0) :
    ∃ s, Nrel.setGrossCop heating (.num x) { Rated.fresh 1 [q] pw with grossCap := g } = .ok s ∧ s.grossCop.length = 1 ∧ HasRatings s 0 q Q w (Q / x + w) (Q / x) (q / (Q / x + w)) x := by
  have hg' : numAt g 0 = .ok Q := numAt_eq_ok.2 hg
  have hw' : numAt pw 0 = .ok w := numAt_eq_ok.2 hw
  have n1 : ∀ y : ℝ, numAt [some y] 0 = .ok y := fun y => rfl
  have n2 : pyGet [q] 0 = .ok q := rfl
  refine ⟨{ n := 1, netCap := [q], fanPower := pw, grossCap := g, grossCop := [some x], grossPower := [some (Q / x)], netPower := [some (Q / x + w)], netCop := [some (q / (Q / x + w))] }, ?_, rfl,
    ⟨rfl, hg, hw, rfl, rfl, rfl, rfl⟩⟩
  have e0 : Nrel.grossCops heating (.num x) { n := 1, netCap := [q], fanPower := pw, grossCap := g, netCop := List.replicate 1 none, netPower := List.replicate 1 none, grossPower := List.replicate 1 none, grossCop := List.replicate 1 none } = .ok [some x] := by
    simp [Nrel.grossCops, pySet, bind_ok, pure_eq_ok]
  simp only [Nrel.setGrossCop, Rated.fresh, e0, bind_ok]
  rw [comp_one (v := Q / x) (by simp only [hg', n1, bind_ok, pdiv_ok hx])]
  simp only [bind_ok]
  rw [comp_one (v := Q / x + w) (by simp only [hw', n1, bind_ok, pure_eq_ok])]
  simp only [bind_ok]
  rw [comp_one (v := q / (Q / x + w)) (by simp only [n2, n1, bind_ok, pdiv_ok hp])]
  simp only [bind_ok, pure_eq_ok]

/-- A net COP, as a number or in a list, given to a mode with one speed. -/
theorem net_one (heating : Bool) {x q Q w : ℝ} {pw g : List (Option ℝ)} (hw : pw[0]? = some (some w)) (hg : g[0]? = some (some Q)) (hx : x ≠ 0) (hp : q / x - w ≠ 0) {input : NumArg ℝ}
    (hi : input = .num x ∨ input = .list [x]) :
    ∃ s, Nrel.setNetCop heating input { Rated.fresh 1 [q] pw with grossCap := g } = .ok s ∧ s.grossCop.length = 1 ∧ HasRatings s 0 q Q w (q / x) (q / x - w) x (Q / (q / x - w)) := by
  have hg' : numAt g 0 = .ok Q := numAt_eq_ok.2 hg
  have hw' : numAt pw 0 = .ok w := numAt_eq_ok.2 hw
  have n1 : ∀ y : ℝ, numAt [some y] 0 = .ok y := fun y => rfl
  have n2 : pyGet [q] 0 = .ok q := rfl
  refine ⟨{ n := 1, netCap := [q], fanPower := pw, grossCap := g, netCop := [some x], netPower := [some (q / x)], grossPower := [some (q / x - w)], grossCop := [some (Q / (q / x - w))] }, ?_, rfl,
    ⟨rfl, hg, hw, rfl, rfl, rfl, rfl⟩⟩
  rcases hi with rfl | rfl
  · have p1 : ∀ y : ℝ, pySet (List.replicate 1 (none : Option ℝ)) 0 (some y) = .ok [some y] := fun y => rfl
    simp only [Nrel.setNetCop, Rated.fresh, p1, bind_ok, n1, n2, pdiv_ok hx, hw', hg', pdiv_ok hp, Nrel.netCopLow, OfNat.one_ne_ofNat, if_false, pure_eq_ok]
  · simp only [Nrel.setNetCop, BaseModel.setNetCop, Rated.fresh, perSpeed, List.map_cons, List.map_nil]
    rw [comp_one (v := q / x) (by simp only [n2, n1, bind_ok, pdiv_ok hx])]
    simp only [bind_ok]
    rw [comp_one (v := q / x - w) (by simp only [hw', n1, bind_ok, pure_eq_ok])]
    simp only [bind_ok]
    rw [comp_one (v := Q / (q / x - w)) (by simp only [hg', n1, bind_ok, pdiv_ok hp])]
    simp only [bind_ok, pure_eq_ok]

/-- The COP given for a mode with one speed: gross or net. -/
inductive OneCop where
  | gross (x : ℝ)
  | net (x : ℝ)

/-- The constructor's two COP arguments give this COP and nothing else. (The gross COP argument has a default, so it must be passed as `None` for a net COP to count: see `C110_default_refuted`.) -/
def OneCop.Given (c : OneCop) (net gross : Option (NumArg ℝ)) : Prop :=
  match c with
  | .gross x => net = none ∧ gross = some (.num x)
  | .net x => (net = some (.num x) ∨ net = some (.list [x])) ∧ gross = none

/-- A positive COP; a net COP leaves room for the fan power. -/
def OneCop.Fits (c : OneCop) : Prop :=
  match c with
  | .gross x => 0 < x
  | .net x => 0 < x ∧ 0.17 * x < 1

/-- The gross power which the COP gives a speed of net capacity `q`, gross capacity `Q` and fan power `w`. -/
noncomputable def OneCop.power (c : OneCop) (q Q w : ℝ) : ℝ :=
  match c with
  | .gross x => Q / x
  | .net x => q / x - w

/-- The ratings of a speed: everything follows from the net capacity, the gross capacity, the fan power and the COP given. -/
noncomputable def OneRatings (c : OneCop) (s : Rated ℝ) (q Q w : ℝ) : Prop :=
  0 < c.power q Q w ∧ HasRatings s 0 q Q w (c.power q Q w + w) (c.power q Q w) (q / (c.power q Q w + w)) (Q / c.power q Q w)

/-- The COP given is the speed's COP. -/
theorem OneRatings.cop {c : OneCop} {s : Rated ℝ} {q Q w : ℝ} (h : OneRatings c s q Q w) (hq : 0 < q) (hQ : 0 < Q) (hc : c.Fits) :
    match c with
    | .gross x => s.grossCop[0]? = some (some x)
    | .net x => s.netCop[0]? = some (some x) := by
  obtain ⟨h0, h⟩ := h
  cases c with
  | gross x =>
    simp only [OneCop.Fits] at hc
    have := h.grossCop
    simp only [OneCop.power] at this ⊢
    rw [this]; congr 2; field_simp
  | net x =>
    simp only [OneCop.Fits] at hc
    have := h.netCop
    simp only [OneCop.power, sub_add_cancel] at this ⊢
    rw [this]; congr 2
    have := hc.1
    field_simp

theorem cop_one (heating : Bool) {c : OneCop} {net gross : Option (NumArg ℝ)} (hc : c.Given net gross) (hf : c.Fits) {q Q w : ℝ} {pw g : List (Option ℝ)} (hw : pw[0]? = some (some w)) (hg : g[0]? = some (some Q))
    (hq : 0 < q) (hQ : 0 < Q) (w0 : 0 ≤ w) (w2 : w ≤ 0.17 * q) :
    ∃ s, (applyOpt (Nrel.setNetCop heating) net { Rated.fresh 1 [q] pw with grossCap := g } >>= applyOpt (Nrel.setGrossCop heating) gross) = .ok s ∧ ¬(net = none ∧ gross = none) ∧ s.grossCop.length = 1 ∧
      OneRatings c s q Q w := by
  cases c with
  | gross x =>
    simp only [OneCop.Given, OneCop.Fits] at hc hf
    obtain ⟨rfl, rfl⟩ := hc
    obtain ⟨s, h1, h2, h3⟩ := gross_one heating (x := x) (q := q) hw hg hf.ne' (by positivity)
    refine ⟨s, ?_, by simp, h2, by simp only [OneCop.power]; positivity, ?_⟩
    · simp only [applyOpt, bind_ok, h1]
    · simp only [OneCop.power]
      rw [show Q / (Q / x) = x by field_simp]; exact h3
  | net x =>
    simp only [OneCop.Given, OneCop.Fits] at hc hf
    obtain ⟨hn, rfl⟩ := hc
    obtain ⟨hx, hx'⟩ := hf
    have hP : 0 < q / x - w := by
      rw [sub_pos, lt_div_iff₀ hx]
      calc w * x ≤ 0.17 * q * x := mul_le_mul_of_nonneg_right w2 hx.le
        _ = q * (0.17 * x) := by ring
        _ < q * 1 := mul_lt_mul_of_pos_left hx' hq
        _ = q := mul_one q
    have e : ∃ i, net = some i ∧ (i = .num x ∨ i = .list [x]) := by
      rcases hn with h | h
      · exact ⟨_, h, .inl rfl⟩
      · exact ⟨_, h, .inr rfl⟩
    obtain ⟨i, rfl, hi⟩ := e
    obtain ⟨s, h1, h2, h3⟩ := net_one heating (x := x) (q := q) hw hg hx.ne' hP.ne' hi
    refine ⟨s, ?_, by simp, h2, hP, ?_⟩
    · simp only [applyOpt, bind_ok, h1]
    · simp only [OneCop.power, sub_add_cancel]
      rw [show q / (q / x) = x by field_simp]; exact h3

/-- The arguments of a single-speed unit: one capacity and one COP for each mode. -/
structure OneSpeed (a : ListBuild.Args) (q h : ℝ) (xc xh : OneCop) : Prop where
  cooling : a.cooling = .list [q]
  heating : a.heating = [h]
  staging : a.staging = none ∨ a.staging = some .single
  full : a.coolingFullSpeed = 0 ∧ a.heatingFullSpeed = 0
  charge : a.chargeDeviation = 0
  coolingCop : xc.Given a.netCoolingCop a.grossCoolingCop ∧ xc.Fits
  heatingCop : xh.Given a.netHeatingCop a.grossHeatingCop ∧ xh.Fits
  pos : 0 < q ∧ 0 < h

/-- The model's own fan at the default airflows, and capacities of the two modes within a factor of √3. -/
structure OwnFan (a : ListBuild.Args) (q h : ℝ) : Prop where
  airflows : a.coolingPerCap = none ∧ a.heatingPerCap = none
  fan : a.fan = none
  sizes : q ^ 2 ≤ 3 * h ^ 2 ∧ h ^ 2 ≤ 3 * q ^ 2

/-- Construction with a given outcome of the fan step. -/
theorem one_made {q h esp w v rh : ℝ} {xc xh : OneCop} {m m' : Option Nat} {F : FanSet} (o : OneSpeed a q h xc xh) (hE : IndoorAir E) (hC : ∀ t, 0 < t → t ≤ 1.2 * q → CoilReturns u E T q t)
    (he : fullFlowPressure u a.ducted a.standard [q] = .ok esp) (hown : ListBuild.setFan u brentq a .single esp [q] = .ok F) (hw : F.coolPower[0]? = some (some w)) (w0 : 0 ≤ w) (w2 : w ≤ 0.17 * q)
    (hv : F.heatPower[0]? = some (some v)) (v0 : 0 ≤ v) (v2 : v ≤ 0.17 * h) (hac : F.coolAirflow[0]? = some (some (q * (400 * u.cfm / u.ton)))) (hah : F.heatAirflow[0]? = some (some rh)) (hr0 : rh ≠ 0)
    (hsc : F.coolSpeed[0]? = some m) (hsh : F.heatSpeed[0]? = some m') :
    ∃ B, ListBuild.build u E T brentq a = .ok B ∧ B.st = .single ∧ B.fan = F ∧
      OneRatings xc B.cool q (q + w) w ∧ OneRatings xh B.heat h (h - v) v := by
  obtain ⟨q0, h0⟩ := o.pos
  have hcf := u.cfm_pos
  have ht := u.ton_pos
  have hr : 0 < 400 * u.cfm / u.ton := by positivity
  have R1 : checkArrayOrder [q] = .ok () := by simp [checkArrayOrder]
  have R2 : checkArrayOrder [h] = .ok () := by simp [checkArrayOrder]
  have nC : a.nC = 1 := by simp [ListBuild.Args.nC, o.cooling, numberOfSpeeds]
  have nH : a.nH = 1 := by simp [ListBuild.Args.nH, o.heating]
  have hst : stagingOf a.nH a.staging = .ok .single := by
    rw [nH]
    rcases o.staging with e | e <;> rw [e] <;> rfl
  have hcl : coolingList a = .ok [q] := by simp [coolingList, o.cooling]
  have hgc : Build.grossList a.nC [q] F.coolPower 1 = .ok [some (q + w)] := by
    rw [nC]
    refine comp_one ?_
    have e : pyGet [q] 0 = .ok q := rfl
    simp only [e, numAt_eq_ok.2 hw, bind_ok, pure_eq_ok, one_mul]
  have hgh : Build.grossList a.nH a.heating F.heatPower (-1) = .ok [some (h - v)] := by
    rw [nH, o.heating]
    refine comp_one ?_
    have e : pyGet [h] 0 = .ok h := rfl
    simp only [e, numAt_eq_ok.2 hv, bind_ok, pure_eq_ok]
    congr 1; ring
  obtain ⟨cr, hcr⟩ : ∃ cr, ListBuild.crankcase u a [q] = .ok cr := by
    unfold ListBuild.crankcase
    cases a.crankcase with
    | some c => exact ⟨c, rfl⟩
    | none =>
      have e : pyGet [q] 0 = .ok q := rfl
      simp only [o.full.1, e, bind_ok, pure_eq_ok]
      exact ⟨_, rfl⟩
  have hrc : a.rc.full = 0 := o.full.1
  have hrh : a.rh.full = 0 := o.full.2
  obtain ⟨S, hS⟩ : ∃ S, S = sysOf a [q] esp F [some (q + w)] [some (h - v)] (List.replicate a.nC none) (List.replicate a.nH none) := ⟨_, rfl⟩
  have CC : ∀ out, ∃ c, Build.RatedCond u E S false 0 q out c := by
    intro out
    obtain ⟨rho, r0, hrho⟩ := hE.2 false
    have hc := Sys.makeCondition_ok E S false 0 none (some out) rho (q * (400 * u.cfm / u.ton)) q (q * (400 * u.cfm / u.ton)) m r0 hE.1 (by positivity) q0.ne' (by positivity)
      hrho (by rw [hS]; rfl) (by rw [hS]; exact hac) (by rw [hS]; exact hac) (by rw [hS]; exact hsc)
    refine ⟨_, hc, rfl, rfl, rfl, ?_, rfl⟩
    simp only [ratedFlow]; congr 1; field_simp
  have CH : ∀ out, ∃ c, S.makeCondition E true 0 none (some out) = .ok c := by
    intro out
    obtain ⟨rho, r0, hrho⟩ := hE.2 true
    exact ⟨_, Sys.makeCondition_ok E S true 0 none (some out) rho rh h rh m' r0 hE.1 hr0 h0.ne' hr0 hrho (by rw [hS]; simp [sysOf, o.heating]) (by rw [hS]; exact hah) (by rw [hS]; exact hah)
      (by rw [hS]; exact hsh)⟩
  obtain ⟨P, hP, G⟩ : ∃ P, Ratings.setRatingConditions E S .single a.rc a.rh = .ok P ∧ Build.RatedCond u E S false 0 q (defaultOutdoor E false) P.aFull := by
    obtain ⟨c1, r1⟩ := CC (defaultOutdoor E false)
    have r1' : S.makeCondition E false 0 = .ok c1 := r1.made
    obtain ⟨c2, r2⟩ := CC (wetState E.atm (frF 82) (frF 65))
    have r2' : Ratings.testAt E S false 0 82 65 = .ok c2 := r2.made
    obtain ⟨c3, r3⟩ := CH (defaultOutdoor E true)
    have r3' : S.makeCondition E true 0 = .ok c3 := r3
    have t : ∀ db wb, ∃ c, Ratings.testAt E S true 0 db wb = .ok c := fun db wb => by
      obtain ⟨c, r⟩ := CH (wetState E.atm (frF db) (frF wb)); exact ⟨c, r⟩
    obtain ⟨c4, r4⟩ := t 35 33
    obtain ⟨c5, r5⟩ := t 17 15
    obtain ⟨c6, r6⟩ := t 5 3
    simp only [Ratings.setRatingConditions, hrc, hrh, r1', r2', r3', r4, r5, r6, bind_ok, if_true, pure_eq_ok]
    exact ⟨_, rfl, r1⟩
  -- the coil
  obtain ⟨d, hd, hdl⟩ : ∃ d, UnitBuild.coilData T (grossShr u, fun c => (ListBuild.performance E T F S P []).grossTotalCoolingCapacity (some c)) a.nC .single a.rc P = .ok d ∧ d.shr.length = 1 := by
    have hwb : (Psych.getWb P.aFull.indoor).1 = .ok (frF (67 : ℝ)) := by rw [G.indoor]; rfl
    have hdb : P.aFull.indoor.db = frF 80 := by rw [G.indoor]; rfl
    have hout : P.aFull.outdoor.db = frF 95 := by rw [G.outdoor]; rfl
    have h400 : 400 * u.cfm / u.ton * u.ton / u.cfm = 400 := by field_simp
    have hshr : grossShr u P.aFull = .ok ratedShr := by
      simp only [grossShr, hwb, bind_ok, G.perCap, pyAttr, h400, hdb, hout]
      exact shrAt_rated
    have hrat : P.aFull.flow.ratio = some 1 := by
      obtain ⟨rho, pr, x, cap, fs, _, _, _, _, _, _, _, _, _, e⟩ := Sys.makeCondition_spec E S false _ _ _ _ G.made
      rw [e]; rfl
    have hQ : S.grossCooling[P.aFull.flow.compressorSpeed]? = some (some (q + w)) := by rw [G.speed, hS]; rfl
    have k1 := C74_cooling_capacity S P.aFull (frF 67) 1 (q + w) hwb hrat hQ
    have f1 : coolCapF (1 : ℝ) = 1 := by unfold coolCapF; norm_num
    have f3 : clip 57 72 (toF (frF (67 : ℝ))) = 67 := by rw [toF_frF]; unfold clip; norm_num
    rw [f1, f3, hout, toF_frF, show max (75 : ℝ) 95 = 95 by norm_num, one_mul] at k1
    obtain ⟨c1, -⟩ := C74_rated (K := ℝ)
    rw [abs_le] at c1
    have t0 : 0 < coolCapT (67 : ℝ) 95 * (q + w) := mul_pos (by linarith [c1.1]) (by linarith)
    have t1 : coolCapT (67 : ℝ) 95 * (q + w) ≤ 1.2 * q := by
      have : coolCapT (67 : ℝ) 95 * (q + w) ≤ (1 + 2 / 10 ^ 6) * (1.17 * q) := mul_le_mul (by linarith [c1.2]) (by linarith) (by linarith) (by norm_num)
      refine this.trans ?_
      rw [← mul_assoc]
      exact mul_le_mul_of_nonneg_right (by norm_num) q0.le
    have htot : (ListBuild.performance E T F S P []).grossTotalCoolingCapacity (some P.aFull) = .ok (coolCapT (67 : ℝ) 95 * (q + w)) := by
      have hch : S.chargeDeviation = 0 := by rw [hS]; exact o.charge
      simp only [DX.Performance.grossTotalCoolingCapacity, ListBuild.performance, Resnet.unit, Resnet.grossTotalCoolingCapacity, Option.getD_some, k1, Nrel.gradingModel, hch, if_true, bind_ok, mul_one,
        Build.limitCheck_zero, if_neg (not_lt.2 t0.le)]
    obtain ⟨r, hrb⟩ := hC _ t0 t1 P.aFull G.indoor G.mass
    have p1 : ∀ y : ℝ, pySet (List.replicate 1 (none : Option ℝ)) 0 (some y) = .ok [some y] := fun y => rfl
    have at1 : Sys.at_ [some ratedShr] 0 = .ok ratedShr := rfl
    refine ⟨⟨[some ratedShr], [some r.1], [some r.2]⟩, ?_, rfl⟩
    simp only [UnitBuild.coilData, UnitBuild.coilStep, hrc, nC, hshr, bind_ok, p1, G.speed, at1, htot, hrb, pure_eq_ok]
  -- the COPs
  have hv3 : 0 < h - v := by linarith
  obtain ⟨sc, hsc', nc, lc, rc⟩ := cop_one false o.coolingCop.1 o.coolingCop.2 (q := q) (Q := q + w) (w := w) (pw := F.coolPower) (g := [some (q + w)]) hw rfl q0 (by linarith) w0 w2
  obtain ⟨sh, hsh', nh, lh, rh'⟩ := cop_one true o.heatingCop.1 o.heatingCop.2 (q := h) (Q := h - v) (w := v) (pw := F.heatPower) (g := [some (h - v)]) hv rfl h0 hv3 v0 v2
  have hcops : ListBuild.cops a { Rated.fresh a.nC [q] F.coolPower with grossCap := [some (q + w)] } { Rated.fresh a.nH a.heating F.heatPower with grossCap := [some (h - v)] } = .ok (sc, sh) := by
    rw [bind_eq_ok] at hsc' hsh'
    obtain ⟨y, y1, y2⟩ := hsc'
    obtain ⟨z, z1, z2⟩ := hsh'
    unfold ListBuild.cops
    rw [if_neg nc, if_neg nh, nC, nH, o.heating, y1, bind_ok, y2, bind_ok, z1, bind_ok, z2, bind_ok, pure_eq_ok]
  have hchk : finalChecks a.nC a.nH [q] d.shr sh.grossCop a.heating = .ok () := by
    simp only [finalChecks, checkArrayLengths, checkArrayLength, nC, nH, o.heating, hdl, lh, List.length_cons, List.length_nil, zero_add, ne_eq, not_true_eq_false, if_false, bind_ok, R1,
      R2]
  have hlow : lowerSpeeds .single [q] = .ok () := by simp [lowerSpeeds]
  rw [hS] at hP hd
  refine ⟨_, by
    simp only [ListBuild.build, hst, hcl, he, hown, hlow, hgc, hgh, hcr, hP, hd, hcops, hchk, bind_ok, pure_eq_ok]
    rfl, rfl, rfl, rc, rh'⟩

/-- C110: such a unit with the model's own fan can be made, whatever its capacities and COPs, with either motor; its ratings are those of the arguments, with a fan power of at most 337.2 W per
ton. -/
theorem C110_single_made {q h : ℝ} {xc xh : OneCop} (o : OneSpeed a q h xc xh) (f : OwnFan a q h) (hton : 2100 ≤ u.ton) (hE : IndoorAir E) (hbr : a.motorPSC = some false → BrentqSpec brentq)
    (hC : ∀ t, 0 < t → t ≤ 1.2 * q → CoilReturns u E T q t) :
    ∃ B w v, ListBuild.build u E T brentq a = .ok B ∧ B.st = .single ∧ 0 < w ∧ w ≤ 337.2 / u.ton * q ∧ 0 < v ∧ v ≤ 337.2 / u.ton * h ∧
      OneRatings xc B.cool q (q + w) w ∧ OneRatings xh B.heat h (h - v) v := by
  obtain ⟨q0, h0⟩ := o.pos
  have hcf := u.cfm_pos
  have ht := u.ton_pos
  have hr : 0 < 400 * u.cfm / u.ton := by positivity
  have hD : 0 < max q h := lt_max_of_lt_left q0
  have hD2 : max q h ^ 2 = max (q ^ 2) (h ^ 2) := by
    rcases le_total q h with l | l
    · rw [max_eq_right l, max_eq_right (pow_le_pow_left₀ q0.le l 2)]
    · rw [max_eq_left l, max_eq_left (pow_le_pow_left₀ h0.le l 2)]
  have R1 : RatedSizes (max q h) [q] := by
    refine ⟨by simpa using q0, fun i j x y _ hx hy => ?_, fun x hx => ?_, fun x hx => ?_⟩
    · cases i <;> cases j <;> simp_all
    · obtain rfl : x = q := by simpa using hx
      rw [hD2]; nlinarith [le_max_left (x ^ 2) (h ^ 2), sq_nonneg x]
    · obtain rfl : q = x := by simpa using hx
      rw [hD2]; exact max_le (by nlinarith [sq_nonneg q]) f.sizes.2
  have R2 : RatedSizes (max q h) [h] := by
    refine ⟨by simpa using h0, fun i j x y _ hx hy => ?_, fun x hx => ?_, fun x hx => ?_⟩
    · cases i <;> cases j <;> simp_all
    · obtain rfl : x = h := by simpa using hx
      rw [hD2]; nlinarith [le_max_right (q ^ 2) (x ^ 2), sq_nonneg x]
    · obtain rfl : h = x := by simpa using hx
      rw [hD2]; exact max_le f.sizes.1 (by nlinarith [sq_nonneg h])
  have nC : a.nC = 1 := by simp [ListBuild.Args.nC, o.cooling, numberOfSpeeds]
  have nH : a.nH = 1 := by simp [ListBuild.Args.nH, o.heating]
  obtain ⟨esp, he, he0, he1⟩ := fullESP_ok u a.ducted a.standard (q := [q]) (by simp)
  set psc := a.motorPSC.getD (defaultMotorPSC .single) with hpsc
  have hbr' : psc = false → BrentqSpec brentq := by
    intro hp
    apply hbr
    cases hm : a.motorPSC with
    | none => rw [hpsc, hm] at hp; simp [defaultMotorPSC] at hp
    | some b => rw [hpsc, hm] at hp; simpa using hp
  obtain ⟨⟨cool, heat, fan⟩, hfan⟩ : ∃ r, ResnetFan.setFan u (motorPower u brentq psc) esp 0 0 (Side.start u 1 [q] none) (Side.start u 1 [h] none) = .ok r := by
    cases hp : psc with
    | true => exact C36_resnet_psc_made u brentq esp 1 1 0 0 (by norm_num) (by norm_num) [q] [h] rfl rfl R1.pos R2.pos
    | false =>
      have b : ∀ {l : List ℝ}, RatedSizes (max q h) l → ∀ z ∈ l, 0 < z ∧ (z / max q h) ^ 2 ≤ 3 := fun R z hz =>
        ⟨R.pos z hz, by rw [div_pow, div_le_iff₀ (by positivity)]; exact R.below z hz⟩
      exact C36_resnet_bpm_made u brentq (hbr' hp) esp 1 1 0 0 [q] [h] q h rfl rfl rfl rfl (b R1) (b R2)
  obtain ⟨ac, ah, A1, A2, A3, A4, M1, M2⟩ := setFan_sets u (motor_local u brentq _) hfan
  have e1 := start_airflow' M1 (i := 0) (c := q) rfl
  have e2 := start_airflow' M2 (i := 0) (c := h) rfl
  obtain ⟨_, _, _, _, _, f1⟩ := A1
  obtain ⟨_, _, _, _, _, f2⟩ := A2
  rw [e1] at f1; cases f1
  rw [e2] at f2; cases f2
  have hmax : max (q * (400 * u.cfm / u.ton)) (h * (400 * u.cfm / u.ton)) = max q h * (400 * u.cfm / u.ton) := (max_mul_of_nonneg _ _ hr.le).symm
  rw [hmax] at A4 M1 M2
  have hgood := setFan_good u (motor_local u brentq _) hfan A4 (mul_pos hD hr)
  obtain ⟨w, hw, w0, w1⟩ := Build.mode_powers (st := .single) hbr' M1 hgood hD R1 he0 he1 (i := 0) (c := q) rfl
  obtain ⟨v, hv, v0, v1⟩ := Build.mode_powers (st := .single) hbr' M2 hgood hD R2 he0 he1 (i := 0) (c := h) rfl
  have hfrac : 337.2 / u.ton ≤ 0.17 := by rw [div_le_iff₀ ht]; linarith
  have w2 : w ≤ 0.17 * q := w1.trans (mul_le_mul_of_nonneg_right hfrac q0.le)
  have v2 : v ≤ 0.17 * h := v1.trans (mul_le_mul_of_nonneg_right hfrac h0.le)
  set F : FanSet := { coolAirflow := cool.airflow, heatAirflow := heat.airflow, coolPower := cool.power, heatPower := heat.power, coolSpeed := cool.ratedFanSpeed.map (·.map Int.toNat)
                      heatSpeed := heat.ratedFanSpeed.map (·.map Int.toNat), power := motorPower u brentq psc fan } with hF
  have hown : ListBuild.setFan u brentq a .single esp [q] = .ok F := by
    simp only [ListBuild.setFan, f.fan, ownFan, o.full.1, o.full.2, f.airflows.1, f.airflows.2, nC, nH, o.heating, ← hpsc, hfan, bind_ok, pure_eq_ok, hF]
  obtain ⟨m, hm⟩ : ∃ m : Nat, cool.ratedFanSpeed[0]? = some (some (m : Int)) := by
    obtain ⟨_, m, _, _, _, h, _⟩ := M1.rated 0 (by rw [M1.caps]; simp [Side.start])
    exact ⟨m, h⟩
  obtain ⟨m', hm'⟩ : ∃ m : Nat, heat.ratedFanSpeed[0]? = some (some (m : Int)) := by
    obtain ⟨_, m, _, _, _, h, _⟩ := M2.rated 0 (by rw [M2.caps]; simp [Side.start])
    exact ⟨m, h⟩
  obtain ⟨B, b1, b2, -, b3, b4⟩ := one_made (F := F) o hE hC he hown hw w0.le w2 hv v0.le v2 e1 e2 (by positivity) (Build.toNat_map hm) (Build.toNat_map hm')
  exact ⟨B, w, v, b1, b2, w0, w1, v0, v1, b3, b4⟩

/-- C110: so can one with a supplied fan that delivers 400 cfm per ton in cooling and anything in heating, using up to 17 % of the capacity. -/
theorem C110_single_made_fan {q h w v x : ℝ} {xc xh : OneCop} {f : AnyFan} {k k' : Nat} {l l' : List Nat} (o : OneSpeed a q h xc xh) (hf : a.fan = some f) (hl : a.ratedCoolingFanSpeed = some (k :: l))
    (hl' : a.ratedHeatingFanSpeed = some (k' :: l')) (hx : f.airflow k none = .ok (q * (400 * u.cfm / u.ton))) (hx' : f.airflow k' none = .ok x) (x0 : x ≠ 0) (hw : f.power k none = .ok w) (hv : f.power k' none = .ok v)
    (w0 : 0 ≤ w) (w2 : w ≤ 0.17 * q) (v0 : 0 ≤ v) (v2 : v ≤ 0.17 * h) (hE : IndoorAir E) (hC : ∀ t, 0 < t → t ≤ 1.2 * q → CoilReturns u E T q t) :
    ∃ B, ListBuild.build u E T brentq a = .ok B ∧ B.st = .single ∧
      OneRatings xc B.cool q (q + w) w ∧ OneRatings xh B.heat h (h - v) v := by
  have nC : a.nC = 1 := by simp [ListBuild.Args.nC, o.cooling, numberOfSpeeds]
  have nH : a.nH = 1 := by simp [ListBuild.Args.nH, o.heating]
  obtain ⟨esp, he, -, -⟩ := fullESP_ok u a.ducted a.standard (q := [q]) (by simp)
  have g : ∀ (k : Nat) (l : List Nat), pyGet (k :: l) 0 = .ok k := fun _ _ => rfl
  have c1 : resnetSupplied f 1 (some (k :: l)) = .ok ([some (q * (400 * u.cfm / u.ton))], [some w]) := by
    unfold resnetSupplied
    rw [comp_one (v := q * (400 * u.cfm / u.ton)) (by simp only [pyNum, g, bind_ok, hx]), bind_ok, comp_one (v := w) (by simp only [pyNum, g, bind_ok, hw])]
    rfl
  have c2 : resnetSupplied f 1 (some (k' :: l')) = .ok ([some x], [some v]) := by
    unfold resnetSupplied
    rw [comp_one (v := x) (by simp only [pyNum, g, bind_ok, hx']), bind_ok, comp_one (v := v) (by simp only [pyNum, g, bind_ok, hv])]
    rfl
  obtain ⟨B, b1, b2, -, b3, b4⟩ := one_made (T := T) (brentq := brentq) (w := w) (v := v) (rh := x) (m := some k) (m' := some k') o hE hC he
    (F := { coolAirflow := [some (q * (400 * u.cfm / u.ton))], heatAirflow := [some x], coolPower := [some w], heatPower := [some v], coolSpeed := (k :: l).map some, heatSpeed := (k' :: l').map some, power := f.power })
    (by simp only [ListBuild.setFan, hf, givenFan, nC, nH, hl, hl', c1, c2, bind_ok, pure_eq_ok, Option.getD_some]) rfl w0 w2 rfl v0 v2 rfl rfl x0 rfl rfl
  exact ⟨B, b1, b2, b3, b4⟩

/-- C112: the ratings of every single-speed unit with a PSC motor (the default) or without ducts, from its arguments and its rated fan power `w` alone: with `Q = q + w` the gross capacity and `P` the gross power that
the given COP implies, the EER is `(Q·capT(95) − w) / (P·eirT(95)·capT(95) + w)` and the SEER the same ratio at 82 °F times `1 − C_D/2`, both in Btu/h per watt. -/
theorem C112_single_unit {q h : ℝ} {xc xh : OneCop} (o : OneSpeed a q h xc xh) (f : OwnFan a q h) (hm : a.motorPSC ≠ some false ∨ a.ducted = false) (hton : 2100 ≤ u.ton) (hE : IndoorAir E)
    (hbr : a.motorPSC = some false → BrentqSpec brentq) (hC : ∀ t, 0 < t → t ≤ 1.2 * q → CoilReturns u E T q t) :
    ∃ B w, ListBuild.build u E T brentq a = .ok B ∧ 0 < w ∧ w ≤ 337.2 / u.ton * q ∧ 0 < xc.power q (q + w) w ∧
      B.eer u E T = .ok (((q + w) * coolCapT 67 95 - w) / (xc.power q (q + w) w * (coolEirT 67 95 * coolCapT 67 95) + w) / u.btuh) ∧
      B.seer u E T = .ok ((1 - Build.cd a.cdCooling / 2) * (((q + w) * coolCapT 67 82 - w) / (xc.power q (q + w) w * (coolEirT 67 82 * coolCapT 67 82) + w)) / u.btuh) := by
  obtain ⟨B, w, v, hb, hst, w0, w1, -, -, ⟨P0, r⟩, -⟩ := C110_single_made (T := T) o f hton hE hbr hC
  obtain ⟨q0, -⟩ := o.pos
  obtain ⟨qc, esp, gc, gh, s⟩ := build_steps hb
  obtain ⟨pA, pB, -, -⟩ := Build.full_points s.points
  have hfull : a.rc.full = 0 := o.full.1
  have hl : 0 < (a.caps false).length := by simp [Args.caps, o.cooling, makeList]
  have hsame : SamePower a B false 0 := by
    rcases hm with e | e
    · left
      rw [hst]
      cases hp : a.motorPSC with
      | none => rfl
      | some b => cases b with
        | true => rfl
        | false => exact absurd hp e
    · right; left
      have h1 := s.pressure
      rw [e] at h1
      simp only [fullFlowPressure, Bool.not_false, if_true, Except.ok.injEq] at h1
      rw [s.sys]
      exact h1.symm
  rw [hfull] at pA pB
  obtain ⟨wA, a1, a2⟩ := C111_own_fan hb f.fan hl hsame pA
  obtain ⟨wB, b1, b2⟩ := C111_own_fan hb f.fan hl hsame pB
  have hw := r.fan
  simp only [Built.side, Bool.false_eq_true, if_false] at a1 b1
  rw [hw] at a1 b1; cases a1; cases b1
  rw [← hfull] at r
  obtain ⟨k1, k2⟩ := C112_ratings (u := u) (T := T) hb o.charge u.btuh_pos.ne' r (div_mul_cancel₀ _ P0.ne').symm (by linarith) P0 a2 b2 w0.le w0.le
  refine ⟨B, w, hb, w0, w1, P0, k1, ?_⟩
  rw [k2 hst, s.cd]

/-- The EER of a speed with net capacity `q` and net COP `k` at the rating condition, up to the rounding of the published curves, if the fan draws its rated power `w`. -/
theorem net_cop_close {q w k : ℝ} (q0 : 0 < q) (k0 : 0 < k) (w0 : 0 < w) (w2 : w ≤ 0.17 * q) (P0 : 0 < q / k - w) :
    |((q + w) * coolCapT 67 95 - w) / ((q / k - w) * (coolEirT 67 95 * coolCapT 67 95) + w) - k| ≤ 1 / 10 ^ 5 * k := by
  obtain ⟨c1, c2, -⟩ := C74_rated (K := ℝ)
  have c3 := two_factors c1 c2 (by norm_num)
  generalize coolCapT (67 : ℝ) 95 = s at *
  generalize coolEirT (67 : ℝ) 95 * s = t at *
  rw [abs_le] at c1 c3
  obtain ⟨p, hp⟩ : ∃ p, p = q / k := ⟨_, rfl⟩
  have hq : q = k * p := by rw [hp]; field_simp
  rw [← hp] at P0 ⊢
  have hD : 0 < (p - w) * t + w := by
    have : 0 < t := by linarith [c3.1]
    positivity
  have hpw : 0 < p := by linarith
  have hD' : p * (1 - 5 / 10 ^ 6) ≤ (p - w) * t + w := by nlinarith [mul_le_mul_of_nonneg_left c3.1 P0.le]
  rw [abs_le]
  have e1 : (q + w) * s - w ≤ k * p * (1 + 2.34 / 10 ^ 6) := by rw [← hq]; nlinarith [mul_le_mul_of_nonneg_left c1.2 (by linarith : 0 ≤ q + w)]
  have e2 : k * p * (1 - 2.34 / 10 ^ 6) ≤ (q + w) * s - w := by rw [← hq]; nlinarith [mul_le_mul_of_nonneg_left c1.1 (by linarith : 0 ≤ q + w)]
  have e3 : (p - w) * t + w ≤ p * (1 + 5 / 10 ^ 6) := by nlinarith [mul_le_mul_of_nonneg_left c3.2 P0.le]
  have hkp : 0 < k * p := by positivity
  constructor
  · rw [le_sub_iff_add_le, le_div_iff₀ hD]
    have : (-(1 / 10 ^ 5 * k) + k) * ((p - w) * t + w) ≤ (1 - 1 / 10 ^ 5) * k * (p * (1 + 5 / 10 ^ 6)) := by
      rw [show -(1 / 10 ^ 5 * k) + k = (1 - 1 / 10 ^ 5) * k by ring]
      exact mul_le_mul_of_nonneg_left e3 (by positivity)
    nlinarith
  · rw [sub_le_iff_le_add, div_le_iff₀ hD]
    have : (1 + 1 / 10 ^ 5) * k * (p * (1 - 5 / 10 ^ 6)) ≤ (1 / 10 ^ 5 * k + k) * ((p - w) * t + w) := by
      rw [show 1 / 10 ^ 5 * k + k = (1 + 1 / 10 ^ 5) * k by ring]
      exact mul_le_mul_of_nonneg_left hD' (by positivity)
    nlinarith

/-- C112: a single-speed unit given a net cooling COP `k` has the EER `k` (in Btu/h per watt) to within 10⁻⁵ of itself, whatever its capacities; only the rounding of the published curves is left. -/
theorem C112_net_cop {q h k : ℝ} {xh : OneCop} (o : OneSpeed a q h (.net k) xh) (f : OwnFan a q h) (hm : a.motorPSC ≠ some false ∨ a.ducted = false) (hton : 2100 ≤ u.ton) (hE : IndoorAir E)
    (hbr : a.motorPSC = some false → BrentqSpec brentq) (hC : ∀ t, 0 < t → t ≤ 1.2 * q → CoilReturns u E T q t) :
    ∃ B x, ListBuild.build u E T brentq a = .ok B ∧ B.eer u E T = .ok (x / u.btuh) ∧ |x - k| ≤ 1 / 10 ^ 5 * k := by
  obtain ⟨B, w, hb, w0, w1, P0, he, -⟩ := C112_single_unit o f hm hton hE hbr hC
  obtain ⟨q0, -⟩ := o.pos
  obtain ⟨k0, -⟩ := o.coolingCop.2
  refine ⟨B, _, hb, he, ?_⟩
  have ht := u.ton_pos
  have w2 : w ≤ 0.17 * q := w1.trans (mul_le_mul_of_nonneg_right (by rw [div_le_iff₀ ht]; linarith) q0.le)
  exact net_cop_close q0 k0 w0 w2 P0

/-! ## Examples -/

/-- The packaged terminal heat pump of examples/pthp-equivalence.py, in W: no ducts, one capacity and one net COP for each mode, no gross COP. -/
noncomputable def pthpArgs : ListBuild.Args :=
  { cooling := .list [2637], heating := [2344], ducted := false, standard := .ahri2017, defrost := Sample.oneArgs.defrost, netCoolingCop := some (.list [3.5]), netHeatingCop := some (.list [3.4])
    grossCoolingCop := none, grossHeatingCop := none }

theorem pthp_one : OneSpeed pthpArgs 2637 2344 (.net 3.5) (.net 3.4) :=
  ⟨rfl, rfl, .inl rfl, ⟨rfl, rfl⟩, rfl, ⟨⟨.inr rfl, rfl⟩, by simp only [OneCop.Fits]; norm_num⟩, ⟨⟨.inr rfl, rfl⟩, by simp only [OneCop.Fits]; norm_num⟩, by norm_num⟩

theorem pthp_own : OwnFan pthpArgs 2637 2344 := ⟨⟨rfl, rfl⟩, rfl, by norm_num⟩

/-- The hypotheses of C110–C112 can be met: the terminal heat pump is made and has an EER and a SEER. -/
example (brentq : Brentq) : ∃ B x y, ListBuild.build Sample.units Sample.env Sample.tools brentq pthpArgs = .ok B ∧ B.eer Sample.units Sample.env Sample.tools = .ok x ∧
    B.seer Sample.units Sample.env Sample.tools = .ok y := by
  obtain ⟨B, w, h1, -, -, -, h2, h3⟩ := C112_single_unit (u := Sample.units) (T := Sample.tools) (brentq := brentq) pthp_one pthp_own (.inr rfl) (by norm_num [Sample.units]) Sample.indoorAir (by simp [pthpArgs])
    (fun t h1 h2 => Sample.coilReturns' (by norm_num) h1 h2)
  exact ⟨B, _, _, h1, h2, h3⟩

/-- Its EER is its net COP. -/
example (brentq : Brentq) : ∃ B x, ListBuild.build Sample.units Sample.env Sample.tools brentq pthpArgs = .ok B ∧ B.eer Sample.units Sample.env Sample.tools = .ok (x / Sample.units.btuh) ∧
    |x - 3.5| ≤ 1 / 10 ^ 5 * 3.5 :=
  C112_net_cop (u := Sample.units) (T := Sample.tools) (brentq := brentq) pthp_one pthp_own (.inr rfl) (by norm_num [Sample.units]) Sample.indoorAir (by simp [pthpArgs])
    (fun t h1 h2 => Sample.coilReturns' (by norm_num) h1 h2)

/-- A fan that ignores the pressure. -/
noncomputable def plainFan : AnyFan := ⟨fun _ _ => .ok (2637 * (400 * Sample.units.cfm / Sample.units.ton)), fun _ _ => .ok 100⟩

/-- The same with the default gross COPs and a supplied fan. -/
noncomputable def pthpFanArgs : ListBuild.Args :=
  { cooling := .list [2637], heating := [2344], ducted := false, standard := .ahri2017, defrost := Sample.oneArgs.defrost, fan := some plainFan, ratedCoolingFanSpeed := some [0], ratedHeatingFanSpeed := some [0] }

/-- The hypotheses of `C112_given_fan` can be met: a unit with a supplied fan is made, and has an A test. -/
example (brentq : Brentq) : ∃ B, ListBuild.build Sample.units Sample.env Sample.tools brentq pthpFanArgs = .ok B ∧ pthpFanArgs.fan = some plainFan ∧ 0 < (pthpFanArgs.caps false).length ∧
    B.sys.makeCondition Sample.env false 0 none (some (defaultOutdoor Sample.env false)) = .ok B.points.aFull := by
  have x0 : (2637 * (400 * Sample.units.cfm / Sample.units.ton)) ≠ 0 := by
    have := Sample.units.cfm_pos
    have := Sample.units.ton_pos
    positivity
  have o : OneSpeed pthpFanArgs 2637 2344 (.gross 3.72) (.gross 3.82) :=
    ⟨rfl, rfl, .inl rfl, ⟨rfl, rfl⟩, rfl, ⟨⟨rfl, rfl⟩, by simp only [OneCop.Fits]; norm_num⟩, ⟨⟨rfl, rfl⟩, by simp only [OneCop.Fits]; norm_num⟩, by norm_num⟩
  obtain ⟨B, hb, -⟩ := C110_single_made_fan (u := Sample.units) (E := Sample.env) (T := Sample.tools) (brentq := brentq) (f := plainFan) (w := 100) (v := 100) (k := 0) (k' := 0) (l := []) (l' := []) o rfl rfl rfl rfl rfl x0 rfl rfl
    (by norm_num) (by norm_num) (by norm_num) (by norm_num) Sample.indoorAir (fun t h1 h2 => Sample.coilReturns' (by norm_num) h1 h2)
  obtain ⟨_, _, _, _, s⟩ := build_steps hb
  obtain ⟨pA, -⟩ := Build.full_points s.points
  exact ⟨B, hb, rfl, by simp [ListBuild.Args.caps, pthpFanArgs, makeList], pA⟩

end Resdx.Props
