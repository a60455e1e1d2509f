import Verif.Props.ListSeason

/-!
# C110: units with any number of speeds made from lists of capacities
-/

set_option linter.unusedSectionVars false
set_option linter.unusedSimpArgs false

namespace Resdx.Props

open Spec BaseModel Tabular ResnetFan Fan ListBuild UnitBuild
open Build (IndoorAir CoilReturns ratedShr shrAt_rated RatedCond fullESP_ok start_airflow' cond_returns power_bound checkArrayOrder_ok)

variable {u : Units ℝ} {E : Env ℝ} {T : Coil.Tools} {brentq : Brentq} {a : ListBuild.Args}

/-- The COPs given for the speeds of a mode: gross or net. -/
inductive ManyCop where
  | gross (l : List ℝ)
  | net (l : List ℝ)

/-- The constructor's two COP arguments give these COPs and nothing else. -/
def ManyCop.Given (c : ManyCop) (net gross : Option (NumArg ℝ)) : Prop :=
  match c with
  | .gross l => net = none ∧ gross = some (.list l)
  | .net l => net = some (.list l) ∧ gross = none

/-- One positive COP for each of `n` speeds; net COPs leave room for the fan power. -/
def ManyCop.Fits (c : ManyCop) (n : Nat) : Prop :=
  match c with
  | .gross l => l.length = n ∧ ∀ x ∈ l, 0 < x
  | .net l => l.length = n ∧ ∀ x ∈ l, 0 < x ∧ 0.17 * x < 1

/-- The gross power of speed `i`, of net capacity `q`, gross capacity `Q` and fan power `w`. -/
noncomputable def ManyCop.power (c : ManyCop) (i : Nat) (q Q w : ℝ) : ℝ :=
  match c with
  | .gross l => Q / l[i]?.getD 0
  | .net l => q / l[i]?.getD 0 - w

/-- The ratings of speed `i`. -/
noncomputable def ManyRatings (c : ManyCop) (s : Rated ℝ) (i : Nat) (q Q w : ℝ) : Prop :=
  0 < c.power i q Q w ∧ HasRatings s i q Q w (c.power i q Q w + w) (c.power i q Q w) (q / (c.power i q Q w + w)) (Q / c.power i q Q w)

/-- The COP given for a speed is its COP. -/
theorem ManyRatings.cop {c : ManyCop} {s : Rated ℝ} {i n : Nat} {q Q w : ℝ} (h : ManyRatings c s i q Q w) (hq : 0 < q) (hQ : 0 < Q) (hc : c.Fits n) (hi : i < n) :
    match c with
    | .gross l => s.grossCop[i]? = some (l[i]?)
    | .net l => s.netCop[i]? = some (l[i]?) := by
  obtain ⟨h0, h⟩ := h
  cases c with
  | gross l =>
    obtain ⟨e, hx⟩ := hc
    have hl : l[i]? = some (l[i]'(by omega)) := List.getElem?_eq_getElem _
    have := h.grossCop
    simp only [ManyCop.power, hl, Option.getD_some] at this ⊢
    have := hx _ (List.getElem_mem (by omega : i < l.length))
    rw [‹s.grossCop[i]? = _›]; congr 2; field_simp
  | net l =>
    obtain ⟨e, hx⟩ := hc
    have hl : l[i]? = some (l[i]'(by omega)) := List.getElem?_eq_getElem _
    have := h.netCop
    simp only [ManyCop.power, hl, Option.getD_some, sub_add_cancel] at this ⊢
    have := (hx _ (List.getElem_mem (by omega : i < l.length))).1
    rw [‹s.netCop[i]? = _›]; congr 2; field_simp

theorem comp_total {n : Nat} {f : Nat → Py ℝ} (h : ∀ i < n, ∃ v, f i = .ok v) : ∃ l, comp n f = .ok l ∧ l.length = n ∧ ∀ i < n, ∀ v, f i = .ok v → l[i]? = some (some v) := by
  obtain ⟨l, hc⟩ := comp_isOk h
  have := comp_eq_ok.1 hc
  refine ⟨_, hc, this.1, fun i hi v hv => ?_⟩
  obtain ⟨x, h1, h2⟩ := this.2 i hi
  rw [hv] at h2; cases h2
  exact h1

/-- Setting the COPs of a mode returns, with the ratings of every speed. -/
theorem cop_many (heating : Bool) {c : ManyCop} {net gross : Option (NumArg ℝ)} {q : List ℝ} (hc : c.Given net gross) (hf : c.Fits q.length) {pw g : List (Option ℝ)} {sign : ℝ} (hsign : sign = 1 ∨ sign = -1)
    (hq : ∀ x ∈ q, 0 < x) (hw : ∀ (i : Nat) (x : ℝ), q[i]? = some x → ∃ w, pw[i]? = some (some w) ∧ 0 ≤ w ∧ w ≤ 0.17 * x ∧ g[i]? = some (some (x + sign * w))) :
    ∃ s, (applyOpt (Nrel.setNetCop heating) net { Rated.fresh q.length q pw with grossCap := g } >>= applyOpt (Nrel.setGrossCop heating) gross) = .ok s ∧ ¬(net = none ∧ gross = none) ∧
      s.grossCop.length = q.length ∧ ∀ (i : Nat) (x w : ℝ), q[i]? = some x → pw[i]? = some (some w) → ManyRatings c s i x (x + sign * w) w := by
  have data : ∀ i < q.length, ∃ x w, q[i]? = some x ∧ pw[i]? = some (some w) ∧ 0 < x ∧ 0 ≤ w ∧ w ≤ 0.17 * x ∧ g[i]? = some (some (x + sign * w)) ∧ 0 < x + sign * w := by
    intro i hi
    have e : q[i]? = some (q[i]'hi) := List.getElem?_eq_getElem hi
    obtain ⟨w, w1, w2, w3, w4⟩ := hw i _ e
    have x0 := hq _ (List.getElem_mem hi)
    exact ⟨_, w, e, w1, x0, w2, w3, w4, by rcases hsign with rfl | rfl <;> linarith⟩
  cases c with
  | gross l =>
    obtain ⟨rfl, rfl⟩ := hc
    obtain ⟨hl, hl0⟩ := hf
    have hli : ∀ i < q.length, l[i]? = some (l[i]?.getD 0) ∧ 0 < l[i]?.getD 0 := by
      intro i hi
      have e : l[i]? = some (l[i]'(by omega)) := List.getElem?_eq_getElem _
      rw [e]
      exact ⟨rfl, hl0 _ (List.getElem_mem _)⟩
    have hln : ∀ i < q.length, numAt (l.map some) i = .ok (l[i]?.getD 0) := fun i hi => by
      rw [numAt_eq_ok, List.getElem?_map, (hli i hi).1]; rfl
    obtain ⟨gp, g1, g2, g3⟩ := comp_total (n := q.length) (f := fun i => do pdiv (← numAt g i) (← numAt (l.map some) i)) (fun i hi => by
      obtain ⟨x, w, -, -, -, -, -, e, -⟩ := data i hi
      simp only [numAt_eq_ok.2 e, hln i hi, bind_ok, pdiv_ok (hli i hi).2.ne']
      exact ⟨_, rfl⟩)
    have gpi : ∀ i < q.length, ∀ x w, q[i]? = some x → pw[i]? = some (some w) → gp[i]? = some (some ((x + sign * w) / l[i]?.getD 0)) := by
      intro i hi x w h1 h2
      obtain ⟨x', w', e1, e2, -, -, -, e, -⟩ := data i hi
      rw [h1] at e1; cases e1
      rw [h2] at e2; cases e2
      exact g3 i hi _ (by simp only [numAt_eq_ok.2 e, hln i hi, bind_ok, pdiv_ok (hli i hi).2.ne'])
    obtain ⟨np, n1, n2, n3⟩ := comp_total (n := q.length) (f := fun i => do return (← numAt gp i) + (← numAt pw i)) (fun i hi => by
      obtain ⟨x, w, e1, e2, -⟩ := data i hi
      simp only [numAt_eq_ok.2 (gpi i hi x w e1 e2), numAt_eq_ok.2 e2, bind_ok, pure_eq_ok]
      exact ⟨_, rfl⟩)
    have npi : ∀ i < q.length, ∀ x w, q[i]? = some x → pw[i]? = some (some w) → np[i]? = some (some ((x + sign * w) / l[i]?.getD 0 + w)) := by
      intro i hi x w h1 h2
      exact n3 i hi _ (by simp only [numAt_eq_ok.2 (gpi i hi x w h1 h2), numAt_eq_ok.2 h2, bind_ok, pure_eq_ok])
    have npos : ∀ i < q.length, ∀ x w, q[i]? = some x → pw[i]? = some (some w) → 0 < (x + sign * w) / l[i]?.getD 0 ∧ (x + sign * w) / l[i]?.getD 0 + w ≠ 0 := by
      intro i hi x w h1 h2
      obtain ⟨x', w', e1, e2, -, w0, -, e, Q0⟩ := data i hi
      rw [h1] at e1; cases e1
      rw [h2] at e2; cases e2
      have := (hli i hi).2
      have : 0 < (x + sign * w) / l[i]?.getD 0 := by positivity
      exact ⟨this, by positivity⟩
    obtain ⟨nc, c1, c2, c3⟩ := comp_total (n := q.length) (f := fun i => do pdiv (← pyGet q i) (← numAt np i)) (fun i hi => by
      obtain ⟨x, w, e1, e2, -⟩ := data i hi
      simp only [pyGet_eq_ok.2 e1, numAt_eq_ok.2 (npi i hi x w e1 e2), bind_ok, pdiv_ok (npos i hi x w e1 e2).2]
      exact ⟨_, rfl⟩)
    refine ⟨{ n := q.length, netCap := q, fanPower := pw, grossCap := g, grossCop := l.map some, grossPower := gp, netPower := np, netCop := nc }, ?_, by simp, by simpa using hl, ?_⟩
    · simp only [pure_eq_ok] at n1
      simp only [applyOpt, bind_ok, Nrel.setGrossCop, Nrel.grossCops, Rated.fresh, g1, n1, c1, pure_eq_ok]
    · intro i x w h1 h2
      have hi : i < q.length := (List.getElem?_eq_some_iff.1 h1).1
      obtain ⟨x', w', e1, e2, -, w0, -, e, Q0⟩ := data i hi
      rw [h1] at e1; cases e1
      rw [h2] at e2; cases e2
      have hp := npos i hi x w h1 h2
      refine ⟨hp.1, h1, e, h2, npi i hi x w h1 h2, gpi i hi x w h1 h2, c3 i hi _ (by simp only [pyGet_eq_ok.2 h1, numAt_eq_ok.2 (npi i hi x w h1 h2), bind_ok, pdiv_ok hp.2]; rfl), ?_⟩
      have := (hli i hi).2
      simp only [ManyCop.power]
      rw [List.getElem?_map, (hli i hi).1, show (x + sign * w) / ((x + sign * w) / (some (l[i]?.getD 0)).getD 0) = l[i]?.getD 0 by simp only [Option.getD_some]; field_simp]
      rfl
  | net l =>
    obtain ⟨rfl, rfl⟩ := hc
    obtain ⟨hl, hl0⟩ := hf
    have hli : ∀ i < q.length, l[i]? = some (l[i]?.getD 0) ∧ 0 < l[i]?.getD 0 ∧ 0.17 * l[i]?.getD 0 < 1 := by
      intro i hi
      have e : l[i]? = some (l[i]'(by omega)) := List.getElem?_eq_getElem _
      rw [e]
      exact ⟨rfl, hl0 _ (List.getElem_mem _)⟩
    have hln : ∀ i < q.length, numAt (l.map some) i = .ok (l[i]?.getD 0) := fun i hi => by
      rw [numAt_eq_ok, List.getElem?_map, (hli i hi).1]; rfl
    obtain ⟨np, n1, n2, n3⟩ := comp_total (n := q.length) (f := fun i => do pdiv (← pyGet q i) (← numAt (l.map some) i)) (fun i hi => by
      obtain ⟨x, w, e, -⟩ := data i hi
      simp only [pyGet_eq_ok.2 e, hln i hi, bind_ok, pdiv_ok (hli i hi).2.1.ne']
      exact ⟨_, rfl⟩)
    have npi : ∀ i < q.length, ∀ x, q[i]? = some x → np[i]? = some (some (x / l[i]?.getD 0)) := by
      intro i hi x h1
      exact n3 i hi _ (by simp only [pyGet_eq_ok.2 h1, hln i hi, bind_ok, pdiv_ok (hli i hi).2.1.ne'])
    obtain ⟨gp, g1, g2, g3⟩ := comp_total (n := q.length) (f := fun i => do return (← numAt np i) - (← numAt pw i)) (fun i hi => by
      obtain ⟨x, w, e1, e2, -⟩ := data i hi
      simp only [numAt_eq_ok.2 (npi i hi x e1), numAt_eq_ok.2 e2, bind_ok, pure_eq_ok]
      exact ⟨_, rfl⟩)
    have gpi : ∀ i < q.length, ∀ x w, q[i]? = some x → pw[i]? = some (some w) → gp[i]? = some (some (x / l[i]?.getD 0 - w)) := by
      intro i hi x w h1 h2
      exact g3 i hi _ (by simp only [numAt_eq_ok.2 (npi i hi x h1), numAt_eq_ok.2 h2, bind_ok, pure_eq_ok])
    have gpos : ∀ i < q.length, ∀ x w, q[i]? = some x → pw[i]? = some (some w) → 0 < x / l[i]?.getD 0 - w := by
      intro i hi x w h1 h2
      obtain ⟨x', w', e1, e2, x0, w0, w2, -⟩ := data i hi
      rw [h1] at e1; cases e1
      rw [h2] at e2; cases e2
      obtain ⟨-, k0, k1⟩ := hli i hi
      rw [sub_pos, lt_div_iff₀ k0]
      calc w * l[i]?.getD 0 ≤ 0.17 * x * l[i]?.getD 0 := mul_le_mul_of_nonneg_right w2 k0.le
        _ = x * (0.17 * l[i]?.getD 0) := by ring
        _ < x * 1 := mul_lt_mul_of_pos_left k1 x0
        _ = x := mul_one x
    obtain ⟨gc, c1, c2, c3⟩ := comp_total (n := q.length) (f := fun i => do pdiv (← numAt g i) (← numAt gp i)) (fun i hi => by
      obtain ⟨x, w, e1, e2, -, -, -, e, -⟩ := data i hi
      simp only [numAt_eq_ok.2 e, numAt_eq_ok.2 (gpi i hi x w e1 e2), bind_ok, pdiv_ok (gpos i hi x w e1 e2).ne']
      exact ⟨_, rfl⟩)
    refine ⟨{ n := q.length, netCap := q, fanPower := pw, grossCap := g, netCop := l.map some, netPower := np, grossPower := gp, grossCop := gc }, ?_, by simp, c2, ?_⟩
    · simp only [pure_eq_ok] at g1
      simp only [applyOpt, bind_ok, Nrel.setNetCop, BaseModel.setNetCop, perSpeed, Rated.fresh, n1, g1, c1, pure_eq_ok]
    · intro i x w h1 h2
      have hi : i < q.length := (List.getElem?_eq_some_iff.1 h1).1
      obtain ⟨x', w', e1, e2, x0, w0, -, e, Q0⟩ := data i hi
      rw [h1] at e1; cases e1
      rw [h2] at e2; cases e2
      have hp := gpos i hi x w h1 h2
      refine ⟨hp, h1, e, h2, ?_, gpi i hi x w h1 h2, ?_, c3 i hi _ (by simp only [numAt_eq_ok.2 e, numAt_eq_ok.2 (gpi i hi x w h1 h2), bind_ok, pdiv_ok hp.ne']; rfl)⟩
      · simp only [ManyCop.power, sub_add_cancel]; exact npi i hi x h1
      · have := (hli i hi).2.1
        simp only [ManyCop.power, sub_add_cancel]
        rw [List.getElem?_map, (hli i hi).1, show x / (x / (some (l[i]?.getD 0)).getD 0) = l[i]?.getD 0 by simp only [Option.getD_some]; field_simp]
        rfl

/-- The arguments of a unit with staging `st`: capacities and COPs in lists, as many speeds as the staging needs. -/
structure ManySpeeds (a : ListBuild.Args) (st : Staging) (q h : List ℝ) (xc xh : ManyCop) : Prop where
  cooling : a.cooling = .list q
  heating : a.heating = h
  staging : stagingOf h.length a.staging = .ok st
  full : a.coolingFullSpeed < q.length ∧ a.heatingFullSpeed < h.length
  stages : st ≠ .single → 2 ≤ q.length ∧ 2 ≤ h.length
  between : st = .varSpeed → a.rc.intermediate < q.length ∧ a.rh.intermediate < h.length
  charge : a.chargeDeviation = 0
  coolingCop : xc.Given a.netCoolingCop a.grossCoolingCop ∧ xc.Fits q.length
  heatingCop : xh.Given a.netHeatingCop a.grossHeatingCop ∧ xh.Fits h.length

/-- The model's own fan at the default airflows; capacities in descending order, the first of each mode and all of them within a factor of √3 of the larger full capacity `L` (below it: any). -/
structure ManyOwnFan (a : ListBuild.Args) (q h : List ℝ) (L : ℝ) : Prop where
  airflows : a.coolingPerCap = none ∧ a.heatingPerCap = none
  fan : a.fan = none
  largest : ∃ x y, q[a.coolingFullSpeed]? = some x ∧ h[a.heatingFullSpeed]? = some y ∧ L = max x y
  sizes : RatedSizes L q ∧ RatedSizes L h

/-- The rated fan powers of a mode with any number of speeds. -/
theorem many_powers {n : Nat} {psc : Bool} (hbr : psc = false → BrentqSpec brentq) {fullESP D : ℝ} {fs : Nat} {q : List ℝ} {s : Side} {b : Base}
    (M : ModeSet (ResnetFan.motorPower u brentq psc) fullESP (D * (400 * u.cfm / u.ton)) fs (Side.start u n q none) s b)
    (hb : GoodFan u (D * (400 * u.cfm / u.ton)) b) (hD : 0 < D) (hR : RatedSizes D q) (hp : 0 ≤ fullESP) (hp1 : fullESP ≤ 0.5 * u.inH2O) {i : Nat} {c : ℝ} (hc : q[i]? = some c) :
    ∃ w, s.power[i]? = some (some w) ∧ 0 < w ∧ w ≤ 337.2 / u.ton * c := by
  have hcf := u.cfm_pos
  have ht := u.ton_pos
  have hr : 0 < 400 * u.cfm / u.ton := by positivity
  obtain ⟨hi, -⟩ := List.getElem?_eq_some_iff.1 hc
  have hl0 : 0 < q.length := by omega
  have h0 : q[0]? = some (q[0]'hl0) := List.getElem?_eq_getElem hl0
  have c0 : 0 < c := hR.pos c (List.mem_of_getElem? hc)
  have q0 : (0 : ℝ) < q[0]'hl0 := hR.pos _ (List.getElem_mem _)
  obtain ⟨w, w1, w2, w3⟩ := power_bound hbr hb (mul_pos hD hr) M hp hp1 (i := i) (by rw [M.caps]; exact hi) (start_airflow' M hc) (start_airflow' M h0) (mul_pos c0 hr)
    (mul_le_mul_of_nonneg_right (hR.order 0 i _ _ (Nat.zero_le _) h0 hc) hr.le)
    (by rw [mul_div_mul_right _ _ hr.ne', div_pow, div_le_iff₀ (by positivity)]; exact hR.below c (List.mem_of_getElem? hc))
    (by rw [mul_div_mul_right _ _ hr.ne', div_pow, div_le_iff₀ (by positivity)]; exact hR.above _ h0)
  refine ⟨w, w1, w2, w3.trans (le_of_eq ?_)⟩
  field_simp; norm_num

/-- C110: a unit with any number of speeds described by lists of capacities and COPs can be made, with either motor; the ratings of every speed are those of the arguments, with a fan power of at most 337.2 W per ton. -/
theorem C110_made {st : Staging} {q h : List ℝ} {xc xh : ManyCop} {L : ℝ} (o : ManySpeeds a st q h xc xh) (f : ManyOwnFan a q h L) (hton : 2100 ≤ u.ton) (hE : IndoorAir E)
    (hbr : a.motorPSC.getD (defaultMotorPSC st) = false → BrentqSpec brentq) (hC : ∀ c ∈ q, ∀ t, 0 < t → t ≤ 1.2 * c → CoilReturns u E T c t) :
    ∃ B, ListBuild.build u E T brentq a = .ok B ∧ B.st = st ∧
      (∀ (i : Nat) (c : ℝ), q[i]? = some c → ∃ w, 0 < w ∧ w ≤ 337.2 / u.ton * c ∧ ManyRatings xc B.cool i c (c + w) w) ∧
      (∀ (i : Nat) (c : ℝ), h[i]? = some c → ∃ w, 0 < w ∧ w ≤ 337.2 / u.ton * c ∧ ManyRatings xh B.heat i c (c - w) w) := by
  obtain ⟨Rc, Rh⟩ := f.sizes
  obtain ⟨x, y, hx, hy, hL⟩ := f.largest
  have x0 := Rc.pos x (List.mem_of_getElem? hx)
  have y0 := Rh.pos y (List.mem_of_getElem? hy)
  have hD : 0 < L := by rw [hL]; exact lt_max_of_lt_left x0
  have hcf := u.cfm_pos
  have ht := u.ton_pos
  have hr : 0 < 400 * u.cfm / u.ton := by positivity
  have nC : a.nC = q.length := by simp [ListBuild.Args.nC, o.cooling, numberOfSpeeds]
  have nH : a.nH = h.length := by simp [ListBuild.Args.nH, o.heating]
  have q0 : 0 < q.length := by have := o.full.1; omega
  have hst : stagingOf a.nH a.staging = .ok st := by rw [nH]; exact o.staging
  have hcl : coolingList a = .ok q := by simp [coolingList, o.cooling]
  obtain ⟨esp, he, he0, he1⟩ := fullESP_ok u a.ducted a.standard (q := q) q0
  set psc := a.motorPSC.getD (defaultMotorPSC st) with hpsc
  -- the fan
  obtain ⟨⟨cool, heat, fan⟩, hfan⟩ : ∃ r, ResnetFan.setFan u (motorPower u brentq psc) esp a.coolingFullSpeed a.heatingFullSpeed (Side.start u q.length q none) (Side.start u h.length h none) = .ok r := by
    cases hp : psc with
    | true => exact C36_resnet_psc_made u brentq esp _ _ _ _ o.full.1 o.full.2 q h rfl rfl Rc.pos Rh.pos
    | false =>
      have b : ∀ {l : List ℝ}, RatedSizes L l → ∀ z ∈ l, 0 < z ∧ (z / max x y) ^ 2 ≤ 3 := fun R z hz =>
        ⟨R.pos z hz, by rw [← hL, div_pow, div_le_iff₀ (by positivity)]; exact R.below z hz⟩
      exact C36_resnet_bpm_made u brentq (hbr hp) esp _ _ _ _ q h x y rfl rfl hx hy (b Rc) (b Rh)
  obtain ⟨ac, ah, A1, A2, A3, A4, M1, M2⟩ := setFan_sets u (motor_local u brentq _) hfan
  obtain ⟨_, _, _, _, _, f1⟩ := A1
  obtain ⟨_, _, _, _, _, f2⟩ := A2
  rw [start_airflow' M1 hx] at f1; cases f1
  rw [start_airflow' M2 hy] at f2; cases f2
  have hmax : max (x * (400 * u.cfm / u.ton)) (y * (400 * u.cfm / u.ton)) = L * (400 * u.cfm / u.ton) := by rw [hL]; exact (max_mul_of_nonneg _ _ hr.le).symm
  rw [hmax] at A4 M1 M2
  have hgood := setFan_good u (motor_local u brentq _) hfan A4 (mul_pos hD hr)
  have P1 := fun (i : Nat) (c : ℝ) (hc : q[i]? = some c) => many_powers hbr M1 hgood hD Rc he0 he1 hc
  have P2 := fun (i : Nat) (c : ℝ) (hc : h[i]? = some c) => many_powers hbr M2 hgood hD Rh he0 he1 hc
  have hfrac : 337.2 / u.ton ≤ 0.17 := by rw [div_le_iff₀ ht]; linarith
  set F : FanSet := { coolAirflow := cool.airflow, heatAirflow := heat.airflow, coolPower := cool.power, heatPower := heat.power, coolSpeed := cool.ratedFanSpeed.map (·.map Int.toNat)
                      heatSpeed := heat.ratedFanSpeed.map (·.map Int.toNat), power := motorPower u brentq psc fan } with hF
  have hown : ListBuild.setFan u brentq a st esp q = .ok F := by
    simp only [ListBuild.setFan, f.fan, ownFan, f.airflows.1, f.airflows.2, nC, nH, o.heating, ← hpsc, hfan, bind_ok, pure_eq_ok, hF]
  -- gross capacities
  obtain ⟨gc, hgc⟩ := Build.grossList_returns (n := q.length) (sign := 1) (caps := q) (power := cool.power) rfl (fun i c hc => by obtain ⟨w, hw, -⟩ := P1 i c hc; exact ⟨w, hw⟩)
  obtain ⟨gh, hgh⟩ := Build.grossList_returns (n := h.length) (sign := -1) (caps := h) (power := heat.power) rfl (fun i c hc => by obtain ⟨w, hw, -⟩ := P2 i c hc; exact ⟨w, hw⟩)
  have Gc : ∀ (i : Nat) (c w : ℝ), q[i]? = some c → cool.power[i]? = some (some w) → gc[i]? = some (some (c + 1 * w)) := fun i c w h1 h2 =>
    Build.grossList_get hgc (List.getElem?_eq_some_iff.1 h1).1 h1 h2
  have Gh : ∀ (i : Nat) (c w : ℝ), h[i]? = some c → heat.power[i]? = some (some w) → gh[i]? = some (some (c + -1 * w)) := fun i c w h1 h2 =>
    Build.grossList_get hgh (List.getElem?_eq_some_iff.1 h1).1 h1 h2
  have hlow : lowerSpeeds st q = .ok () := by
    unfold lowerSpeeds
    rw [if_neg]
    rintro ⟨rfl, e⟩
    have := (o.stages (by decide)).1
    omega
  obtain ⟨cr, hcr⟩ : ∃ cr, ListBuild.crankcase u a q = .ok cr := by
    unfold ListBuild.crankcase
    cases a.crankcase with
    | some c => exact ⟨c, rfl⟩
    | none =>
      simp only [pyGet_eq_ok.2 hx, bind_ok, pure_eq_ok]
      exact ⟨_, rfl⟩
  -- the conditions
  obtain ⟨S, hS⟩ : ∃ S, S = sysOf a q esp F gc gh (List.replicate a.nC none) (List.replicate a.nH none) := ⟨_, rfl⟩
  have CC : ∀ (i : Nat), i < q.length → ∀ out, ∃ c x, q[i]? = some x ∧ RatedCond u E S false i x out c := by
    intro i hi out
    obtain ⟨c, hc⟩ := cond_returns (u := u) hE (S := S) (heating := false) M1 Rc.pos (by rw [hS]; rfl) (by rw [hS]; rfl) (by rw [hS]; rfl) (i := i) (x := q[i]'hi) (List.getElem?_eq_getElem _) out
    exact ⟨c, _, List.getElem?_eq_getElem _, hc⟩
  have CH : ∀ (i : Nat), i < h.length → ∀ out, ∃ c, S.makeCondition E true i none (some out) = .ok c := by
    intro i hi out
    obtain ⟨c, hc⟩ := cond_returns (u := u) hE (S := S) (heating := true) M2 Rh.pos (by rw [hS]; simp [sysOf, o.heating]) (by rw [hS]; rfl) (by rw [hS]; rfl) (i := i) (x := h[i]'hi) (List.getElem?_eq_getElem _) out
    exact ⟨c, hc.made⟩
  have CT : ∀ (i : Nat), i < q.length → ∀ db wb, ∃ c, Ratings.testAt E S false i db wb = .ok c := by
    intro i hi db wb
    obtain ⟨c, _, -, hc⟩ := CC i hi (wetState E.atm (frF db) (frF wb))
    exact ⟨c, hc.made⟩
  have CHT : ∀ (i : Nat), i < h.length → ∀ db wb, ∃ c, Ratings.testAt E S true i db wb = .ok c := fun i hi db wb => CH i hi _
  have CD : ∀ (i : Nat), i < q.length → ∃ c x, q[i]? = some x ∧ RatedCond u E S false i x (defaultOutdoor E false) c ∧ S.makeCondition E false i = .ok c := by
    intro i hi
    obtain ⟨c, x, hx, hc⟩ := CC i hi (defaultOutdoor E false)
    exact ⟨c, x, hx, hc, hc.made⟩
  have CHD : ∀ (i : Nat), i < h.length → ∃ c, S.makeCondition E true i = .ok c := fun i hi => CH i hi (defaultOutdoor E true)
  -- a coil step
  have step : ∀ (P : DX.Points (Conditions ℝ)) (i : Nat) (x : ℝ) (c : Conditions ℝ), q[i]? = some x → RatedCond u E S false i x (defaultOutdoor E false) c → ∀ d : Build.CoilData,
      d.shr.length = q.length → d.bf.length = q.length → d.ntu.length = q.length →
      ∃ d', UnitBuild.coilStep T (grossShr u, fun c => (ListBuild.performance E T F S P []).grossTotalCoolingCapacity (some c)) i c d = .ok d' ∧ d'.shr.length = q.length ∧ d'.bf.length = q.length ∧
        d'.ntu.length = q.length := by
    intro P i x c hx G d d1 d2 d3
    have hi : i < q.length := (List.getElem?_eq_some_iff.1 hx).1
    have x0 := Rc.pos x (List.mem_of_getElem? hx)
    obtain ⟨w, hw, w0, w1⟩ := P1 i x hx
    have w2 : w ≤ 0.17 * x := w1.trans (mul_le_mul_of_nonneg_right hfrac x0.le)
    have hwb : (Psych.getWb c.indoor).1 = .ok (frF (67 : ℝ)) := by rw [G.indoor]; rfl
    have hdb : c.indoor.db = frF 80 := by rw [G.indoor]; rfl
    have hout : c.outdoor.db = frF 95 := by rw [G.outdoor]; rfl
    have h400 : 400 * u.cfm / u.ton * u.ton / u.cfm = 400 := by field_simp
    have hshr : grossShr u c = .ok ratedShr := by
      simp only [grossShr, hwb, bind_ok, G.perCap, pyAttr, h400, hdb, hout]
      exact shrAt_rated
    have hrat : c.flow.ratio = some 1 := by
      obtain ⟨rho, pr, x, cap, fs, _, _, _, _, _, _, _, _, _, e⟩ := Sys.makeCondition_spec E S false _ _ _ _ G.made
      rw [e]; rfl
    have hQ : S.grossCooling[c.flow.compressorSpeed]? = some (some (x + 1 * w)) := by rw [G.speed, hS]; exact Gc i x w hx hw
    rw [one_mul] at hQ
    have k1 := C74_cooling_capacity S c (frF 67) 1 (x + w) hwb hrat hQ
    have f1 : coolCapF (1 : ℝ) = 1 := by unfold coolCapF; norm_num
    have f3 : clip 57 72 (toF (frF (67 : ℝ))) = 67 := by rw [toF_frF]; unfold clip; norm_num
    rw [f1, f3, hout, toF_frF, show max (75 : ℝ) 95 = 95 by norm_num, one_mul] at k1
    obtain ⟨c1, -⟩ := C74_rated (K := ℝ)
    rw [abs_le] at c1
    have t0 : 0 < coolCapT (67 : ℝ) 95 * (x + w) := mul_pos (by linarith [c1.1]) (by linarith)
    have t1 : coolCapT (67 : ℝ) 95 * (x + w) ≤ 1.2 * x := by
      have : coolCapT (67 : ℝ) 95 * (x + w) ≤ (1 + 2 / 10 ^ 6) * (1.17 * x) := mul_le_mul (by linarith [c1.2]) (by linarith) (by linarith) (by norm_num)
      refine this.trans ?_
      rw [← mul_assoc]
      exact mul_le_mul_of_nonneg_right (by norm_num) x0.le
    have htot : (ListBuild.performance E T F S P []).grossTotalCoolingCapacity (some c) = .ok (coolCapT (67 : ℝ) 95 * (x + w)) := by
      have hch : S.chargeDeviation = 0 := by rw [hS]; exact o.charge
      simp only [DX.Performance.grossTotalCoolingCapacity, ListBuild.performance, Resnet.unit, Resnet.grossTotalCoolingCapacity, Option.getD_some, k1, Nrel.gradingModel, hch, if_true, bind_ok, mul_one,
        Build.limitCheck_zero, if_neg (not_lt.2 t0.le)]
    obtain ⟨r, hrb⟩ := hC x (List.mem_of_getElem? hx) _ t0 t1 c G.indoor G.mass
    have set : ∀ (l : List (Option ℝ)) (v : ℝ), l.length = q.length → pySet l i (some v) = .ok (l.set i (some v)) := fun l v hl => by
      unfold pySet; rw [if_pos (by omega)]
    have at1 : Sys.at_ (d.shr.set i (some ratedShr)) i = .ok ratedShr := by
      have e : pyGet (d.shr.set i (some ratedShr)) i = .ok (some ratedShr) := pyGet_eq_ok.2 (List.getElem?_set_self (by omega))
      simp only [Sys.at_, e, bind_ok, pyNum]
    refine ⟨_, by simp only [UnitBuild.coilStep, hshr, bind_ok, set _ _ d1, set _ _ d2, set _ _ d3, G.speed, at1, htot, hrb, pure_eq_ok]; rfl, by simpa using d1, by simpa using d2, by simpa using d3⟩
  have hfull : a.rc.full < q.length := o.full.1
  have hfullh : a.rh.full < h.length := o.full.2
  have hb0 : a.rc.boost = none ∨ a.rc.boost = some 0 := by
    simp only [ListBuild.Args.rc, roles]; split
    · exact .inr rfl
    · exact .inl rfl
  have hlc : 2 ≤ q.length → a.rc.low = some (q.length - 1) := fun h2 => by simp only [ListBuild.Args.rc, roles, nC]; rw [if_pos (by omega)]
  have hlh : 2 ≤ h.length → a.rh.low = some (h.length - 1) := fun h2 => by simp only [ListBuild.Args.rh, roles, nH]; rw [if_pos (by omega)]
  let Good (i : Nat) (c : Conditions ℝ) : Prop := ∃ x, q[i]? = some x ∧ RatedCond u E S false i x (defaultOutdoor E false) c
  obtain ⟨P, hP, Pf, Pi, Pb, Pl⟩ : ∃ P, Ratings.setRatingConditions E S st a.rc a.rh = .ok P ∧ Good a.rc.full P.aFull ∧ (st = .varSpeed → ∃ c, P.aInt = some c ∧ Good a.rc.intermediate c) ∧
      (st ≠ .single → a.rc.boost = some 0 → ∃ c, P.aBoost = some c ∧ Good 0 c) ∧ (st ≠ .single → ∃ c, P.aLow = some c ∧ Good (q.length - 1) c) := by
    obtain ⟨c1, q1, r1, r2, r3⟩ := CD _ hfull
    obtain ⟨c2, r4⟩ := CT _ hfull 82 65
    obtain ⟨c3, r5⟩ := CHD _ hfullh
    obtain ⟨c4, r6⟩ := CHT _ hfullh 35 33
    obtain ⟨c5, r7⟩ := CHT _ hfullh 17 15
    obtain ⟨c6, r8⟩ := CHT _ hfullh 5 3
    by_cases hsg : st = .single
    · subst hsg
      simp only [Ratings.setRatingConditions, r3, r4, r5, r6, r7, r8, bind_ok, if_true, pure_eq_ok]
      exact ⟨_, rfl, ⟨q1, r1, r2⟩, by simp, by simp, by simp⟩
    obtain ⟨n1, n2⟩ := o.stages hsg
    have hlow : q.length - 1 < q.length := by omega
    have hlowh : h.length - 1 < h.length := by omega
    obtain ⟨d1, y1, t1, t2, t3⟩ := CD _ hlow
    obtain ⟨d2, t4⟩ := CT _ hlow 82 65
    obtain ⟨d3, t5⟩ := CT _ hlow 67 53.5
    obtain ⟨d4, t6⟩ := CHT _ hlowh 62 56.5
    obtain ⟨d5, t7⟩ := CHD _ hlowh
    obtain ⟨d6, t8⟩ := CHT _ hlowh 35 33
    obtain ⟨d7, t9⟩ := CHT _ hlowh 17 15
    obtain ⟨b1, z1, b3, b4, b2⟩ := CD 0 q0
    by_cases hvs : st = .varSpeed
    · subst hvs
      obtain ⟨m1, m2⟩ := o.between rfl
      obtain ⟨i1, z2, i2, i3, i4⟩ := CD _ m1
      obtain ⟨j1, i5⟩ := CT _ m1 87 69
      obtain ⟨j2, i6⟩ := CHT _ m2 35 33
      rcases hb0 with hb | hb
      · simp only [Ratings.setRatingConditions, Ratings.setRatingConditions.intermediate, Ratings.setRatingConditions.boost, Ratings.setRatingConditions.low, r3, r4, r5, r6, r7, r8, bind_ok,
          reduceCtorEq, if_false, if_true, pure_eq_ok, hlc n1, hlh n2, Ratings.speedIndex, pyNum, hb, i4, i5, i6, t3, t4, t5, t6, t7, t8, t9]
        exact ⟨_, rfl, ⟨q1, r1, r2⟩, fun _ => ⟨_, rfl, z2, i2, i3⟩, by simp, fun _ => ⟨_, rfl, y1, t1, t2⟩⟩
      · simp only [Ratings.setRatingConditions, Ratings.setRatingConditions.intermediate, Ratings.setRatingConditions.boost, Ratings.setRatingConditions.low, r3, r4, r5, r6, r7, r8, bind_ok,
          reduceCtorEq, if_false, if_true, pure_eq_ok, hlc n1, hlh n2, Ratings.speedIndex, pyNum, hb, i4, i5, i6, b2, t3, t4, t5, t6, t7, t8, t9]
        exact ⟨_, rfl, ⟨q1, r1, r2⟩, fun _ => ⟨_, rfl, z2, i2, i3⟩, fun _ _ => ⟨_, rfl, z1, b3, b4⟩, fun _ => ⟨_, rfl, y1, t1, t2⟩⟩
    · rcases hb0 with hb | hb
      · simp only [Ratings.setRatingConditions, Ratings.setRatingConditions.intermediate, Ratings.setRatingConditions.boost, Ratings.setRatingConditions.low, r3, r4, r5, r6, r7, r8, bind_ok,
          if_neg hsg, if_neg hvs, pure_eq_ok, hlc n1, hlh n2, Ratings.speedIndex, pyNum, hb, t3, t4, t5, t6, t7, t8, t9]
        exact ⟨_, rfl, ⟨q1, r1, r2⟩, fun e => absurd e hvs, by simp, fun _ => ⟨_, rfl, y1, t1, t2⟩⟩
      · simp only [Ratings.setRatingConditions, Ratings.setRatingConditions.intermediate, Ratings.setRatingConditions.boost, Ratings.setRatingConditions.low, r3, r4, r5, r6, r7, r8, bind_ok,
          if_neg hsg, if_neg hvs, pure_eq_ok, hlc n1, hlh n2, Ratings.speedIndex, pyNum, hb, b2, t3, t4, t5, t6, t7, t8, t9]
        exact ⟨_, rfl, ⟨q1, r1, r2⟩, fun e => absurd e hvs, fun _ _ => ⟨_, rfl, z1, b3, b4⟩, fun _ => ⟨_, rfl, y1, t1, t2⟩⟩
  -- the coil data
  obtain ⟨coil, hcoil, hlen⟩ : ∃ d, UnitBuild.coilData T (grossShr u, fun c => (ListBuild.performance E T F S P []).grossTotalCoolingCapacity (some c)) a.nC st a.rc P = .ok d ∧ d.shr.length = q.length := by
    rw [nC]
    obtain ⟨q1, r1, r2⟩ := Pf
    obtain ⟨d, D, D1, D2, D3⟩ := step P _ q1 _ r1 r2 ⟨List.replicate q.length none, List.replicate q.length none, List.replicate q.length none⟩ (by simp) (by simp) (by simp)
    cases st with
    | single =>
      simp only [UnitBuild.coilData, D, bind_ok, pure_eq_ok]
      exact ⟨_, rfl, D1⟩
    | two =>
      obtain ⟨c, p1, q2, r3, r4⟩ := Pl (by decide)
      obtain ⟨d', G, G1, G2, G3⟩ := step P _ q2 _ r3 r4 d D1 D2 D3
      simp only [UnitBuild.coilData, UnitBuild.coilData.low, D, bind_ok, pure_eq_ok, hlc (o.stages (by decide)).1, Ratings.speedIndex, pyNum, pyAttr, p1, G]
      exact ⟨_, rfl, G1⟩
    | varSpeed =>
      obtain ⟨c, p1, q2, r3, r4⟩ := Pl (by decide)
      obtain ⟨ci, p2, q3, r5, r6⟩ := Pi rfl
      obtain ⟨d1, H, H1, H2, H3⟩ := step P _ q3 _ r5 r6 d D1 D2 D3
      rcases hb0 with hb | hb
      · obtain ⟨d', G, G1, G2, G3⟩ := step P _ q2 _ r3 r4 d1 H1 H2 H3
        simp only [UnitBuild.coilData, UnitBuild.coilData.low, UnitBuild.coilData.boost, D, bind_ok, pure_eq_ok, hlc (o.stages (by decide)).1, Ratings.speedIndex, pyNum, pyAttr, p1, p2, hb, H, G]
        exact ⟨_, rfl, G1⟩
      · obtain ⟨cb, p3, q4, r7, r8⟩ := Pb (by decide) hb
        obtain ⟨d2, I, I1, I2, I3⟩ := step P _ q4 _ r7 r8 d1 H1 H2 H3
        obtain ⟨d', G, G1, G2, G3⟩ := step P _ q2 _ r3 r4 d2 I1 I2 I3
        simp only [UnitBuild.coilData, UnitBuild.coilData.low, UnitBuild.coilData.boost, D, bind_ok, pure_eq_ok, hlc (o.stages (by decide)).1, Ratings.speedIndex, pyNum, pyAttr, p1, p2, p3, hb, H, I, G]
        exact ⟨_, rfl, G1⟩
  -- the COPs
  obtain ⟨sc, hsc', nc, -, rc⟩ := cop_many false o.coolingCop.1 o.coolingCop.2 (pw := cool.power) (g := gc) (sign := 1) (.inl rfl) Rc.pos (fun i x hx => by
    obtain ⟨w, hw, w0, w1⟩ := P1 i x hx
    exact ⟨w, hw, w0.le, w1.trans (mul_le_mul_of_nonneg_right hfrac (Rc.pos x (List.mem_of_getElem? hx)).le), Gc i x w hx hw⟩)
  obtain ⟨sh, hsh', nh, lh, rh⟩ := cop_many true o.heatingCop.1 o.heatingCop.2 (pw := heat.power) (g := gh) (sign := -1) (.inr rfl) Rh.pos (fun i x hx => by
    obtain ⟨w, hw, w0, w1⟩ := P2 i x hx
    exact ⟨w, hw, w0.le, w1.trans (mul_le_mul_of_nonneg_right hfrac (Rh.pos x (List.mem_of_getElem? hx)).le), Gh i x w hx hw⟩)
  have hcops : ListBuild.cops a { Rated.fresh a.nC q F.coolPower with grossCap := gc } { Rated.fresh a.nH a.heating F.heatPower with grossCap := gh } = .ok (sc, sh) := by
    rw [bind_eq_ok] at hsc' hsh'
    obtain ⟨y, y1, y2⟩ := hsc'
    obtain ⟨z, z1, z2⟩ := hsh'
    unfold ListBuild.cops
    rw [if_neg nc, if_neg nh, nC, nH, o.heating, hF, y1, bind_ok, y2, bind_ok, z1, bind_ok, z2, bind_ok, pure_eq_ok]
  have hchk : finalChecks a.nC a.nH q coil.shr sh.grossCop a.heating = .ok () := by
    simp only [finalChecks, checkArrayLengths, checkArrayLength, nC, nH, o.heating, hlen, lh, ne_eq, not_true_eq_false, if_false, bind_ok, Build.checkArrayOrder_ok Rc, Build.checkArrayOrder_ok Rh]
  have hgc' : Build.grossList a.nC q F.coolPower 1 = .ok gc := by rw [nC]; exact hgc
  have hgh' : Build.grossList a.nH a.heating F.heatPower (-1) = .ok gh := by rw [nH, o.heating]; exact hgh
  rw [hS] at hP hcoil
  refine ⟨_, by
    simp only [ListBuild.build, hst, hcl, he, hown, hlow, hgc', hgh', hcr, hP, hcoil, hcops, hchk, bind_ok, pure_eq_ok]
    rfl, rfl, fun i c hc => ?_, fun i c hc => ?_⟩
  · obtain ⟨w, hw, w0, w1⟩ := P1 i c hc
    refine ⟨w, w0, w1, ?_⟩
    have := rc i c w hc hw
    rwa [one_mul] at this
  · obtain ⟨w, hw, w0, w1⟩ := P2 i c hc
    refine ⟨w, w0, w1, ?_⟩
    have := rh i c w hc hw
    rwa [neg_one_mul, ← sub_eq_add_neg] at this

end Resdx.Props
