import Verif.Props.FanRep

/-! # Properties C68 and C69: rated-speed search and motor power -/

set_option linter.unusedSectionVars false
set_option linter.unusedSimpArgs false

namespace Resdx.Props

open Fan Spec

/-! ## C68 -/

theorem pressureFunction_cases (full : Option (ℝ × ℝ)) (x : ℝ) :
    (pressureFunction full x = .ok (ratedPressure full x) ∧ ∀ p f, full = some (p, f) → f ≠ 0) ∨
    ∃ e, pressureFunction full x = .error e := by
  match full with
  | none => left; exact ⟨rfl, by simp⟩
  | some (p, f) =>
    by_cases hf : f = 0
    · right; exact ⟨.zeroDivision, by simp [pressureFunction, hf, pdiv_zero, bind_error]⟩
    · left
      refine ⟨by simp [pressureFunction, pdiv_ok hf, bind_ok, pure_eq_ok, ratedPressure], ?_⟩
      rintro p' f' h'; cases h'; exact hf

theorem objective_ok {σ : Type} {checkPower : ℝ → Option ℝ → PyM σ ℝ} {full : Option (ℝ × ℝ)} {gross fpc : ℝ} {cooling : Bool}
    {x y : ℝ} {s s' : σ} (h : ratedObjective checkPower full gross fpc cooling x s = (.ok y, s')) :
    ∃ w, checkPower x (ratedPressure full x) s = (.ok w, s') ∧ fpc ≠ 0 ∧
      y = (if cooling then gross - w else gross + w) - x / fpc ∧ (∀ p f, full = some (p, f) → f ≠ 0) := by
  simp only [ratedObjective, PyM.bind_run, PyM.liftM_run, PyM.pure_run] at h
  rcases pressureFunction_cases full x with ⟨hp, hf⟩ | ⟨e, hp⟩
  swap
  · rw [hp] at h; simp at h
  rw [hp] at h
  simp only at h
  cases hc : checkPower x (ratedPressure full x) s with
  | mk res s3 =>
    rw [hc] at h
    cases res with
    | error e => simp at h
    | ok w =>
      simp only at h
      by_cases hfp : fpc = 0
      · rw [hfp, pdiv_zero] at h; simp at h
      · rw [pdiv_ok hfp] at h
        simp only [Prod.mk.injEq, Except.ok.injEq] at h
        obtain ⟨rfl, rfl⟩ := h
        exact ⟨w, rfl, hfp, rfl, hf⟩

theorem search_ok {σ : Type} {add : ℝ → Option ℝ → PyM σ Unit}
    {checkPower : ℝ → Option ℝ → PyM σ ℝ} {newton : (ℝ → PyM σ ℝ) → ℝ → PyM σ ℝ} (hn : NewtonSpec newton)
    {full : Option (ℝ × ℝ)} {gross fpc guess : ℝ} {cooling : Bool} {s s' : σ} {a : ℝ}
    (hcp : ∀ x p w s1, checkPower x p s = (.ok w, s1) → s1 = s)
    (h : ratedSearch add checkPower newton full gross fpc guess cooling s = (.ok a, s')) :
    ∃ w, (∀ p f, full = some (p, f) → f ≠ 0) ∧ fpc ≠ 0 ∧ checkPower a (ratedPressure full a) s = (.ok w, s) ∧
      (if cooling then gross - w else gross + w) = a / fpc ∧ add a (ratedPressure full a) s = (.ok (), s') := by
  simp only [ratedSearch, PyM.bind_run] at h
  split at h
  swap
  · cases h
  rename_i r s1 hnew
  obtain ⟨rfl, hobj⟩ := hn _ _ s s1 r (by
    intro x y s2 hx
    obtain ⟨w, hw, -⟩ := objective_ok hx
    exact hcp _ _ _ _ hw) hnew
  obtain ⟨w, h1, h2, h3, h4⟩ := objective_ok hobj
  simp only [PyM.liftM_run, PyM.pure_run] at h
  rcases pressureFunction_cases full r with ⟨hp, -⟩ | ⟨e, hp⟩
  swap
  · rw [hp] at h; simp at h
  rw [hp] at h
  simp only at h
  cases hadd : add r (ratedPressure full r) s1 with
  | mk res s3 =>
    rw [hadd] at h
    cases res with
    | error e => simp at h
    | ok _ =>
      simp only [Prod.mk.injEq, Except.ok.injEq] at h
      obtain ⟨rfl, rfl⟩ := h
      exact ⟨w, h4, h2, h1, by linarith, hadd⟩

/-- The full-flow rating point used by the search. -/
def FullPoint {σ : Type} (airflow : σ → Int → Option ℝ → Py ℝ) (s : σ) : Option ℝ → Option (ℝ × ℝ) → Prop
  | none, full => full = none
  | some p, full => ∃ f, airflow s 0 (some p) = .ok f ∧ f ≠ 0 ∧ full = some (p, f)

theorem find_ok {σ : Type} {add : ℝ → Option ℝ → PyM σ Unit} {airflow : σ → Int → Option ℝ → Py ℝ}
    {checkPower : ℝ → Option ℝ → PyM σ ℝ} {newton : (ℝ → PyM σ ℝ) → ℝ → PyM σ ℝ} (hn : NewtonSpec newton)
    {gross fpc : ℝ} {guess ratedESP : Option ℝ} {cooling : Bool} {s s' : σ} {a : ℝ}
    (hcp : ∀ x p w s1, checkPower x p s = (.ok w, s1) → s1 = s)
    (h : findRatedFanSpeed add airflow checkPower newton gross fpc guess ratedESP cooling s = (.ok a, s')) :
    ∃ (full : Option (ℝ × ℝ)) (w : ℝ), FullPoint airflow s ratedESP full ∧
      fpc ≠ 0 ∧ checkPower a (ratedPressure full a) s = (.ok w, s) ∧
      (if cooling then gross - w else gross + w) = a / fpc ∧ add a (ratedPressure full a) s = (.ok (), s') := by
  unfold findRatedFanSpeed at h
  cases ratedESP with
  | none =>
    simp only [PyM.bind_run, PyM.get_run] at h
    obtain ⟨w, h1, h2, h3, h4, h5⟩ := search_ok hn hcp h
    exact ⟨none, w, rfl, h2, h3, h4, h5⟩
  | some p =>
    simp only [PyM.bind_run, PyM.get_run, PyM.liftM_run] at h
    cases ha : airflow s 0 (some p) with
    | error e => rw [ha] at h; simp at h
    | ok f =>
      rw [ha] at h
      obtain ⟨w, h1, h2, h3, h4, h5⟩ := search_ok hn hcp h
      exact ⟨some (p, f), w, ⟨f, ha, h1 p f rfl, rfl⟩, h2, h3, h4, h5⟩

/-- C68 for RESNET fans (any efficacy rule): when the search returns, exactly one speed was added, with the returned airflow; and the
gross capacity less (cooling) or plus (heating) the power of that new speed at its rating pressure is exactly the net capacity that
corresponds to the airflow. -/
theorem C68_resnet (power : Base → Int → Option ℝ → Py ℝ) (newton : (ℝ → PyM Base ℝ) → ℝ → PyM Base ℝ) (hn : NewtonSpec newton)
    (gross fpc : ℝ) (guess ratedESP : Option ℝ) (cooling : Bool) (s s' : Base) (hs : AlignedBase s) (a : ℝ)
    (h : findRatedFanSpeed (fun a _ => Base.addSpeed a) resnetAirflow (resnetCheckPower power) newton gross fpc guess ratedESP
      cooling s = (.ok a, s')) :
    s'.airflow = s.airflow ++ [a] ∧ s'.n = s.n + 1 ∧ ∃ full w, FullPoint resnetAirflow s ratedESP full ∧
      power s' s.n (ratedPressure full a) = .ok w ∧ (if cooling then gross - w else gross + w) = a / fpc := by
  obtain ⟨full, w, h1, -, h3, h4, h5⟩ := find_ok hn
    (fun x p w s1 h => ((C15_check_power_returns (Units.ofOnes ℝ) (fun _ _ _ => .ok 0) .baselinePSC x w p).1 power s s1 hs h).1) h
  obtain ⟨-, s1, k1, k2⟩ := (C15_check_power_returns (Units.ofOnes ℝ) (fun _ _ _ => .ok 0) .baselinePSC a w _).1 power s s hs h3
  rw [h5] at k1
  cases k1
  obtain ⟨-, rfl⟩ := Base.addSpeed_ok h5
  exact ⟨rfl, rfl, full, w, h1, k2, h4⟩

/-- C68 for ECM fans. -/
theorem C68_ecm (u : Units ℝ) (brentq : Brentq) (newton : (ℝ → PyM ECM ℝ) → ℝ → PyM ECM ℝ) (hn : NewtonSpec newton)
    (gross fpc : ℝ) (guess ratedESP : Option ℝ) (cooling : Bool) (s s' : ECM) (hs : AlignedECM s) (a : ℝ)
    (h : findRatedFanSpeed (fun a p => ECM.addSpeed a p) (fun s => s.airflow u brentq) (ECM.checkPower u brentq) newton gross fpc guess
      ratedESP cooling s = (.ok a, s')) :
    s'.base.airflow = s.base.airflow ++ [a] ∧ s'.base.n = s.base.n + 1 ∧ ∃ full w,
      FullPoint (fun s : ECM => s.airflow u brentq) s ratedESP full ∧
      s'.power u brentq s.base.n (ratedPressure full a) = .ok w ∧ (if cooling then gross - w else gross + w) = a / fpc := by
  obtain ⟨full, w, h1, -, h3, h4, h5⟩ := find_ok hn
    (fun x p w s1 h => ((C15_check_power_returns u brentq .baselinePSC x w p).2.2.1 s s1 hs h).1) h
  obtain ⟨-, s1, k1, k2⟩ := (C15_check_power_returns u brentq .baselinePSC a w _).2.2.1 s s hs h3
  have hsame : ECM.addSpeed a (ratedPressure full a) s = ECM.addSpeed a none s := rfl
  rw [hsame, k1] at h5
  cases h5
  obtain ⟨b', hb, rfl⟩ := ECM.addSpeed_ok k1
  obtain ⟨-, rfl⟩ := Base.addSpeed_ok hb
  exact ⟨rfl, rfl, full, w, h1, k2, h4⟩

/-- C68 for PSC fans without a rating pressure (the trial speeds and the added speed are then the same). -/
theorem C68_psc_partial (u : Units ℝ) (brentq : Brentq) (newton : (ℝ → PyM PSC ℝ) → ℝ → PyM PSC ℝ) (hn : NewtonSpec newton)
    (gross fpc : ℝ) (guess : Option ℝ) (cooling : Bool) (s s' : PSC) (hs : AlignedPSC s) (a : ℝ)
    (h : findRatedFanSpeed (fun a p => PSC.addSpeed u a p) (fun s => s.airflow u brentq) (PSC.checkPower u brentq) newton gross fpc guess
      none cooling s = (.ok a, s')) :
    s'.base.airflow = s.base.airflow ++ [a] ∧ s'.base.n = s.base.n + 1 ∧ ∃ w,
      s'.power u brentq s.base.n none = .ok w ∧ (if cooling then gross - w else gross + w) = a / fpc := by
  obtain ⟨full, w, h1, -, h3, h4, h5⟩ := find_ok hn
    (fun x p w s1 h => ((C15_check_power_returns u brentq .baselinePSC x w p).2.1 s s1 hs h).1) h
  obtain ⟨-, s1, k1, k2⟩ := (C15_check_power_returns u brentq .baselinePSC a w _).2.1 s s hs h3
  cases h1
  simp only [ratedPressure, Option.map_none] at h5 k2
  rw [k1] at h5
  cases h5
  obtain ⟨b', hb, -, -, rfl⟩ := PSC.addSpeed_ok u k1
  obtain ⟨-, rfl⟩ := Base.addSpeed_ok hb
  exact ⟨rfl, rfl, w, k2, h4⟩

/-- C68 (false of PSC fans with a rating pressure): the speed whose power is tried has a different curve from the speed that is added.
At the rating pressure the trial delivers more air than the added speed whenever that pressure is below the design pressure. -/
theorem C68_psc_trial_differs (u : Units ℝ) (brentq : Brentq) (s s1 s2 : PSC) (hs : PSC.Consistent u s) (a p : ℝ) (ha : 0 ≤ a)
    (hp : p < s.base.designESP) (h1 : PSC.addSpeed u a none s = (.ok (), s1)) (h2 : PSC.addSpeed u a (some p) s = (.ok (), s2)) :
    ∃ q1 q2, s1.airflow u brentq s.base.n (some p) = .ok q1 ∧ s2.airflow u brentq s.base.n (some p) = .ok q2 ∧ q2 = a ∧ q2 < q1 := by
  have hred : PSC.reduction u p < PSC.reduction u s.base.designESP := by
    unfold PSC.reduction
    have := Real.exp_lt_exp.2 (mul_lt_mul_of_pos_right hp (PSC.expCoef_pos u))
    exact mul_lt_mul_of_pos_left (by linarith) (PSC.coef_pos u)
  have key : ∀ (q : Option ℝ) (s' : PSC), PSC.addSpeed u a q s = (.ok (), s') →
      s'.airflow u brentq s.base.n (some p) = .ok (max (PSC.storedAirflow u s a q + s.designReduction - PSC.reduction u p) 0) := by
    intro q s' h
    obtain ⟨b', hb, -, -, rfl⟩ := PSC.addSpeed_ok u h
    have hidx : pyGetI (s.freeAirflow ++ [PSC.storedAirflow u s a q + s.designReduction]) s.base.n =
        .ok (PSC.storedAirflow u s a q + s.designReduction) := by
      rw [hs.1.1.1, pyGetI_natCast, ← hs.1.2.1]; simp
    simp [PSC.airflow, pressureOr, bind_ok, PSC.airflowAt, hidx, pure_eq_ok]
  refine ⟨_, _, key _ _ h1, key _ _ h2, ?_, ?_⟩
  · simp only [PSC.storedAirflow]
    rw [show a - (s.designReduction - PSC.reduction u p) + s.designReduction - PSC.reduction u p = a by ring]
    exact max_eq_left ha
  · simp only [PSC.storedAirflow]
    rw [show a - (s.designReduction - PSC.reduction u p) + s.designReduction - PSC.reduction u p = a by ring, max_eq_left ha,
      hs.2.2.2.2.2.2]
    exact lt_max_of_lt_left (by linarith)

/-- A solver meeting the `newton` contract exists (one that finds a root whenever it can). -/
theorem newtonSpec_satisfiable {σ : Type} : ∃ newton : (ℝ → PyM σ ℝ) → ℝ → PyM σ ℝ, NewtonSpec newton ∧
    ∀ f g s, (∃ r, f r s = (.ok 0, s)) → ∃ r, newton f g s = (.ok r, s) := by
  classical
  refine ⟨fun f _ s => if h : ∃ r, f r s = (.ok 0, s) then (.ok h.choose, s) else (.error .runtime, s), ?_, ?_⟩
  · intro f g s s' r _ h
    by_cases hex : ∃ r, f r s = (.ok 0, s)
    · simp only [dif_pos hex, Prod.mk.injEq, Except.ok.injEq] at h
      obtain ⟨rfl, rfl⟩ := h
      exact ⟨rfl, hex.choose_spec⟩
    · simp [dif_neg hex] at h
  · intro f g s hex
    exact ⟨hex.choose, by simp [dif_pos hex]⟩

/-- C68 is not vacuous: with a fan of first airflow 1 (units of cfm), gross capacity `1 + 0.414` and one unit of flow per unit of net
capacity, the search can return airflow 1. -/
example : ∃ (newton : (ℝ → PyM Base ℝ) → ℝ → PyM Base ℝ) (a : ℝ) (s' : Base), NewtonSpec newton ∧
    findRatedFanSpeed (fun a _ => Base.addSpeed a) resnetAirflow (resnetCheckPower (resnetPSCPower (Units.ofOnes ℝ))) newton 1.414 1
      none none true ⟨1, 1, [1], [1], 1⟩ = (.ok a, s') := by
  obtain ⟨newton, hn, hr⟩ := newtonSpec_satisfiable (σ := Base)
  have hroot : ratedObjective (resnetCheckPower (resnetPSCPower (Units.ofOnes ℝ))) none 1.414 1 true 1 ⟨1, 1, [1], [1], 1⟩ =
      (.ok 0, ⟨1, 1, [1], [1], 1⟩) := by
    simp only [ratedObjective, pressureFunction, PyM.bind_run, PyM.liftM_run, PyM.pure_run]
    rw [C15_resnetPSC_partial (Units.ofOnes ℝ) ⟨1, 1, [1], [1], 1⟩ 1 1 none (by simp [AlignedBase]) rfl one_ne_zero]
    norm_num [pdiv_ok, Units.ofOnes]
  obtain ⟨r, h1⟩ := hr _ (ratedGuess 1.414 1 none) _ ⟨1, hroot⟩
  refine ⟨newton, r, (Base.addSpeed r ⟨1, 1, [1], [1], 1⟩).2, hn, ?_⟩
  simp only [findRatedFanSpeed, ratedSearch, PyM.bind_run, PyM.get_run, PyM.liftM_run, PyM.pure_run, h1, pressureFunction,
    Base.addSpeed_run]
  simp

/-! ## C69 -/

theorem mapM_mem {α β : Type} (f : α → Py β) : ∀ (l : List α) (r : List β), l.mapM f = .ok r → ∀ b ∈ r, ∃ a ∈ l, f a = .ok b := by
  intro l
  induction l with
  | nil => intro r h b hb; simp [List.mapM_nil, pure_eq_ok] at h; subst h; simp at hb
  | cons a l ih =>
    intro r h b hb
    simp only [List.mapM_cons, bind_eq_ok, pure_eq_ok, Except.ok.injEq] at h
    obtain ⟨b', hb', t, ht, rfl⟩ := h
    rcases List.mem_cons.1 hb with rfl | hb
    · exact ⟨a, List.mem_cons_self, hb'⟩
    · obtain ⟨a', h1, h2⟩ := ih t ht b hb
      exact ⟨a', List.mem_cons_of_mem _ h1, h2⟩

theorem pairwise_last {α : Type} {R : α → α → Prop} {l : List α} {a : α} (h : l.Pairwise R) (hr : R a a) (hl : l.getLast? = some a) :
    ∀ x ∈ l, R x a := by
  induction l with
  | nil => simp
  | cons b l ih =>
    intro x hx
    rw [List.pairwise_cons] at h
    cases hl' : l with
    | nil =>
      subst hl'
      simp at hl hx
      subst hl; subst hx; exact hr
    | cons c cs =>
      have hl2 : l.getLast? = some a := by rw [hl'] at hl ⊢; simpa using hl
      rcases List.mem_cons.1 hx with rfl | hx
      · exact h.1 a (List.mem_of_getLast? hl2)
      · exact ih h.2 hl2 x hx

theorem pyGetI_neg_one {α : Type} {l : List α} {a : α} (h : pyGetI l (-1) = .ok a) : l.getLast? = some a := by
  rw [pyGetI_eq_ok] at h
  obtain ⟨k, hk, ha⟩ := h
  rw [pyIdx_eq_ok] at hk
  rw [List.getLast?_eq_getElem?]
  have : k = l.length - 1 := by omega
  rw [← this]; exact ha

/-- Every listed operating point belongs to a setting and a non-negative pressure up to the largest one, and the motor power is that of the
setting with the largest airflow at zero pressure. -/
theorem rep_points {argsort : List ℝ → List Nat} (harg : ∀ l, IsArgsort l (argsort l)) {n : Nat} {designESP : ℝ}
    {airflow power rot : Int → Option ℝ → Py ℝ} {maxPower maxStatic : Int → Py ℝ} {r : Rep}
    (h : fanRep argsort n designESP airflow power rot maxPower maxStatic = .ok r) :
    ∃ (last : Nat) (ms : ℝ), last < n ∧ maxPower last = .ok r.maxPower ∧ maxStatic last = .ok ms ∧
      ∀ pt ∈ r.points, ∃ (i : Nat) (p : ℝ), i < n ∧ power i (some p) = .ok pt.1 ∧ (0 ≤ ms → 0 ≤ p ∧ p ≤ ms) ∧
        ∀ x y, airflow i (some 0) = .ok x → airflow last (some 0) = .ok y → x ≤ y := by
  simp only [fanRep, bind_eq_ok, pure_eq_ok, Except.ok.injEq] at h
  obtain ⟨m, hm, last, hlast, mp, hmp, ms, hms, pts, hpts, nom, hnom, rfl⟩ := h
  obtain ⟨hperm, hpw⟩ := C24_order_map argsort harg airflow n m hm
  have hmem : ∀ i ∈ m, i < n := fun i hi => by simpa using hperm.mem_iff.1 hi
  have hgl := pyGetI_neg_one hlast
  have hlm : last ∈ m := List.mem_of_getLast? hgl
  refine ⟨last, ms, hmem _ hlm, hmp, hms, ?_⟩
  intro pt hpt
  simp only [mapLoop, bind_eq_ok, pure_eq_ok, Except.ok.injEq] at hpts
  obtain ⟨rows, hrows, rfl⟩ := hpts
  obtain ⟨row, hrow, hpt⟩ := List.mem_flatten.1 hpt
  obtain ⟨k, hk, hkr⟩ := mapM_mem _ _ _ hrows row hrow
  simp only [bind_eq_ok, pyGet_eq_ok] at hkr
  obtain ⟨i, hi, hkr⟩ := hkr
  obtain ⟨p, hp, hq⟩ := mapM_mem _ _ _ hkr pt hpt
  simp only [bind_eq_ok, pure_eq_ok, Except.ok.injEq] at hq
  obtain ⟨w, hw, a, ha, v, hv, rfl⟩ := hq
  refine ⟨i, p, hmem i (List.mem_of_getElem? hi), hw, ?_, ?_⟩
  · intro hms0
    simp only [pressureGrid, List.mem_map, List.mem_range] at hp
    obtain ⟨j, hj, rfl⟩ := hp
    have hj0 : (0 : ℝ) ≤ j := Nat.cast_nonneg j
    have hj5 : (j : ℝ) ≤ 5 := by exact_mod_cast (by omega : j ≤ 5)
    constructor
    · positivity
    · rw [div_le_iff₀ (by norm_num)]; nlinarith
  · have := pairwise_last hpw (fun x y hx hy => by rw [hx] at hy; cases hy; exact le_refl _) hgl i (List.mem_of_getElem? hi)
    exact this

/-- C69 for RESNET PSC fans: the motor's maximum power is at least every listed shaft power. -/
theorem C69_resnetPSC (u : Units ℝ) (argsort : List ℝ → List Nat) (harg : ∀ l, IsArgsort l (argsort l)) (b : Base) (a0 : ℝ)
    (h0 : b.airflow[0]? = some a0) (hpos : 0 < a0) (hnn : ∀ a ∈ b.airflow, 0 ≤ a) (rot : Int → Option ℝ → Py ℝ)
    (maxStatic : Int → Py ℝ) (r : Rep)
    (h : fanRep argsort b.airflow.length b.designESP (resnetAirflow b) (resnetPSCPower u b) rot (motorPower (resnetPSCPower u b))
      maxStatic = .ok r) : ∀ pt ∈ r.points, pt.1 ≤ r.maxPower := by
  obtain ⟨last, ms, hl, hmp, -, hpts⟩ := rep_points harg h
  intro pt hpt
  obtain ⟨i, p, hi, hw, -, hle⟩ := hpts pt hpt
  obtain ⟨a, ha⟩ := exists_getElem? hi
  obtain ⟨al, hal⟩ := exists_getElem? hl
  have hle' := hle a al (pyGetI_natCast.2 ha) (pyGetI_natCast.2 hal)
  have hn := hnn a (List.mem_of_getElem? ha)
  obtain ⟨w, w', k1, k2, k3, k4⟩ := C22_psc_power_mono u b i last a0 a al (some p) h0 hpos ha hal hn hle'
  obtain ⟨w0, w0', j1, j2, j3, j4⟩ := C22_psc_power_mono u b last last a0 al al (some 0) h0 hpos hal hal (hn.trans hle') (le_refl _)
  have hsame : resnetPSCPower u b last (some 0) = resnetPSCPower u b last (some p) := rfl
  rw [k1] at hw; cases hw
  simp only [motorPower, bind_eq_ok, pure_eq_ok, Except.ok.injEq] at hmp
  obtain ⟨x, hx, hmp⟩ := hmp
  rw [hsame, k2] at hx; cases hx
  rw [← hmp]
  linarith

/-- C69 for ECM fans with a finite maximum power. -/
theorem C69_ecm_finite (u : Units ℝ) (brentq : Brentq) (argsort : List ℝ → List Nat) (harg : ∀ l, IsArgsort l (argsort l)) (s : ECM)
    (m : ℝ) (hm : s.maxPower = some m) (rot : Int → Option ℝ → Py ℝ) (maxStatic : Int → Py ℝ) (n : Nat) (r : Rep)
    (h : fanRep argsort n s.base.designESP (s.airflow u brentq) (s.power u brentq) rot (s.motorPower u) maxStatic = .ok r) :
    r.maxPower = m ∧ ∀ pt ∈ r.points, pt.1 ≤ r.maxPower := by
  obtain ⟨last, ms, hl, hmp, -, hpts⟩ := rep_points harg h
  simp only [ECM.motorPower, hm, Except.ok.injEq] at hmp
  refine ⟨hmp.symm, fun pt hpt => ?_⟩
  obtain ⟨i, p, hi, hw, -, -⟩ := hpts pt hpt
  rw [← hmp]
  exact C19_power_limit u brentq s i (some p) _ m hw hm

/-- C69 for unlimited ECM fans whose free efficacies follow the ratio squared (every fan built by the constructor, see
`C69_ecm_records`), with non-negative design free efficacy. -/
theorem C69_ecm_unlimited (u : Units ℝ) (brentq : Brentq) (argsort : List ℝ → List Nat) (harg : ∀ l, IsArgsort l (argsort l)) (s : ECM)
    (hm : s.maxPower = none) (a0 F : ℝ) (hpos : 0 < a0) (hF : 0 ≤ F) (hnn : ∀ a ∈ s.base.airflow, 0 ≤ a)
    (hrec : s.freeEfficacy = s.base.airflow.map fun a => F * (a / a0) * (a / a0))
    (rot : Int → Option ℝ → Py ℝ) (r : Rep)
    (h : fanRep argsort s.base.airflow.length s.base.designESP (s.airflow u brentq) (s.power u brentq) rot (s.motorPower u)
      (fun _ => .ok (1.2 * u.inH2O)) = .ok r) :
    ∀ pt ∈ r.points, pt.1 ≤ r.maxPower := by
  have hi0 := u.inH2O_pos
  have hc := u.cfm_pos
  obtain ⟨last, ms, hl, hmp, hms, hpts⟩ := rep_points harg h
  cases hms
  intro pt hpt
  obtain ⟨i, p, hi, hw, hpp, hle⟩ := hpts pt hpt
  obtain ⟨hp0, hp1⟩ := hpp (by positivity)
  obtain ⟨a, ha⟩ := exists_getElem? hi
  obtain ⟨al, hal⟩ := exists_getElem? hl
  have hef : ∀ (i : Nat) a, s.base.airflow[i]? = some a → s.freeEfficacy[i]? = some (F * (a / a0) * (a / a0)) := by
    intro i a ha; rw [hrec, List.getElem?_map, ha]; rfl
  have hle' : a ≤ al := hle a al
    (by simp [ECM.airflow, pressureOr, bind_ok, ECM.airflowAt, pyGetI_natCast.2 ha])
    (by simp [ECM.airflow, pressureOr, bind_ok, ECM.airflowAt, pyGetI_natCast.2 hal])
  have hn := hnn a (List.mem_of_getElem? ha)
  have k1 := (powerAt_eq (u := u) p ha (hef i a ha)).2
  have k2 := (powerAt_eq (u := u) (1.2 * u.inH2O) hal (hef last al hal)).2
  simp only [hm] at k1 k2
  simp only [ECM.power, pressureOr, bind_ok, k1, Except.ok.injEq] at hw
  simp only [ECM.motorPower, hm, k2, bind_ok, pure_eq_ok, Except.ok.injEq] at hmp
  rw [← hmp, ← hw]
  have hS : 0 < ECM.slopeESP u := by unfold ECM.slopeESP; positivity
  have hr : a / a0 ≤ al / a0 := div_le_div_of_nonneg_right hle' hpos.le
  have hr0 : 0 ≤ a / a0 := div_nonneg hn hpos.le
  have e1 : F * (a / a0) * (a / a0) ≤ F * (al / a0) * (al / a0) := by
    have : F * (a / a0) ≤ F * (al / a0) := mul_le_mul_of_nonneg_left hr hF
    exact mul_le_mul this hr hr0 (mul_nonneg hF (hr0.trans hr))
  have e2 : ECM.slopeESP u * p ≤ ECM.slopeESP u * (1.2 * u.inH2O) := mul_le_mul_of_nonneg_left hp1 hS.le
  have e3 : 0 ≤ F * (a / a0) * (a / a0) + ECM.slopeESP u * p := by positivity
  have e4 : a * (F * (a / a0) * (a / a0) + ECM.slopeESP u * p) ≤
      al * (F * (al / a0) * (al / a0) + ECM.slopeESP u * (1.2 * u.inH2O)) :=
    mul_le_mul hle' (by linarith) e3 (hn.trans hle')
  have e5 : 0 ≤ a * (F * (a / a0) * (a / a0) + ECM.slopeESP u * p) := mul_nonneg hn e3
  linarith

/-- The record relation assumed by `C69_ecm_unlimited` holds for every ECM fan after construction and any history keeping the first
speed. -/
theorem C69_ecm_records (u : Units ℝ) (airflows : List ℝ) (p e : ℝ) (m : Option ℝ) (s0 s : ECM)
    (h0 : ECM.init u airflows p e m = .ok s0) (h : FanReach addECM ECM.removeSpeed (notFirst ECM.base) s0 s) :
    ∃ a0, airflows[0]? = some a0 ∧ s.base.airflow[0]? = some a0 ∧
      s.freeEfficacy = s.base.airflow.map fun a => (e - ECM.slopeESP u * p) * (a / a0) * (a / a0) := by
  obtain ⟨a0, e0, hne, hp, hmx, h0⟩ := ecmInit_eq h0
  let P : ECM → Prop := fun s => AlignedECM s ∧ s.designFreeEfficacy = e - ECM.slopeESP u * p ∧
    s.freeEfficacy = s.base.airflow.map (fun a => (e - ECM.slopeESP u * p) * (a / a0) * (a / a0)) ∧ s.base.airflow[0]? = some a0
  have hadd : ∀ (s s' : ECM) a q, P s → ECM.addSpeed a q s = (.ok (), s') → P s' := by
    rintro s s' a q ⟨h1, h2, h3, h4⟩ ha
    have hal := ECM.add_aligned h1 ha
    obtain ⟨b', hb, rfl⟩ := ECM.addSpeed_ok ha
    obtain ⟨-, rfl⟩ := Base.addSpeed_ok hb
    have hhead : s.base.airflow.headD a = a0 := by
      cases hl : s.base.airflow with
      | nil => simp [hl] at h4
      | cons c cs => simpa [hl] using h4
    refine ⟨hal, h2, ?_, append_zero? h4⟩
    simp only [h3, h2, hhead, List.map_append, List.map_cons, List.map_nil]
  have hinit : P s0 := by
    cases hl : airflows with
    | nil => simp [hl] at e0
    | cons a l =>
      obtain rfl : a = a0 := by simpa [hl] using e0
      rw [hl] at h0
      simp only [addAll, PyM.bind_run] at h0
      split at h0
      · rename_i s1 hs1
        have h1 : P s1 := by
          have hal := ECM.add_aligned (by simp [AlignedECM, AlignedBase]) hs1
          obtain ⟨b', hb, rfl⟩ := ECM.addSpeed_ok hs1
          obtain ⟨-, rfl⟩ := Base.addSpeed_ok hb
          exact ⟨hal, rfl, by simp, by simp⟩
        exact addAll_inv (P := P) (fun s s' x hs hx => hadd s s' x none hs hx) l _ _ h1 h0
      · cases h0
  have hfin : P s := by
    refine reach_inv (P := P) hinit (fun s s' x hs hx => hadd s s' x.1 x.2 hs hx) ?_ h
    rintro s i ⟨h1, h2, h3, h4⟩ ha
    rcases pyIdx_cases s.base.airflow.length i with ⟨k, hk, hlt⟩ | hk
    · have hk0 := idx_notFirst hk ha.1 ha.2
      have hal := ECM.remove_aligned (i := i) h1
      rw [ECM.removeSpeed_ok h1 hk] at hal ⊢
      exact ⟨hal, h2, by simp only [h3, eraseIdx_map'], by simpa only [eraseIdx_zero? hk0] using h4⟩
    · rw [ECM.removeSpeed_error hk]; exact ⟨h1, h2, h3, h4⟩
  exact ⟨a0, e0, hfin.2.2.2, hfin.2.2.1⟩

/-- C69 for PSC fans whose free ratios are relative to one positive free airflow. -/
theorem C69_psc (u : Units ℝ) (brentq : Brentq) (argsort : List ℝ → List Nat) (harg : ∀ l, IsArgsort l (argsort l)) (s : PSC)
    (hs : PSC.Consistent u s) (f0 : ℝ) (hpos : 0 < f0) (hrec : s.freeRatio = s.freeAirflow.map (· / f0))
    (he : 0 ≤ s.designEfficacy) (hnn : ∀ f ∈ s.freeAirflow, 0 ≤ f) (rot : Int → Option ℝ → Py ℝ) (r : Rep)
    (h : fanRep argsort s.base.airflow.length s.base.designESP (s.airflow u brentq) (s.power u brentq) rot
      (motorPower (s.power u brentq)) (fun i => pyGetI s.blockPressure i) = .ok r) :
    ∀ pt ∈ r.points, pt.1 ≤ r.maxPower := by
  obtain ⟨hal, h1, h2, h3, h4, h5, h6⟩ := hs
  obtain ⟨last, ms, hl, hmp, hms, hpts⟩ := rep_points harg h
  intro pt hpt
  obtain ⟨i, p, hi, hw, hpp, hle⟩ := hpts pt hpt
  obtain ⟨f, hf⟩ := exists_getElem? (l := s.freeAirflow) (i := i) (by rw [hal.2.1]; exact hi)
  obtain ⟨fl, hfl⟩ := exists_getElem? (l := s.freeAirflow) (i := last) (by rw [hal.2.1]; exact hl)
  have hfn := hnn f (List.mem_of_getElem? hf)
  have hfln := hnn fl (List.mem_of_getElem? hfl)
  have hair : ∀ (i : Nat) f p, s.freeAirflow[i]? = some f → s.airflow u brentq i (some p) = .ok (max (f - PSC.reduction u p) 0) := by
    intro i f p hf
    simp [PSC.airflow, pressureOr, bind_ok, PSC.airflowAt, pyGetI_natCast.2 hf, pure_eq_ok]
  have heff : ∀ (i : Nat) f p, s.freeAirflow[i]? = some f →
      s.efficacy i p = .ok (s.designEfficacy * (1 + PSC.slope * (f / f0 - 1))) := by
    intro i f p hf
    rw [PSC.efficacy, pyGetI_natCast, h3, List.getElem?_map, hrec, List.getElem?_map, hf]; rfl
  have hle' : f ≤ fl := by
    have := hle _ _ (hair i f 0 hf) (hair last fl 0 hfl)
    rw [PSC.reduction_zero, sub_zero, sub_zero, max_eq_left hfn, max_eq_left hfln] at this
    exact this
  have hbl : ms = PSC.blockOf u fl := by
    have : pyGetI s.blockPressure (last : Int) = .ok (PSC.blockOf u fl) := by
      rw [pyGetI_natCast, h2, List.getElem?_map, hfl]; rfl
    rw [this] at hms; simpa using hms.symm
  have hms0 : 0 ≤ ms := by
    rw [hbl]
    unfold PSC.blockOf
    apply div_nonneg _ (PSC.expCoef_pos u).le
    apply Real.log_nonneg
    have := div_nonneg hfln (PSC.coef_pos u).le
    linarith
  obtain ⟨hp0, -⟩ := hpp hms0
  have hrd := PSC.reduction_nonneg u hp0
  simp only [PSC.power, hair i f p hf, heff i f (some p) hf, bind_ok, pure_eq_ok, Except.ok.injEq] at hw
  simp only [motorPower, PSC.power, hair last fl 0 hfl, heff last fl (some 0) hfl, bind_ok, pure_eq_ok, Except.ok.injEq] at hmp
  rw [← hw, ← hmp, PSC.reduction_zero, sub_zero, max_eq_left hfln]
  have hr0 : 0 ≤ f / f0 := div_nonneg hfn hpos.le
  have hr : f / f0 ≤ fl / f0 := div_le_div_of_nonneg_right hle' hpos.le
  have e1 : 0 ≤ 1 + PSC.slope * (f / f0 - 1) := by unfold PSC.slope; norm_num; linarith
  have e2 : 1 + PSC.slope * (f / f0 - 1) ≤ 1 + PSC.slope * (fl / f0 - 1) := by unfold PSC.slope; norm_num; linarith
  have e3 : max (f - PSC.reduction u p) 0 ≤ fl := max_le (by linarith) hfln
  have e4 : s.designEfficacy * (1 + PSC.slope * (f / f0 - 1)) ≤ s.designEfficacy * (1 + PSC.slope * (fl / f0 - 1)) :=
    mul_le_mul_of_nonneg_left e2 he
  have e5 := mul_le_mul e3 e4 (mul_nonneg he e1) hfln
  have e6 : 0 ≤ fl * (s.designEfficacy * (1 + PSC.slope * (fl / f0 - 1))) :=
    mul_nonneg hfln (mul_nonneg he (e1.trans e2))
  linarith

/-- C69 refuted for RESNET BPM fans: the representation of every single-speed fan lists a shaft power (at 1.2 in. H2O) above the motor's
maximum power. -/
theorem C69_refuted (u : Units ℝ) (brentq : Brentq) (hbr : BrentqSpec brentq) (argsort : List ℝ → List Nat)
    (harg : ∀ l, IsArgsort l (argsort l)) (a : ℝ) (ha : 0 < a) :
    ∃ (b : Base) (r : Rep), resnetInit u [a] = .ok b ∧
      fanRep argsort 1 b.designESP (resnetAirflow b) (resnetBPMPower u brentq b) (inRps u (resnetRotationalSpeed u b))
        (motorPower (resnetBPMPower u brentq b)) (fun _ => .ok (1.2 * u.inH2O)) = .ok r ∧
      ∃ pt ∈ r.points, r.maxPower < pt.1 := by
  have hc := u.cfm_pos
  have hi := u.inH2O_pos
  obtain ⟨b, hb, hair, -⟩ := C13_resnet_constructs u [a] (by simp) (by simpa using ha)
  have h0 : b.airflow[0]? = some a := by rw [hair]; rfl
  have hpow : ∀ p : ℝ, resnetBPMPower u brentq b ((0 : Nat) : Int) (some p) =
      .ok (a * (0.171 / u.cfm + 0.11 / u.cfm * (p / (0.5 * u.inH2O)))) := by
    intro p
    have := (C22_bpm_linear u brentq hbr [a] a b b hb .start rfl ha 0 a h0 ha (by rw [div_self ha.ne']; norm_num) p).1
    rw [div_self ha.ne', Real.one_rpow] at this
    simp only [resnetBPMPower, resnetAirflow, pyGetI_natCast.2 h0, bind_ok, this, pure_eq_ok, Except.ok.injEq]
    ring
  have hairflow : ∀ p : ℝ, resnetAirflow b ((0 : Nat) : Int) (some p) = .ok a := fun p => pyGetI_natCast.2 h0
  have hrot : ∀ p : ℝ, inRps u (resnetRotationalSpeed u b) ((0 : Nat) : Int) (some p) = .ok (1100 * u.rpm * (a / a) / (60 * u.rpm)) := fun p => by
    simp only [inRps, resnetRotationalSpeed, resnetRatio_ok h0 ha.ne' h0, bind_ok, pure_eq_ok]
  have hmap : speedOrderMap argsort (resnetAirflow b) 1 = .ok [0] := by
    have h1 : ∃ m, speedOrderMap argsort (resnetAirflow b) 1 = .ok m := by
      have := hairflow 0
      simp only [speedOrderMap, List.range_succ, List.range_zero, List.nil_append, List.mapM_cons, this, bind_ok, List.mapM_nil,
        pure_eq_ok]
      exact ⟨_, rfl⟩
    obtain ⟨m, hm⟩ := h1
    have := (C24_order_map argsort harg _ 1 m hm).1
    rw [show List.range 1 = [0] from rfl, List.perm_singleton] at this
    rw [hm, this]
  have hgrid : pressureGrid (1.2 * u.inH2O) = [0, 0.24 * u.inH2O, 0.48 * u.inH2O, 0.72 * u.inH2O, 0.96 * u.inH2O, 1.2 * u.inH2O] := by
    simp only [pressureGrid, List.range_succ, List.range_zero, List.nil_append, List.map_cons, List.map_nil, List.cons_append]
    norm_num
    refine ⟨?_, ?_, ?_, ?_⟩ <;> ring
  have hrep : ∃ pts nom, fanRep argsort 1 b.designESP (resnetAirflow b) (resnetBPMPower u brentq b) (inRps u (resnetRotationalSpeed u b))
        (motorPower (resnetBPMPower u brentq b)) (fun _ => .ok (1.2 * u.inH2O)) = .ok
        { maxPower := a * (0.171 / u.cfm + 0.11 / u.cfm * (0 / (0.5 * u.inH2O))) * 1.2, speedNumber := [1]
          pressure := pressureGrid (1.2 * u.inH2O), points := pts, nominalFlow := nom, maxRps := 1500 / 60, minRps := 0 } := by
    have hl : pyGetI [0] (-1) = Except.ok 0 := rfl
    simp only [fanRep, hmap, bind_ok, hl, motorPower, hpow, pure_eq_ok, mapLoop,
      List.length_cons, List.length_nil, zero_add, List.range_succ, List.range_zero, List.nil_append, List.mapM_cons, List.mapM_nil,
      pyGet, List.getElem?_cons_zero, hgrid, hairflow, hrot, List.map_cons, List.map_nil]
    exact ⟨_, _, rfl⟩
  obtain ⟨pts, nom, hrep⟩ := hrep
  refine ⟨b, _, hb, hrep, ?_⟩
  obtain ⟨m, ms, k1, -, -, -, -, -, k2⟩ := C24_representation argsort harg 1 _ _ _ _ _ _ _ hrep
  rw [hmap] at k1; cases k1
  obtain ⟨w, q, v, j1, j2, -⟩ := k2 0 5 0 (1.2 * u.inH2O) rfl (by simp only; rw [hgrid]; rfl)
  refine ⟨_, List.mem_of_getElem? j1, ?_⟩
  rw [hpow] at j2; cases j2
  simp only
  rw [show a * (0.171 / u.cfm + 0.11 / u.cfm * (0 / (0.5 * u.inH2O))) * 1.2 = 0.2052 * (a / u.cfm) by field_simp; ring,
    show a * (0.171 / u.cfm + 0.11 / u.cfm * (1.2 * u.inH2O / (0.5 * u.inH2O))) = 0.435 * (a / u.cfm) by field_simp; ring]
  have : 0 < a / u.cfm := div_pos ha hc
  linarith

/-- The record relation assumed by `C69_psc` holds for every PSC fan after construction and any history keeping the first speed. -/
theorem C69_psc_records (u : Units ℝ) (airflows : List ℝ) (p e : ℝ) (s0 s : PSC)
    (h0 : PSC.init u airflows p e = .ok s0) (h : FanReach (addPSC u) PSC.removeSpeed (notFirst PSC.base) s0 s) :
    PSC.Consistent u s ∧ ∃ f0, s.freeAirflow[0]? = some f0 ∧ s.freeRatio = s.freeAirflow.map (· / f0) := by
  let P : PSC → Prop := fun s => PSC.Consistent u s ∧ ∃ f0, s.freeAirflow[0]? = some f0 ∧ s.freeRatio = s.freeAirflow.map (· / f0)
  have hadd : ∀ (s s' : PSC) a q, PSC.Consistent u s → (s.freeAirflow = [] ∧ s.freeRatio = [] ∨ P s) →
      PSC.addSpeed u a q s = (.ok (), s') → P s' := by
    rintro s s' a q hc hP ha
    refine ⟨PSC.add_consistent u hc ha, ?_⟩
    obtain ⟨b', hb, hh, -, rfl⟩ := PSC.addSpeed_ok u ha
    rcases hP with ⟨h1, h2⟩ | ⟨-, f0, h1, h2⟩
    · exact ⟨_, by simp [h1]; rfl, by simp [h1, h2]⟩
    · have hhead : ∀ x, s.freeAirflow.headD x = f0 := by
        intro x
        cases hl : s.freeAirflow with
        | nil => simp [hl] at h1
        | cons c cs => simpa [hl] using h1
      exact ⟨f0, append_zero? h1, by simp only [h2, hhead, List.map_append, List.map_cons, List.map_nil]⟩
  have hinit : P s0 := by
    simp only [PSC.init, bind_eq_ok] at h0
    obtain ⟨b, hb, h0⟩ := h0
    obtain ⟨a0, e0, -, -, rfl⟩ := start_eq_ok hb
    have h0 := exec_eq_ok h0
    cases hl : airflows with
    | nil => simp [hl] at e0
    | cons a l =>
      rw [hl] at h0
      simp only [addAll, PyM.bind_run] at h0
      split at h0
      · rename_i s1 hs1
        have h1 : P s1 := hadd _ _ a none (by simp [PSC.Consistent, AlignedPSC, AlignedBase]) (.inl ⟨rfl, rfl⟩) hs1
        exact addAll_inv (P := P) (fun s s' x hs hx => hadd s s' x none hs.1 (.inr hs) hx) l _ _ h1 h0
      · cases h0
  refine reach_inv (P := P) hinit (fun s s' x hs hx => hadd s s' x.1 x.2 hs.1 (.inr hs) hx) ?_ h
  rintro s i ⟨hc, f0, h1, h2⟩ ha
  refine ⟨PSC.remove_consistent u hc, ?_⟩
  rcases pyIdx_cases s.base.airflow.length i with ⟨k, hk, hlt⟩ | hk
  · have hk0 := idx_notFirst hk ha.1 ha.2
    rw [PSC.removeSpeed_ok hc.1 hk]
    exact ⟨f0, by simpa only [eraseIdx_zero? hk0] using h1, by simp only [h2, eraseIdx_map']⟩
  · rw [PSC.removeSpeed_error hk]; exact ⟨f0, h1, h2⟩

theorem rep_single (argsort : List ℝ → List Nat) (harg : ∀ l, IsArgsort l (argsort l)) (d ms mp : ℝ)
    (airflow power rot : Int → Option ℝ → Py ℝ) (maxPower maxStatic : Int → Py ℝ) (fa fp fr : ℝ → ℝ)
    (ha : ∀ p, airflow ((0 : Nat) : Int) (some p) = .ok (fa p)) (hp : ∀ p, power ((0 : Nat) : Int) (some p) = .ok (fp p))
    (hr : ∀ p, rot ((0 : Nat) : Int) (some p) = .ok (fr p)) (hmp : maxPower ((0 : Nat) : Int) = .ok mp)
    (hms : maxStatic ((0 : Nat) : Int) = .ok ms) :
    ∃ r, fanRep argsort 1 d airflow power rot maxPower maxStatic = .ok r := by
  have hmap : speedOrderMap argsort airflow 1 = .ok [0] := by
    have h1 : ∃ m, speedOrderMap argsort airflow 1 = .ok m := by
      have := ha 0
      simp only [speedOrderMap, List.range_succ, List.range_zero, List.nil_append, List.mapM_cons, this, bind_ok, List.mapM_nil,
        pure_eq_ok]
      exact ⟨_, rfl⟩
    obtain ⟨m, hm⟩ := h1
    have := (C24_order_map argsort harg _ 1 m hm).1
    rw [show List.range 1 = [0] from rfl, List.perm_singleton] at this
    rw [hm, this]
  have hl : pyGetI [0] (-1) = Except.ok 0 := rfl
  simp only [fanRep, hmap, bind_ok, hl, hmp, hms, hp, pure_eq_ok, mapLoop, pressureGrid,
    List.length_cons, List.length_nil, zero_add, List.range_succ, List.range_zero, List.nil_append, List.mapM_cons, List.mapM_nil,
    pyGet, List.getElem?_cons_zero, ha, hr, List.map_cons, List.map_nil, List.cons_append]
  exact ⟨_, rfl⟩

/-- The representation exists for a single-speed RESNET PSC fan, so the theorems above are not vacuous. -/
example (u : Units ℝ) (argsort : List ℝ → List Nat) (harg : ∀ l, IsArgsort l (argsort l)) :
    ∃ r, fanRep argsort 1 1 (resnetAirflow ⟨1, 1, [2], [1], 1⟩) (resnetPSCPower u ⟨1, 1, [2], [1], 1⟩)
      (inRps u (resnetRotationalSpeed u ⟨1, 1, [2], [1], 1⟩)) (motorPower (resnetPSCPower u ⟨1, 1, [2], [1], 1⟩))
      (fun _ => .ok (1.2 * u.inH2O)) = .ok r := by
  have h0 : (⟨1, 1, [2], [1], 1⟩ : Base).airflow[0]? = some 2 := rfl
  have hp : ∀ p : ℝ, resnetPSCPower u ⟨1, 1, [2], [1], 1⟩ ((0 : Nat) : Int) (some p) =
      .ok (2 * (0.414 / u.cfm * (PSC.slope * (2 / 2) + (1 - PSC.slope)))) := by
    intro p
    simp only [resnetPSCPower, resnetAirflow, pyGetI_natCast.2 h0, resnetPSCEfficacy, resnetRatio_ok h0 two_ne_zero h0, bind_ok,
      pure_eq_ok]
  refine rep_single argsort harg 1 (1.2 * u.inH2O) (2 * (0.414 / u.cfm * (PSC.slope * (2 / 2) + (1 - PSC.slope))) * 1.2)
    _ _ _ _ _ (fun _ => 2) _ (fun _ => 1100 * u.rpm * (2 / 2) / (60 * u.rpm))
    (fun p => pyGetI_natCast.2 h0) hp (fun p => ?_) (by simp only [motorPower, hp, bind_ok, pure_eq_ok]) rfl
  simp only [inRps, resnetRotationalSpeed, resnetRatio_ok h0 two_ne_zero h0, bind_ok, pure_eq_ok]

end Resdx.Props
