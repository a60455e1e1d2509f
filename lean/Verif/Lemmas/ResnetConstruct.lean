import Verif.Lemmas.ResnetReturns

/-! # The rest of the construction of a RESNET unit returns -/

set_option linter.unusedSectionVars false
set_option linter.unusedSimpArgs false

namespace Resdx.Build

open Spec Tabular BaseModel Props ResnetFan Fan Table

variable {u : Units ℝ} {brentq : Brentq}

/-- psychrolib returns the density of the rated indoor air of both modes, and the densities are not zero. -/
def IndoorAir (E : Env ℝ) : Prop := E.rhoStd ≠ 0 ∧ ∀ heating, ∃ rho, rho ≠ 0 ∧ (Psych.getRho E.lib (defaultIndoor E heating)).1 = .ok rho

/-- The sensible heat ratio of the Title-24 correlation at the rated cooling conditions and 400 cfm/ton. -/
noncomputable def ratedShr : ℝ := 0.7174748

/-- The coil calculation (psychrolib and `scipy.optimize.newton`) returns at the rated indoor conditions with the rated sensible heat ratio, for a speed of rated capacity `q` and the gross
total capacity `total`. -/
def CoilReturns (u : Units ℝ) (E : Env ℝ) (T : Coil.Tools) (q total : ℝ) : Prop :=
  ∀ c : Conditions ℝ, c.indoor = defaultIndoor E false → c.flow.mass = some (q * (400 * u.cfm / u.ton) * E.rhoStd) → ∃ r, Coil.ratedBypass T c ratedShr total = .ok r

theorem shrAt_rated : Title24.shrAt (⟨toF (frF 67), toF (frF 95), toF (frF 80), 400⟩ : Title24.Point ℝ) = .ok ratedShr := by
  rw [toF_frF, toF_frF, toF_frF]
  have h : pdiv (0 : ℝ) 400 = .ok 0 := by rw [pdiv_ok (by norm_num)]; simp
  simp only [Title24.shrAt, Title24.Point.regress, Title24.caRegression, Title24.shrCoeffs, h, bind_ok, pure_eq_ok, Except.ok.injEq, ratedShr]
  rw [min_eq_right (by norm_num)]; norm_num

theorem coilStep_returns {T : Coil.Tools} {E : Env ℝ} {total : Conditions ℝ → Py ℝ} {c : Conditions ℝ} {i n : Nat} {q t : ℝ} (hi : i < n) (hin : c.indoor = defaultIndoor E false)
    (hout : c.outdoor.db = frF 95) (hcs : c.flow.compressorSpeed = i) (hv : c.flow.stdVolPerCap = some (400 * u.cfm / u.ton))
    (hm : c.flow.mass = some (q * (400 * u.cfm / u.ton) * E.rhoStd)) (ht : total c = .ok t) (hr : CoilReturns u E T q t) {d : CoilData} (h1 : d.shr.length = n) (h2 : d.bf.length = n)
    (h3 : d.ntu.length = n) : ∃ d', coilStep u T total i c d = .ok d' ∧ d'.shr.length = n ∧ d'.bf.length = n ∧ d'.ntu.length = n := by
  have hcf := u.cfm_pos
  have hto := u.ton_pos
  obtain ⟨r, hr⟩ := hr c hin hm
  have hwb : (Psych.getWb c.indoor).1 = .ok (frF (67 : ℝ)) := by rw [hin]; rfl
  have hdb : c.indoor.db = frF 80 := by rw [hin]; rfl
  have h400 : 400 * u.cfm / u.ton * u.ton / u.cfm = 400 := by field_simp
  have hat : Sys.at_ (d.shr.set i (some ratedShr)) i = .ok ratedShr := by simp [Sys.at_, pyGet, h1, hi, pyNum, bind_ok]
  refine ⟨⟨d.shr.set i (some ratedShr), d.bf.set i (some r.1), d.ntu.set i (some r.2)⟩, ?_, by simpa using h1, by simpa using h2, by simpa using h3⟩
  have p1 : pySet d.shr i (some ratedShr) = .ok (d.shr.set i (some ratedShr)) := pySet_eq_ok.2 ⟨by omega, rfl⟩
  have p2 : pySet d.bf i (some r.1) = .ok (d.bf.set i (some r.1)) := pySet_eq_ok.2 ⟨by omega, rfl⟩
  have p3 : pySet d.ntu i (some r.2) = .ok (d.ntu.set i (some r.2)) := pySet_eq_ok.2 ⟨by omega, rfl⟩
  simp only [coilStep, hwb, bind_ok, hv, pyAttr, hdb, hout, h400, shrAt_rated, p1, hcs, hat, ht, hr, p2, p3, pure_eq_ok]

/-- What is known of a condition made at the rated airflow of speed `i`. -/
structure RatedCond (u : Units ℝ) (E : Env ℝ) (S : Sys ℝ) (heating : Bool) (i : Nat) (q : ℝ) (o : Psych.PsychState ℝ) (c : Conditions ℝ) : Prop where
  made : S.makeCondition E heating i none (some o) = .ok c
  indoor : c.indoor = defaultIndoor E heating
  outdoor : c.outdoor = o
  speed : c.flow.compressorSpeed = i
  perCap : c.flow.stdVolPerCap = some (400 * u.cfm / u.ton)
  mass : c.flow.mass = some (q * (400 * u.cfm / u.ton) * E.rhoStd)

theorem cond_returns {E : Env ℝ} (hE : IndoorAir E) {S : Sys ℝ} {heating : Bool} {s : Side} {q : List ℝ} {n : Nat} {power : Base → Int → Option ℝ → Py ℝ} {fullESP d : ℝ} {fs : Nat} {b : Base}
    (M : ModeSet power fullESP d fs (Side.start u n q none) s b) (hq : ∀ x ∈ q, 0 < x)
    (hcap : (if heating then S.netHeating else S.netCooling) = q) (hA : (if heating then S.heatingAirflow else S.coolingAirflow) = s.airflow)
    (hF : (if heating then S.ratedHeatingFanSpeed else S.ratedCoolingFanSpeed) = s.ratedFanSpeed.map (·.map Int.toNat)) {i : Nat} {x : ℝ} (hx : q[i]? = some x) (o : Psych.PsychState ℝ) :
    ∃ c, RatedCond u E S heating i x o c := by
  have hcf := u.cfm_pos
  have hto := u.ton_pos
  have hr : 0 < 400 * u.cfm / u.ton := by positivity
  obtain ⟨hi, hx'⟩ := List.getElem?_eq_some_iff.1 hx
  have h0 : 0 < q.length := by omega
  obtain ⟨rho, r0, hrho⟩ := hE.2 heating
  have x0 := hq x (List.mem_of_getElem? hx)
  have y0 : (0 : ℝ) < q[0]'h0 := hq _ (List.getElem_mem _)
  obtain ⟨m, hm⟩ : ∃ m : Nat, s.ratedFanSpeed[i]? = some (some (m : Int)) := by
    obtain ⟨_, m, _, _, _, h, _⟩ := M.rated i (by rw [M.caps]; exact hi)
    exact ⟨m, h⟩
  have hc := Sys.makeCondition_ok E S heating i none (some o) rho (x * (400 * u.cfm / u.ton)) x (q[0]'h0 * (400 * u.cfm / u.ton)) (some m) r0 hE.1 (by positivity) x0.ne' (by positivity)
    hrho (by rw [hcap]; exact hx) (by rw [hA]; exact start_airflow' M hx) (by rw [hA]; exact start_airflow' M (List.getElem?_eq_getElem h0)) (by rw [hF]; exact toNat_map hm)
  refine ⟨_, hc, rfl, rfl, rfl, ?_, ?_⟩
  · simp only [ratedFlow]; congr 1; field_simp
  · simp only [ratedFlow]

theorem grossList_returns {n : Nat} {caps : List ℝ} {power : List (Option ℝ)} {sign : ℝ} (hl : caps.length = n) (h : ∀ (i : Nat) (c : ℝ), caps[i]? = some c → ∃ w, power[i]? = some (some w)) :
    ∃ l, grossList n caps power sign = .ok l := by
  refine comp_isOk fun i hi => ?_
  have hc : caps[i]? = some (caps[i]'(by omega)) := List.getElem?_eq_getElem _
  obtain ⟨w, hw⟩ := h i _ hc
  simp only [pyGet_eq_ok.2 hc, numAt_eq_ok.2 hw, bind_ok, pure_eq_ok]
  exact ⟨_, rfl⟩

theorem checkArrayOrder_ok {D : ℝ} {q : List ℝ} (h : RatedSizes D q) : checkArrayOrder q = .ok () := by
  unfold checkArrayOrder
  rw [if_pos]
  rw [List.all_eq_true]
  intro p hp
  obtain ⟨i, hi⟩ := List.getElem?_of_mem hp
  rw [List.getElem?_zip_eq_some, List.getElem?_tail] at hi
  exact decide_eq_true (h.order i (i + 1) _ _ (Nat.le_succ i) hi.1 hi.2)

theorem grossTotal_returns {E : Env ℝ} {T : Coil.Tools} {k : Core} {S : Sys ℝ} {P : DX.Points (Conditions ℝ)} {ntu : List (Option ℝ)} {c : Conditions ℝ} {q : ℝ} (hd : S.chargeDeviation = 0)
    (hq : Resnet.grossTotalCoolingCapacity E S (data k) c = .ok q) (h0 : 0 ≤ q) : (performance u E T brentq k S P ntu).grossTotalCoolingCapacity (some c) = .ok q := by
  simp only [DX.Performance.grossTotalCoolingCapacity, performance, Resnet.unit, Option.getD_some, hq, Nrel.gradingModel, hd, if_true, bind_ok, mul_one, limitCheck_zero, pure_eq_ok,
    not_lt.2 h0, if_false]

/-- The fan power of a table speed is positive and at most 0.843 W/cfm of the rated airflow. -/
theorem fan_at {a : Args} {st : Staging} {rc rh : Roles} {net : Perf ℝ} {k : Core} {fc fh : ℝ → ℝ} (F : CoreFacts u brentq a st rc rh net k fc fh) {qc : List ℝ} {t : Table ℝ} {x : ℝ}
    (ht : Fresh t) (hn : t.nSpeeds = tableSpeeds st) (hq : RatedAt st t x qc) {m : ℝ}
    (hP : ∀ (i : Nat) (c : ℝ), qc[i]? = some c → ∃ w, k.cool.power[i]? = some (some w) ∧ 0 < w ∧ w ≤ m * c) {i : Nat} {σ c : ℝ} (hσ : TableSpeed st i σ) (hc : qc[i]? = some c) :
    0 < fc σ ∧ fc σ ≤ m * c := by
  by_cases h32 : σ = 3 / 2
  · subst h32
    cases st with
    | single => obtain ⟨-, h⟩ := hσ; norm_num at h
    | two => rcases hσ with ⟨-, h⟩ | ⟨-, h⟩ <;> norm_num at h
    | varSpeed =>
      have hi : i = 2 := by rcases hσ with ⟨-, h⟩ | ⟨-, h⟩ | ⟨h, -⟩ | ⟨-, h⟩ <;> first | exact h | norm_num at h
      subst hi
      have hσ1 : TableSpeed .varSpeed 1 2 := .inr (.inl ⟨rfl, rfl⟩)
      have hσ3 : TableSpeed .varSpeed 3 1 := .inr (.inr (.inr ⟨rfl, rfl⟩))
      obtain ⟨c1, e1, f1⟩ := hq.1 1 2 hσ1
      obtain ⟨c3, e3, f3⟩ := hq.1 3 1 hσ3
      obtain ⟨c2, e2, f2⟩ := hq.1 2 _ hσ
      rw [hc] at e2; cases e2
      obtain ⟨w1, p1, a1, b1⟩ := hP 1 c1 e1
      obtain ⟨w3, p3, a3, b3⟩ := hP 3 c3 e3
      have g1 := F.coolFan 1 2 w1 hσ1 (by norm_num) p1
      have g3 := F.coolFan 3 1 w3 hσ3 (by norm_num) p3
      have hh := (F.half rfl).1
      obtain ⟨z0, z1, y, z2, z3, z4, hline⟩ := C30_linear_in_speed t ht 1 (3 / 2) x ⟨by norm_num, by rw [hn]; decide⟩ ⟨by norm_num, by rw [hn]; decide⟩ (.inr rfl) (.inl (by norm_num))
      norm_num at z2 z3
      rw [f3] at z2; cases z2
      rw [f1] at z3; cases z3
      rw [f2] at z4; cases z4
      unfold OnLine at hline
      push_cast at hline
      norm_num at hline
      rw [hh, g1, g3]
      have : c = (c1 + c3) / 2 := by linarith
      constructor
      · linarith
      · rw [this]; linarith
  · obtain ⟨w, p, a1, a2⟩ := hP i c hc
    rw [F.coolFan i σ w hσ h32 p]
    exact ⟨a1, a2⟩

theorem speed_at (st : Staging) {i : Nat} (hi : i < speedCount st) : ∃ σ, TableSpeed st i σ :=
  ⟨(speedMap st)[i]'(by rw [speedMap_length]; exact hi), speedMap_get.1 (List.getElem?_eq_getElem _)⟩

/-- A unit made from net tables `net` with the rated net capacities `qc` and `qh` and the default airflow of 400 cfm/ton: its staging, tables, capacities, motor and airflows, the fan's
design airflow, that conditions can be made for all its speeds, and the gross capacity at the rating condition of each speed. -/
structure Made (u : Units ℝ) (E : Env ℝ) (a : Args) (st : Staging) (net : Perf ℝ) (qc qh : List ℝ) (B : Built) : Prop where
  staging : B.core.st = st
  tables : B.core.net = net
  coolCaps : B.core.cool.caps = qc
  heatCaps : B.core.heat.caps = qh
  motor : B.core.psc = a.motorPSC.getD (defaultMotorPSC st)
  full : B.core.rc.full = fullIndex st ∧ B.core.rh.full = fullIndex st
  coolAirflow : ∀ (i : Nat) (q : ℝ), qc[i]? = some q → B.core.cool.airflow[i]? = some (some (q * (400 * u.cfm / u.ton)))
  heatAirflow : ∀ (i : Nat) (q : ℝ), qh[i]? = some q → B.core.heat.airflow[i]? = some (some (q * (400 * u.cfm / u.ton)))
  design : ∀ x y, qc[fullIndex st]? = some x → qh[fullIndex st]? = some y → B.core.fan.airflow[0]? = some (max x y * (400 * u.cfm / u.ton))
  grossCool : ∀ (i : Nat) (q : ℝ), qc[i]? = some q → ∃ w, B.sys.grossCooling[i]? = some (some (q + w)) ∧ 0 < w ∧ w ≤ 337.2 / u.ton * q
  grossHeat : ∀ (i : Nat) (q : ℝ), qh[i]? = some q → ∃ w, B.sys.grossHeating[i]? = some (some (q - w)) ∧ 0 < w ∧ w ≤ 337.2 / u.ton * q
  conditions : ∀ (heating : Bool) (i : Nat) (o : Psych.PsychState ℝ), i < speedCount st → ∃ c, B.sys.makeCondition E heating i none (some o) = .ok c
  charge : B.sys.chargeDeviation = 0
  grossRated : ∀ (i : Nat) (q : ℝ), qc[i]? = some q → 0 < q ∧ ∃ c t, RatedCond u E B.sys false i q (defaultOutdoor E false) c ∧
    Resnet.grossTotalCoolingCapacity E B.sys (data B.core) c = .ok t ∧ q < t ∧ t ≤ (1 + 337.2 / u.ton) * q

/-- The construction of a unit returns once there are sound tables. -/
theorem build_returns {E : Env ℝ} {T : Coil.Tools} {a : Args} {st0 st : Staging} {q47 : ℝ} {net : Perf ℝ} {qc qh : List ℝ}
    (h1 : stagingOf (numberOfSpeeds (a.heating.map NumArg.num) a.staging) a.staging = .ok st0) (h2 : modelStaging a st0 = .ok st) (h3 : heating47 u a st = .ok q47)
    (h4 : netTables u a st (DX.offTemperature a.heatingOff st0) q47 = .ok net) (hs : Sound u st net qc qh) (ha1 : a.coolingPerCap = none) (ha2 : a.heatingPerCap = none)
    (hd : a.chargeDeviation = 0) (hbr : a.motorPSC.getD (defaultMotorPSC st) = false → BrentqSpec brentq) (hE : IndoorAir E) (hO : ∃ r, Resnet.ratedOutdoor E (frF 95) = .ok r)
    (hC : ∀ q ∈ qc, ∀ t, q < t → t ≤ (1 + 337.2 / u.ton) * q → CoilReturns u E T q t) (hcop1 : a.hasNetCoolingCop = true ∨ a.hasGrossCoolingCop = true)
    (hcop2 : a.netHeatingCop.isSome ∨ a.hasGrossHeatingCop = true) : ∃ B, build u E T brentq a = .ok B ∧ Made u E a st net qc qh B := by
  have hrf : ∀ r, (modelRoles st r).full = fullIndex st := by intro r; cases st <;> rfl
  have hrl : ∀ r, st ≠ .single → (modelRoles st r).low = some (speedCount st - 1) := by intro r hs; cases st <;> first | exact absurd rfl hs | rfl
  obtain ⟨k, hk, kc, kh, P1, P2, l1, l2, l3, l4⟩ := core_returns (u := u) (brentq := brentq) ha1 ha2 hbr
    (hrf (roles (numberOfSpeeds (some a.cooling) a.staging) a.coolingFullSpeed a.coolingIntermediateSpeed))
    (hrf (roles (numberOfSpeeds (a.heating.map NumArg.num) a.staging) a.heatingFullSpeed a.heatingIntermediateSpeed)) hs
  obtain ⟨fc, fh, F⟩ := core_facts hk hs.rated
  have L1 := ratedAt_length hs.cooling
  have L2 := ratedAt_length hs.heating
  obtain ⟨x, y, hx, hy, Rc, Rh⟩ := hs.sizes
  obtain ⟨gc, hgc⟩ := grossList_returns (n := speedCount k.st) (caps := k.cool.caps) (power := k.cool.power) (sign := 1) (by rw [kc, L1, F.isSt]) (by
    intro i c hc; rw [kc] at hc; obtain ⟨w, hw, -⟩ := P1 i c hc; exact ⟨w, hw⟩)
  obtain ⟨gh, hgh⟩ := grossList_returns (n := speedCount k.st) (caps := k.heat.caps) (power := k.heat.power) (sign := -1) (by rw [kh, L2, F.isSt]) (by
    intro i c hc; rw [kh] at hc; obtain ⟨w, hw, -⟩ := P2 i c hc; exact ⟨w, hw⟩)
  obtain ⟨S, hS⟩ : ∃ S, sys a k = .ok S := by
    simp only [sys, hgc, hgh, bind_ok, pure_eq_ok]
    exact ⟨_, rfl⟩
  obtain ⟨s1, s2, s3, s4, s5, s6, s7, s8, s9, -, -, s12, -⟩ := sys_ok hS
  obtain ⟨ac, ah, A1, A2, -, A4, M1, M2⟩ := F.fan
  rw [ha1] at M1; rw [ha2] at M2; rw [kc] at M1; rw [kh] at M2
  -- the conditions
  have CC : ∀ (i : Nat), i < speedCount st → ∀ o, ∃ c q, qc[i]? = some q ∧ RatedCond u E S false i q o c := by
    intro i hi o
    obtain ⟨c, hc⟩ := cond_returns (u := u) hE (S := S) (heating := false) M1 Rc.pos (by simpa using s1.trans kc) (by simpa using s3) (by simpa using s5)
      (i := i) (x := qc[i]'(by omega)) (List.getElem?_eq_getElem _) o
    exact ⟨c, _, List.getElem?_eq_getElem _, hc⟩
  have CH : ∀ (i : Nat), i < speedCount st → ∀ o, ∃ c, S.makeCondition E true i none (some o) = .ok c := by
    intro i hi o
    obtain ⟨c, hc⟩ := cond_returns (u := u) hE (S := S) (heating := true) M2 Rh.pos (by simpa using s2.trans kh) (by simpa using s4) (by simpa using s6)
      (i := i) (x := qh[i]'(by omega)) (List.getElem?_eq_getElem _) o
    exact ⟨c, hc.made⟩
  have CT : ∀ (i : Nat), i < speedCount st → ∀ db wb, ∃ c, Ratings.testAt E S false i db wb = .ok c := by
    intro i hi db wb
    obtain ⟨c, q, -, hc⟩ := CC i hi (wetState E.atm (frF db) (frF wb))
    exact ⟨c, hc.made⟩
  have CHT : ∀ (i : Nat), i < speedCount st → ∀ db wb, ∃ c, Ratings.testAt E S true i db wb = .ok c := fun i hi db wb => CH i hi _
  have CD : ∀ (i : Nat), i < speedCount st → ∃ c q, qc[i]? = some q ∧ RatedCond u E S false i q (defaultOutdoor E false) c ∧ S.makeCondition E false i = .ok c := by
    intro i hi
    obtain ⟨c, q, hq, hc⟩ := CC i hi (defaultOutdoor E false)
    exact ⟨c, q, hq, hc, hc.made⟩
  have CHD : ∀ (i : Nat), i < speedCount st → ∃ c, S.makeCondition E true i = .ok c := fun i hi => CH i hi (defaultOutdoor E true)
  -- the coil steps
  obtain ⟨r, hr⟩ := hO
  have gross : ∀ (i : Nat) (q : ℝ) (c : Conditions ℝ), qc[i]? = some q → RatedCond u E S false i q (defaultOutdoor E false) c →
      ∃ t, Resnet.grossTotalCoolingCapacity E S (data k) c = .ok t ∧ q < t ∧ t ≤ (1 + 337.2 / u.ton) * q := by
    intro i q c hq hc
    have hi : i < speedCount st := by rw [← L1]; exact (List.getElem?_eq_some_iff.1 hq).1
    obtain ⟨σ, hσ⟩ := speed_at st hi
    obtain ⟨w, hw, w0, w1⟩ := P1 i q hq
    have q0 := Rc.pos q (List.mem_of_getElem? hq)
    have hQ := grossList_get s8 (i := i) (q := q) (w := w) (by rw [F.isSt]; exact hi) (by rw [kc]; exact hq) hw
    have ho : toF (defaultOutdoor E false).db ≤ 125 := by
      have : (defaultOutdoor E false).db = frF (95 : ℝ) := rfl
      rw [this, toF_frF]; norm_num
    have g1 := (gross_cooling F hS hσ hQ (by linarith) ho hr hc.made).1
    obtain ⟨q', e1, e2⟩ := F.gross.coolCap σ (frF 95)
    obtain ⟨q'', e3, e4⟩ := hs.cooling.1 i σ hσ
    rw [hq] at e3; cases e3
    have : q' = q := Except.ok.inj (e1.symm.trans e4)
    subst this
    obtain ⟨f1, f2⟩ := fan_at F hs.rated.qc hs.rated.speeds.1 hs.cooling P1 hσ hq
    exact ⟨_, g1.trans e2, by linarith, by linarith⟩
  have step : ∀ (P : DX.Points (Conditions ℝ)) (i : Nat) (q : ℝ) (c : Conditions ℝ), qc[i]? = some q → RatedCond u E S false i q (defaultOutdoor E false) c → ∀ d : CoilData,
      d.shr.length = speedCount st → d.bf.length = speedCount st → d.ntu.length = speedCount st →
      ∃ d', coilStep u T (fun c => (performance u E T brentq k S P []).grossTotalCoolingCapacity (some c)) i c d = .ok d' ∧ d'.shr.length = speedCount st ∧ d'.bf.length = speedCount st ∧
        d'.ntu.length = speedCount st := by
    intro P i q c hq hc d d1 d2 d3
    have hi : i < speedCount st := by rw [← L1]; exact (List.getElem?_eq_some_iff.1 hq).1
    have q0 := Rc.pos q (List.mem_of_getElem? hq)
    obtain ⟨t, ht, t1, t2⟩ := gross i q c hq hc
    have gt := grossTotal_returns (u := u) (T := T) (brentq := brentq) (P := P) (ntu := []) (c := c) (by rw [s12, hd]) ht (by linarith)
    exact coilStep_returns hi hc.indoor (by rw [hc.outdoor]; rfl) hc.speed hc.perCap hc.mass gt (hC q (List.mem_of_getElem? hq) _ t1 t2) d1 d2 d3
  have hcr : ∃ c, crankcase u a k = .ok c := by
    unfold crankcase
    cases a.crankcase with
    | some c => exact ⟨c, rfl⟩
    | none =>
      simp only [kc, F.isRc, hrf, pyGet_eq_ok.2 hx, bind_ok, pure_eq_ok]
      exact ⟨_, rfl⟩
  obtain ⟨cr, hcr⟩ := hcr
  have hfull := full_lt st
  generalize hRc : roles (numberOfSpeeds (some a.cooling) a.staging) a.coolingFullSpeed a.coolingIntermediateSpeed = Rc0 at *
  generalize hRh : roles (numberOfSpeeds (a.heating.map NumArg.num) a.staging) a.heatingFullSpeed a.heatingIntermediateSpeed = Rh0 at *
  have hb0 : Rc0.boost = none ∨ Rc0.boost = some 0 := by
    rw [← hRc]; unfold roles; simp only; split
    · exact .inr rfl
    · exact .inl rfl
  -- the conditions
  let Good (i : Nat) (c : Conditions ℝ) : Prop := ∃ q, qc[i]? = some q ∧ RatedCond u E S false i q (defaultOutdoor E false) c
  obtain ⟨P, hP, Pf, Pi, Pb, Pl⟩ : ∃ P, Ratings.setRatingConditions E S st (modelRoles st Rc0) (modelRoles st Rh0) = .ok P ∧ Good (fullIndex st) P.aFull ∧
      (st = .varSpeed → ∃ c, P.aInt = some c ∧ Good 2 c) ∧ (st = .varSpeed → ∃ c, P.aBoost = some c ∧ Good 0 c) ∧ (st ≠ .single → ∃ c, P.aLow = some c ∧ Good (speedCount st - 1) c) := by
    obtain ⟨c1, q1, r1, r2, r3⟩ := CD _ hfull
    obtain ⟨c2, r4⟩ := CT _ hfull 82 65
    obtain ⟨c3, r5⟩ := CHD _ hfull
    obtain ⟨c4, r6⟩ := CHT _ hfull 35 33
    obtain ⟨c5, r7⟩ := CHT _ hfull 17 15
    obtain ⟨c6, r8⟩ := CHT _ hfull 5 3
    cases st with
    | single =>
      simp only [Ratings.setRatingConditions, hrf, r3, r4, r5, r6, r7, r8, bind_ok, if_true, pure_eq_ok]
      exact ⟨_, rfl, ⟨q1, r1, r2⟩, by simp, by simp, by simp⟩
    | two =>
      have hlow : speedCount .two - 1 < speedCount .two := by decide
      obtain ⟨d1, y1, t1, t2, t3⟩ := CD _ hlow
      obtain ⟨d2, t4⟩ := CT _ hlow 82 65
      obtain ⟨d3, t5⟩ := CT _ hlow 67 53.5
      obtain ⟨d4, t6⟩ := CHT _ hlow 62 56.5
      obtain ⟨d5, t7⟩ := CHD _ hlow
      obtain ⟨d6, t8⟩ := CHT _ hlow 35 33
      obtain ⟨d7, t9⟩ := CHT _ hlow 17 15
      obtain ⟨b1, _, -, -, b2⟩ := CD 0 (by decide)
      have hm : ∀ r, (modelRoles .two r).boost = r.boost := fun r => rfl
      simp only [Ratings.setRatingConditions, Ratings.setRatingConditions.intermediate, Ratings.setRatingConditions.boost, Ratings.setRatingConditions.low, hrf, r3, r4, r5, r6, r7, r8, bind_ok,
        reduceCtorEq, if_false, pure_eq_ok, hrl _ (show Staging.two ≠ .single by decide), Ratings.speedIndex, pyNum, hm]
      rcases hb0 with h | h
      · simp only [Ratings.setRatingConditions.low, hrl _ (show Staging.two ≠ .single by decide), Ratings.speedIndex, pyNum, pure_eq_ok, h, bind_ok, t3, t4, t5, t6, t7, t8, t9]
        refine ⟨_, rfl, ?_⟩
        exact ⟨⟨q1, r1, r2⟩, by simp, by simp, fun _ => ⟨_, rfl, y1, t1, t2⟩⟩
      · simp only [Ratings.setRatingConditions.low, hrl _ (show Staging.two ≠ .single by decide), Ratings.speedIndex, pyNum, pure_eq_ok, h, bind_ok, b2, t3, t4, t5, t6, t7, t8, t9]
        refine ⟨_, rfl, ?_⟩
        exact ⟨⟨q1, r1, r2⟩, by simp, by simp, fun _ => ⟨_, rfl, y1, t1, t2⟩⟩
    | varSpeed =>
      have hlow : speedCount .varSpeed - 1 < speedCount .varSpeed := by decide
      have hint : 2 < speedCount .varSpeed := by decide
      obtain ⟨d1, y1, t1, t2, t3⟩ := CD _ hlow
      obtain ⟨d2, t4⟩ := CT _ hlow 82 65
      obtain ⟨d3, t5⟩ := CT _ hlow 67 53.5
      obtain ⟨d4, t6⟩ := CHT _ hlow 62 56.5
      obtain ⟨d5, t7⟩ := CHD _ hlow
      obtain ⟨d6, t8⟩ := CHT _ hlow 35 33
      obtain ⟨d7, t9⟩ := CHT _ hlow 17 15
      obtain ⟨b1, z1, b3, b4, b2⟩ := CD 0 (by decide)
      obtain ⟨i1, z2, i2, i3, i4⟩ := CD _ hint
      obtain ⟨j1, i5⟩ := CT _ hint 87 69
      obtain ⟨j2, i6⟩ := CHT _ hint 35 33
      have hm : ∀ r, (modelRoles .varSpeed r).boost = some 0 := fun r => rfl
      have hn : ∀ r, (modelRoles .varSpeed r).intermediate = 2 := fun r => rfl
      simp only [Ratings.setRatingConditions, Ratings.setRatingConditions.intermediate, Ratings.setRatingConditions.boost, Ratings.setRatingConditions.low, hrf, r3, r4, r5, r6, r7, r8, bind_ok,
        reduceCtorEq, if_false, if_true, pure_eq_ok, hrl _ (show Staging.varSpeed ≠ .single by decide), Ratings.speedIndex, pyNum, hm, hn, i4, i5, i6, b2, t3, t4, t5, t6, t7, t8, t9]
      exact ⟨_, rfl, ⟨q1, r1, r2⟩, fun _ => ⟨_, rfl, z2, i2, i3⟩, fun _ => ⟨_, rfl, z1, b3, b4⟩, fun _ => ⟨_, rfl, y1, t1, t2⟩⟩
  -- the coil data
  obtain ⟨coil, hcoil, hlen⟩ : ∃ coil, coilData u T (fun c => (performance u E T brentq k S P []).grossTotalCoolingCapacity (some c)) st (modelRoles st Rc0) P = .ok coil ∧
      coil.shr.length = speedCount st := by
    obtain ⟨q1, r1, r2⟩ := Pf
    obtain ⟨d, D, D1, D2, D3⟩ := step P _ q1 _ r1 r2 ⟨List.replicate (speedCount st) none, List.replicate (speedCount st) none, List.replicate (speedCount st) none⟩ (by simp) (by simp) (by simp)
    cases st with
    | single =>
      simp only [coilData, hrf, D, bind_ok, pure_eq_ok]
      exact ⟨_, rfl, D1⟩
    | two =>
      obtain ⟨c, p1, q2, r3, r4⟩ := Pl (by decide)
      obtain ⟨d', G, G1, G2, G3⟩ := step P _ q2 _ r3 r4 d D1 D2 D3
      simp only [coilData, coilData.low, hrf, D, bind_ok, pure_eq_ok, hrl _ (show Staging.two ≠ .single by decide), Ratings.speedIndex, pyNum, pyAttr, p1, G]
      exact ⟨_, rfl, G1⟩
    | varSpeed =>
      obtain ⟨c, p1, q2, r3, r4⟩ := Pl (by decide)
      obtain ⟨ci, p2, q3, r5, r6⟩ := Pi rfl
      obtain ⟨cb, p3, q4, r7, r8⟩ := Pb rfl
      obtain ⟨d1, H, H1, H2, H3⟩ := step P _ q3 _ r5 r6 d D1 D2 D3
      obtain ⟨d2, I, I1, I2, I3⟩ := step P _ q4 _ r7 r8 d1 H1 H2 H3
      obtain ⟨d', G, G1, G2, G3⟩ := step P _ q2 _ r3 r4 d2 I1 I2 I3
      have hm : ∀ r, (modelRoles .varSpeed r).boost = some 0 := fun r => rfl
      have hn : ∀ r, (modelRoles .varSpeed r).intermediate = 2 := fun r => rfl
      simp only [coilData, coilData.low, coilData.boost, hrf, D, bind_ok, pure_eq_ok, hrl _ (show Staging.varSpeed ≠ .single by decide), Ratings.speedIndex, pyNum, pyAttr, p1, p2, p3, hm, hn, H, I, G]
      exact ⟨_, rfl, G1⟩
  have hchk : finalChecks (speedCount st) (speedCount st) k.cool.caps coil.shr (k.grossHeatingCop.map some) k.heat.caps = .ok () := by
    simp only [finalChecks, checkArrayLengths, checkArrayLength, kc, kh, L1, L2, hlen, List.length_map, l4, ne_eq, not_true_eq_false, if_false, bind_ok, checkArrayOrder_ok Rc,
      checkArrayOrder_ok Rh]
  have n1 : ¬ (a.hasNetCoolingCop = false ∧ a.hasGrossCoolingCop = false) := by rcases hcop1 with h | h <;> simp [h]
  have n2 : ¬ (a.netHeatingCop.isNone = true ∧ a.hasGrossHeatingCop = false) := by
    rcases hcop2 with h | h
    · cases hh : a.netHeatingCop <;> simp_all
    · simp [h]
  simp only [build, h1, h2, h3, h4, bind_ok, hRc, hRh, hk, hS, hcr, hP, hcoil, if_neg n1, if_neg n2, hchk, pure_eq_ok]
  refine ⟨_, rfl, F.isSt, F.isNet, kc, kh, F.psc, ⟨by simp only; rw [F.isRc]; exact hrf _, by simp only; rw [F.isRh]; exact hrf _⟩, fun i q hq => start_airflow' M1 hq,
    fun i q hq => start_airflow' M2 hq, ?_, ?_, ?_, ?_, s12.trans hd, ?_⟩
  · intro x' y' hx' hy'
    rw [hx] at hx'; cases hx'
    rw [hy] at hy'; cases hy'
    obtain ⟨_, _, _, _, _, f1⟩ := A1
    obtain ⟨_, _, _, _, _, f2⟩ := A2
    rw [hrf, start_airflow' M1 hx] at f1; cases f1
    rw [hrf, start_airflow' M2 hy] at f2; cases f2
    rw [max_mul_of_nonneg _ _ (by have := u.cfm_pos; have := u.ton_pos; positivity)]
    exact A4
  · intro i q hq
    obtain ⟨w, hw, w0, w1⟩ := P1 i q hq
    have := grossList_get s8 (i := i) (q := q) (w := w) (by rw [F.isSt, ← L1]; exact (List.getElem?_eq_some_iff.1 hq).1) (by rw [kc]; exact hq) hw
    exact ⟨w, by rw [this, one_mul], w0, w1⟩
  · intro i q hq
    obtain ⟨w, hw, w0, w1⟩ := P2 i q hq
    have := grossList_get s9 (i := i) (q := q) (w := w) (by rw [F.isSt, ← L2]; exact (List.getElem?_eq_some_iff.1 hq).1) (by rw [kh]; exact hq) hw
    exact ⟨w, by rw [this]; congr 2; ring, w0, w1⟩
  · intro heating i o hi
    cases heating with
    | true => exact CH i hi o
    | false => obtain ⟨c, q, -, hc⟩ := CC i hi o; exact ⟨c, hc.made⟩
  · intro i q hq
    obtain ⟨c, q', hq', hc⟩ := CC i (by rw [← L1]; exact (List.getElem?_eq_some_iff.1 hq).1) (defaultOutdoor E false)
    rw [hq] at hq'; cases hq'
    obtain ⟨t, ht, t1, t2⟩ := gross i q c hq hc
    exact ⟨Rc.pos q (List.mem_of_getElem? hq), c, t, hc, ht, t1, t2⟩

end Resdx.Build
