import Verif.Props.IdfWritten
import Verif.Props.Rep205
import Verif.Props.RatedAir

/-! # C114 with air as published; C119: the ASHRAE 205 representation of a RESNET unit -/

set_option linter.unusedSectionVars false
set_option linter.unusedSimpArgs false

namespace Resdx.Props

open Spec Spec.Idf BaseModel Fan ResnetFan Tabular Build Idf Rep205

variable {u : Units ℝ} {E : Env ℝ} {T : Coil.Tools} {brentq : Brentq} {a : Args} {B : Built} {X : FileContext} {fmt : ℝ → Nat → String} {qc qh : List ℝ} {sat : ℝ → ℝ}

/-! ## C114 -/

/-- The capacities that a unit was made from cover its speeds. -/
theorem made_capacity {i : Nat} (hm : Made u E a B.core.st B.core.net qc qh B) (hS : sys a B.core = .ok B.sys) (hi : i < speedCount B.core.st) : ∃ q, qc[i]? = some q := by
  obtain ⟨c, hc⟩ := hm.conditions false i (defaultOutdoor E false) hi
  obtain ⟨_, _, _, cap, _, -, -, -, -, -, h, -⟩ := Sys.makeCondition_spec E B.sys false _ _ _ _ hc
  obtain ⟨e, -⟩ := sys_ok hS
  refine ⟨cap, ?_⟩
  rw [← hm.coolCaps, ← e]
  simpa using h

/-- C114 with air as published: the sensible heat ratios need not be assumed. -/
theorem C114_published (hP : Published u E T sat) (hbr : BrentqSpec brentq) (harg : ∀ l, IsArgsort l (X.argsort l)) (h : build u E T brentq a = .ok B)
    (ht : ∀ d, a.tables = some d → RatedTables (tableSpeeds B.core.st) d) (ha1 : a.coolingPerCap = none) (ha2 : a.heatingPerCap = none) (hd : a.chargeDeviation = 0) (hon : a.heatingOn = none)
    (hm : Made u E a B.core.st B.core.net qc qh B) (hs : ∃ x y, qc[fullIndex B.core.st]? = some x ∧ qh[fullIndex B.core.st]? = some y ∧ RatedSizes (max x y) qc ∧ RatedSizes (max x y) qh)
    (hA : FileAir E B.heatingOff) (hM : FileMap u B.core.st B.core.net qc qh B.heatingOff) (htf : B.sys.defrost.control = .timed → ∃ x, X.timeFraction B.points.h1Full = .ok x)
    (calls : List FileCall) (o : FileOptions) : ∃ s, (B.writeIdf u E T brentq X fmt o (after u E T brentq B calls)).1 = .ok s := by
  obtain ⟨_, _, _, _, _, _, -, -, -, -, -, -, -, -, hS, -⟩ := build_ok h
  refine C114_written hbr harg h ht ha1 ha2 hd hon hm hs (hP.indoor.2 true) hA hM ?_ htf calls o
  intro i hi c hc
  obtain ⟨q, hq⟩ := made_capacity hm hS hi
  obtain ⟨-, c', x, hc', hx, -⟩ := C102_published hP h hm hq hi
  rw [hc] at hc'; cases hc'
  exact ⟨x, hx⟩

/-! ## C119 -/

theorem linspace4_mem {a b x : ℝ} (h : x ∈ linspace4 a b) : ∃ k : Nat, k < 4 ∧ x = a + k * ((b - a) / 3) := by
  simp only [linspace4, List.mem_map, List.mem_range] at h
  obtain ⟨k, hk, rfl⟩ := h
  exact ⟨k, hk, rfl⟩

theorem linspace4_frF {a b : ℝ} : linspace4 (frF a) (frF b) = (linspace4 a b).map frF := by
  simp only [linspace4, List.map_map]
  refine List.map_congr_left fun k _ => ?_
  simp only [Function.comp, frF]; ring

theorem linspace4_get {a b : ℝ} : (linspace4 a b)[0]? = some a := by simp [linspace4]

/-- The axes of a map. -/
theorem map_axes {S : Sys ℝ} {n : Nat} {A : Axes ℝ} (h : Rep205.axes u E.rhoStd S.netCooling n = .ok A) :
    ∃ last first, S.netCooling.getLast? = some last ∧ S.netCooling[0]? = some first ∧ A.outdoorDb = (linspace4 55 125).map frF ∧ A.indoorRh = linspace4 0 1 ∧ A.indoorDb = (linspace4 65 90).map frF ∧
      A.massFlow = linspace4 (280 * (u.cfm / u.ton) * last * E.rhoStd) (500 * (u.cfm / u.ton) * first * E.rhoStd) ∧ A.sequence = (List.range n).map (· + 1) ∧
      A.pressure = linspace4 57226.508 106868.78 := by
  simp only [Rep205.axes, bind_eq_ok, pure_eq_ok, Except.ok.injEq] at h
  obtain ⟨last, h1, first, h2, rfl⟩ := h
  refine ⟨last, first, ?_, pyGet_eq_ok.1 h2, linspace4_frF, rfl, linspace4_frF, rfl, rfl, rfl⟩
  have : S.netCooling ≠ [] := by
    intro e; rw [e] at h2; cases h2
  obtain ⟨l, x, e⟩ := (List.eq_nil_or_concat' S.netCooling).resolve_left this
  rw [e, Fan.pyGetI_last] at h1; cases h1
  rw [e]; simp

/-- The wet bulb of a state made from a relative humidity. -/
theorem humid_wb {db p v : ℝ} {s : Psych.PsychState ℝ} (h : Psych.init E.lib db p [("rel_hum", v)] = .ok s) : s.db = db ∧ ∃ w, (Psych.getWb s).1 = .ok w := by
  rw [Psych.init_relHum] at h
  simp only [bind_eq_ok, Except.ok.injEq] at h
  obtain ⟨w, -, rfl⟩ := h
  exact ⟨rfl, _, rfl⟩

/-- A point of a map: the values that the unit returns for a condition with a given airflow ratio. -/
theorem point_formula (h : build u E T brentq a = .ok B) (ht : ∀ d, a.tables = some d → RatedTables (tableSpeeds B.core.st) d) (hm : Made u E a B.core.st B.core.net qc qh B) {i : Nat} {σ q Q : ℝ}
    (hσ : TableSpeed B.core.st i σ) (hq : qc[i]? = some q) {c : Conditions ℝ} {o : Psych.PsychState ℝ} {w r : ℝ} (hi : c.flow.compressorSpeed = i) (hw : (Psych.getWb c.indoor).1 = .ok w)
    (hr : c.flow.ratio = some r) (h125 : toF c.outdoor.db ≤ 125) (ho : Resnet.ratedOutdoor E c.outdoor.db = .ok o) (hQ : B.core.net.coolingCapacity σ c.outdoor.db = .ok Q) :
    ∃ f, 0 < f ∧ f ≤ 337.2 / u.ton * q ∧
      Resnet.grossTotalCoolingCapacity E B.sys (data B.core) c = .ok ((Q + f) * (coolCapF r * coolCapX (toF w) (toF c.outdoor.db))) ∧
      ∀ P, B.core.net.coolingPower σ c.outdoor.db = .ok P → 0 ≤ coolEirF r * coolCapF r →
        Resnet.grossCoolingPower E B.sys (data B.core) c = .ok ((P - f) * (coolEirF r * coolCapF r * (coolEirX (toF w) (toF c.outdoor.db) * coolCapX (toF w) (toF c.outdoor.db)))) := by
  obtain ⟨fc, fh, F⟩ := built_facts h ht
  obtain ⟨_, _, _, _, _, _, -, -, -, -, -, -, -, -, hS, -⟩ := build_ok h
  obtain ⟨w0, hg, w1, w2⟩ := hm.grossCool i q hq
  obtain ⟨q0, -⟩ := hm.grossRated i q hq
  obtain ⟨rated, hrc⟩ := hm.conditions false i o (tableSpeed_lt hσ)
  obtain ⟨f1, f2⟩ := (fan_powers F (built_rated h ht) hS hm).1 i σ q hσ hq
  obtain ⟨Q', e1, e2⟩ := F.gross.coolCap σ c.outdoor.db
  rw [hQ] at e1; cases e1
  refine ⟨fc σ, f1, f2, ?_, fun P hP hE => ?_⟩
  · obtain ⟨x, h1, h2⟩ := gross_capacity_at F hS hσ hg (by linarith) hi hw hr h125 ho hrc
    rw [e2] at h1; cases h1
    exact h2
  · obtain ⟨x, y, -, h2, -, h4⟩ := gross_cooling_at' F hS hσ hg (by linarith) hi hw hr hE h125 ho hrc
    obtain ⟨P', e3, e4⟩ := F.gross.coolPow σ c.outdoor.db
    rw [hP] at e3; cases e3
    rw [e4] at h2; cases h2
    exact h4

theorem outdoor_le {t : ℝ} (h : t ∈ linspace4 (55 : ℝ) 125) : t ≤ 125 ∧ 55 ≤ t := by
  obtain ⟨k, hk, rfl⟩ := linspace4_mem h
  have : (k : ℝ) ≤ 3 := by exact_mod_cast Nat.lt_succ_iff.1 hk
  have : (0 : ℝ) ≤ k := Nat.cast_nonneg _
  constructor <;> nlinarith

theorem flow_sign {r : ℝ} (h0 : 0 < r) : (0 ≤ coolCapF r → 0 ≤ coolEirF r) ∧ (4.2899 < r → coolCapF r < 0) ∧ (r ≤ 4.2715 → 0 < coolCapF r ∧ 0 < coolEirF r) := by
  unfold coolCapF coolEirF
  refine ⟨fun h => ?_, fun h => ?_, fun h => ⟨?_, ?_⟩⟩
  · have : r ≤ 4.3 := by
      by_contra h'
      have h' := not_lt.1 (fun h'' => h' (le_of_lt h''))
      nlinarith
    nlinarith
  · nlinarith
  · nlinarith
  · nlinarith

/-- A capacity is only returned when the rated outdoor air can be evaluated. -/
theorem outdoor_of_total {c : Conditions ℝ} {v : ℝ} (h : (B.unit u E T brentq).grossTotalCoolingCapacity (some c) = .ok v) : ∃ o, Resnet.ratedOutdoor E c.outdoor.db = .ok o := by
  obtain ⟨x, _, hx, -⟩ := DX.Performance.grossTotal_eq_ok.1 h
  have hx : Resnet.grossTotalCoolingCapacity E B.sys (data B.core) c = .ok x := hx
  unfold Resnet.grossTotalCoolingCapacity at hx
  rw [show (data B.core).gross = some B.core.gross from rfl] at hx
  simp only [Resnet.correction, bind_eq_ok] at hx
  obtain ⟨_, -, _, -, _, ⟨o, ho, -⟩, -⟩ := hx
  exact ⟨o, ho⟩

theorem mass_flow_pos {x y : ℝ} (hx : 0 < x) (hy : 0 < y) {m : ℝ} (h : m ∈ linspace4 x y) : 0 < m := by
  obtain ⟨k, hk, rfl⟩ := linspace4_mem h
  have h3 : (k : ℝ) ≤ 3 := by exact_mod_cast Nat.lt_succ_iff.1 hk
  have h0 : (0 : ℝ) ≤ k := Nat.cast_nonneg _
  have : x + k * ((y - x) / 3) = x * (3 - k) / 3 + y * k / 3 := by ring
  rw [this]
  rcases h0.eq_or_lt with e | e
  · rw [← e]; linarith
  · have := mul_pos hy e
    have := mul_nonneg hx.le (sub_nonneg.2 h3)
    linarith

set_option maxHeartbeats 1000000 in
/-- C119: the values of a map of a RESNET unit. A point stores the gross capacity and power of the net table at the outdoor temperature, with the fan power, times the modifiers of the wet bulb of the
indoor air and of the airflow ratio, which is the rated mass flow over the one of the axis. -/
theorem C119_map {F : Type} {A : Attributes ℝ} {fan : Py F} {r : Rep ℝ F} (h : build u E T brentq a = .ok B) (ht : ∀ d, a.tables = some d → RatedTables (tableSpeeds B.core.st) d)
    (hm : Made u E a B.core.st B.core.net qc qh B) (hrho : 0 < E.rhoStd) (hr : representation u E B.sys (B.unit u E T brentq) A fan = .ok r) (i₀ i₁ i₂ i₃ i₄ i₅ : Nat) (tOut rh tIn m : ℝ) (k : Nat)
    (p σ q : ℝ) (h0 : r.axes.outdoorDb[i₀]? = some tOut) (h1 : r.axes.indoorRh[i₁]? = some rh) (h2 : r.axes.indoorDb[i₂]? = some tIn) (h3 : r.axes.massFlow[i₃]? = some m)
    (h4 : r.axes.sequence[i₄]? = some k) (h5 : r.axes.pressure[i₅]? = some p) (hσ : TableSpeed B.core.st (A.nCooling - k) σ) (hq : qc[A.nCooling - k]? = some q) :
    ∃ e s w f Q P, r.map[rowMajor ([i₀, i₁, i₂, i₃, i₄, i₅].zip (axisLengths r.axes))]? = some e ∧ Psych.init E.lib tIn p [("rel_hum", rh)] = .ok s ∧ (Psych.getWb s).1 = .ok w ∧
      0 < f ∧ f ≤ 337.2 / u.ton * q ∧ B.core.net.coolingCapacity σ tOut = .ok Q ∧ B.core.net.coolingPower σ tOut = .ok P ∧
      e.total = (Q + f) * (coolCapF (400 * (u.cfm / u.ton) * q * E.rhoStd / m) * coolCapX (toF w) (toF tOut)) ∧
      (0 ≤ Q → e.power = (P - f) * (coolEirF (400 * (u.cfm / u.ton) * q * E.rhoStd / m) * coolCapF (400 * (u.cfm / u.ton) * q * E.rhoStd / m) * (coolEirX (toF w) (toF tOut) * coolCapX (toF w) (toF tOut)))) := by
  obtain ⟨e, c, v, v0, he, e1, -, e3, ho, hi, hsp, hv, -, -, -, hrat, -⟩ := C91_stored_condition hr i₀ i₁ i₂ i₃ i₄ i₅ tOut rh tIn m k p h0 h1 h2 h3 h4 h5
  obtain ⟨_, _, _, _, _, _, -, -, -, -, -, -, -, -, hS, -⟩ := build_ok h
  obtain ⟨fc, fh, F⟩ := built_facts h ht
  obtain ⟨s1, -, s3, -⟩ := sys_ok hS
  obtain rfl : v = q * (400 * u.cfm / u.ton) := by
    rw [s3, hm.coolAirflow _ q hq] at hv
    simpa using hv.symm
  obtain ⟨hdb, -⟩ := humid_wb ho
  obtain ⟨-, w, hw⟩ := humid_wb hi
  obtain ⟨o, hro⟩ := outdoor_of_total e1
  obtain ⟨Q, hQ, -⟩ := F.gross.coolCap σ c.outdoor.db
  obtain ⟨P, hP, -⟩ := F.gross.coolPow σ c.outdoor.db
  have hax := hr
  simp only [representation, bind_eq_ok, pure_eq_ok, Except.ok.injEq] at hax
  obtain ⟨_, -, _, -, _, -, A', hA, _, -, _, -, rfl⟩ := hax
  obtain ⟨last, first, a1, a2, a3, -, -, a4, -⟩ := map_axes hA
  rw [s1, hm.coolCaps] at a1 a2
  have q0 := fun i q hq => (hm.grossRated i q hq).1
  have hcf := u.cfm_pos
  have hto := u.ton_pos
  have m0 : 0 < m := by
    have := List.mem_of_getElem? h3
    simp only [a4] at this
    have l1 : 0 < first := q0 _ _ a2
    have l2 : 0 < last := by
      rw [List.getLast?_eq_getElem?] at a1
      exact q0 _ _ a1
    exact mass_flow_pos (by positivity) (by positivity) this
  have h125 : toF c.outdoor.db ≤ 125 := by
    have := List.mem_of_getElem? h0
    simp only [a3] at this
    obtain ⟨t, htm, rfl⟩ := List.mem_map.1 this
    rw [hdb, toF_frF]
    exact (outdoor_le htm).1
  have er : q * (400 * u.cfm / u.ton) * E.rhoStd / m = 400 * (u.cfm / u.ton) * q * E.rhoStd / m := by ring
  rw [er] at hrat
  have r0 : 0 < 400 * (u.cfm / u.ton) * q * E.rhoStd / m := by have := q0 _ _ hq; positivity
  generalize 400 * (u.cfm / u.ton) * q * E.rhoStd / m = ρ at hrat r0 ⊢
  obtain ⟨f, f1, f2, g1, g2⟩ := point_formula h ht hm hσ hq hsp hw hrat h125 hro hQ
  rw [hdb] at g1 g2 hQ hP h125
  have hdev := hm.charge
  have t1 : e.total = (Q + f) * (coolCapF ρ * coolCapX (toF w) (toF tOut)) ∧ 0 ≤ e.total := by
    obtain ⟨x, y, x1, x2, x3, x4⟩ := DX.Performance.grossTotal_eq_ok.1 e1
    have x1 : Resnet.grossTotalCoolingCapacity E B.sys (data B.core) c = .ok x := x1
    have x2 : Nrel.gradingModel E B.sys (Resnet.raw E B.sys (data B.core)) .capacity c = .ok y := x2
    simp only [Nrel.gradingModel, hdev, if_true, Except.ok.injEq] at x2
    rw [g1] at x1; cases x1
    subst x2
    rw [x4, mul_one]
    exact ⟨rfl, by simpa using x3⟩
  refine ⟨e, c.indoor, w, f, Q, P, he, hi, hw, f1, f2, hQ, hP, t1.1, fun hQ0 => ?_⟩
  obtain ⟨p1, p2⟩ := coolX_positive (x := toF w) h125
  have c0 : 0 ≤ coolCapF ρ := by
    by_contra hneg
    have h1 : (Q + f) * (coolCapF ρ * coolCapX (toF w) (toF tOut)) < 0 := mul_neg_of_pos_of_neg (by linarith) (mul_neg_of_neg_of_pos (not_le.1 hneg) p1)
    rw [← t1.1] at h1
    linarith [t1.2]
  have g3 := g2 P hP (mul_nonneg ((flow_sign r0).1 c0) c0)
  obtain ⟨x, y, x1, x2, -, x4⟩ := DX.Performance.grossPower_eq_ok.1 e3
  have x1 : Resnet.grossCoolingPower E B.sys (data B.core) c = .ok x := x1
  have x2 : Nrel.gradingModel E B.sys (Resnet.raw E B.sys (data B.core)) .power c = .ok y := x2
  simp only [Nrel.gradingModel, hdev, if_true, Except.ok.injEq] at x2
  rw [g3] at x1; cases x1
  subst x2
  rw [x4, mul_one]

/-- C119 (the claim is false of the code): no representation can be generated for a RESNET unit whose lowest rated cooling capacity is less than 0.333 of its highest. The smallest flow of the map's
axis is less than a quarter of the rated flow of the highest speed, and the airflow ratio is taken the wrong way round, so the gross capacity there is negative. -/
theorem C119_never {F : Type} {A : Attributes ℝ} {fan : Py F} (h : build u E T brentq a = .ok B) (ht : ∀ d, a.tables = some d → RatedTables (tableSpeeds B.core.st) d)
    (hm : Made u E a B.core.st B.core.net qc qh B) (hrho : 0 < E.rhoStd) (hn : A.nCooling = speedCount B.core.st) {q0 qn : ℝ} (h0 : qc[0]? = some q0) (hl : qc.getLast? = some qn)
    (hratio : qn < 0.333 * q0) {σ t Q : ℝ} (hσ : TableSpeed B.core.st 0 σ) (htm : t ∈ linspace4 (55 : ℝ) 125) (hQ : B.core.net.coolingCapacity σ (frF t) = .ok Q) (hQ0 : 0 ≤ Q) :
    ∀ r, representation u E B.sys (B.unit u E T brentq) A fan ≠ .ok r := by
  intro r hr
  obtain ⟨_, _, _, _, _, _, -, -, -, -, -, -, -, -, hS, -⟩ := build_ok h
  obtain ⟨s1, -⟩ := sys_ok hS
  have hax : ∃ last first, B.sys.netCooling.getLast? = some last ∧ B.sys.netCooling[0]? = some first ∧ r.axes.outdoorDb = (linspace4 55 125).map frF ∧ r.axes.indoorRh = linspace4 0 1 ∧
      r.axes.indoorDb = (linspace4 65 90).map frF ∧ r.axes.massFlow = linspace4 (280 * (u.cfm / u.ton) * last * E.rhoStd) (500 * (u.cfm / u.ton) * first * E.rhoStd) ∧
      r.axes.sequence = (List.range A.nCooling).map (· + 1) ∧ r.axes.pressure = linspace4 57226.508 106868.78 := by
    have := hr
    simp only [representation, bind_eq_ok, pure_eq_ok, Except.ok.injEq] at this
    obtain ⟨_, -, _, -, _, -, A', hA, _, -, _, -, rfl⟩ := this
    exact map_axes hA
  obtain ⟨last, first, a1, a2, a3, a4, a5, a6, a7, a8⟩ := hax
  rw [s1, hm.coolCaps] at a1 a2
  rw [hl] at a1; cases a1
  rw [h0] at a2; cases a2
  obtain ⟨i₀, hi₀⟩ := List.mem_iff_getElem?.1 htm
  have hpos : 0 < A.nCooling := by rw [hn]; exact Nat.lt_of_le_of_lt (Nat.zero_le _) (tableSpeed_lt hσ)
  have b0 : r.axes.outdoorDb[i₀]? = some (frF t) := by rw [a3, List.getElem?_map, hi₀]; rfl
  have b4 : r.axes.sequence[A.nCooling - 1]? = some A.nCooling := by
    rw [a7, List.getElem?_map, List.getElem?_range (by omega)]
    simp; omega
  have b2 : r.axes.indoorDb[0]? = some (frF 65) := by rw [a5, List.getElem?_map, linspace4_get]; rfl
  obtain ⟨e, s, w, f, Q', P, he, -, -, f1, -, hQ', -, htot, -⟩ := C119_map h ht hm hrho hr i₀ 0 0 0 (A.nCooling - 1) 0 (frF t) 0 (frF 65) _ A.nCooling _ σ q0 b0
    (by rw [a4]; exact linspace4_get) b2 (by rw [a6]; exact linspace4_get) b4 (by rw [a8]; exact linspace4_get) (by rw [Nat.sub_self]; exact hσ) (by rw [Nat.sub_self]; exact h0)
  rw [hQ] at hQ'; cases hQ'
  have q0p := (hm.grossRated 0 q0 h0).1
  have qnp : 0 < qn := by
    rw [List.getLast?_eq_getElem?] at hl
    exact (hm.grossRated _ qn hl).1
  have hcf := u.cfm_pos
  have hto := u.ton_pos
  have e1 : 400 * (u.cfm / u.ton) * q0 * E.rhoStd / (280 * (u.cfm / u.ton) * qn * E.rhoStd) = 10 / 7 * (q0 / qn) := by field_simp; ring
  rw [e1] at htot
  have hb : 4.2899 < 10 / 7 * (q0 / qn) := by
    have : 3.003 < q0 / qn := (lt_div_iff₀ qnp).2 (by linarith)
    linarith
  obtain ⟨p1, -⟩ := coolX_positive (x := toF w) (show toF (frF t) ≤ 125 by rw [toF_frF]; exact (outdoor_le htm).1)
  have hneg : e.total < 0 := by
    rw [htot]
    exact mul_neg_of_pos_of_neg (by linarith) (mul_neg_of_neg_of_pos ((flow_sign (by positivity)).2.1 hb) p1)
  obtain ⟨e', c, _, _, he', ht', -⟩ := C91_stored_condition hr i₀ 0 0 0 (A.nCooling - 1) 0 (frF t) 0 (frF 65) _ A.nCooling _ b0
    (by rw [a4]; exact linspace4_get) b2 (by rw [a6]; exact linspace4_get) b4 (by rw [a8]; exact linspace4_get)
  rw [he] at he'; cases he'
  obtain ⟨_, _, -, -, h1, h2⟩ := DX.Performance.grossTotal_eq_ok.1 ht'
  linarith

/-- The library evaluates the air of the map: the outdoor temperatures at 40 % relative humidity, at the standard pressure and at those of the map, and the indoor air. -/
structure MapAir (E : Env ℝ) : Prop where
  rated : ∀ t ∈ 95 :: linspace4 (55 : ℝ) 125, ∃ o, Resnet.ratedOutdoor E (frF t) = .ok o
  outdoor : ∀ t ∈ linspace4 (55 : ℝ) 125, ∀ p ∈ linspace4 (57226.508 : ℝ) 106868.78, ∃ o, Psych.init E.lib (frF t) p [("rel_hum", 0.4)] = .ok o
  indoor : ∀ t ∈ linspace4 (65 : ℝ) 90, ∀ rh ∈ linspace4 (0 : ℝ) 1, ∀ p ∈ linspace4 (57226.508 : ℝ) 106868.78, ∃ i rho, Psych.init E.lib (frF t) p [("rel_hum", rh)] = .ok i ∧ rho ≠ 0 ∧
    (Psych.getRho E.lib i).1 = .ok rho

/-- The net cooling map is positive at the outdoor temperatures of the representation, with powers above the largest fan power at the rated capacity of the speed. -/
def MapNet (u : Units ℝ) (st : Staging) (net : Perf ℝ) (qc : List ℝ) : Prop :=
  ∀ i σ, TableSpeed st i σ → ∀ t ∈ 95 :: linspace4 (55 : ℝ) 125, ∃ Q P, net.coolingCapacity σ (frF t) = .ok Q ∧ 0 ≤ Q ∧ net.coolingPower σ (frF t) = .ok P ∧ ∀ q, qc[i]? = some q → 337.2 / u.ton * q < P

/-- The capacity and power at a point with a moderate airflow ratio. -/
theorem point_returns (h : build u E T brentq a = .ok B) (ht : ∀ d, a.tables = some d → RatedTables (tableSpeeds B.core.st) d) (hm : Made u E a B.core.st B.core.net qc qh B) (hA : MapAir E)
    (hM : MapNet u B.core.st B.core.net qc) {i : Nat} {c : Conditions ℝ} {w r t : ℝ} (hi : i < speedCount B.core.st) (hci : c.flow.compressorSpeed = i) (hw : (Psych.getWb c.indoor).1 = .ok w)
    (hr : c.flow.ratio = some r) (hr0 : 0 < r) (hr1 : r ≤ 4.2715) (htm : t ∈ 95 :: linspace4 (55 : ℝ) 125) (htd : c.outdoor.db = frF t) :
    (∃ q, (B.unit u E T brentq).grossTotalCoolingCapacity (some c) = .ok q ∧ 0 < q) ∧ ∃ p, (B.unit u E T brentq).grossCoolingPower (some c) = .ok p ∧ 0 < p := by
  obtain ⟨_, _, _, _, _, _, -, -, -, -, -, -, -, -, hS, -⟩ := build_ok h
  obtain ⟨σ, hσ⟩ : ∃ σ, TableSpeed B.core.st i σ := by
    have := speedMap_get (st := B.core.st) (i := i) (σ := (speedMap B.core.st)[i]'(by rw [speedMap_length]; exact hi))
    exact ⟨_, this.1 (List.getElem?_eq_getElem _)⟩
  obtain ⟨q, hq⟩ := made_capacity hm hS hi
  obtain ⟨Q, P, m1, m2, m3, m4⟩ := hM i σ hσ t htm
  obtain ⟨o, ho⟩ := hA.rated t htm
  have h125 : t ≤ 125 := by
    rcases List.mem_cons.1 htm with rfl | h'
    · norm_num
    · exact (outdoor_le h').1
  obtain ⟨f, f1, f2, g1, g2⟩ := point_formula h ht hm hσ hq hci hw hr (by rw [htd, toF_frF]; exact h125) (by rw [htd]; exact ho) (by rw [htd]; exact m1)
  obtain ⟨-, -, s3⟩ := flow_sign hr0
  obtain ⟨k1, k2⟩ := s3 hr1
  have g3 := g2 P (by rw [htd]; exact m3) (mul_pos k2 k1).le
  have m5 := m4 q hq
  obtain ⟨z1, z2⟩ := unit_gross_cooling (u := u) (T := T) (brentq := brentq) (P := B.points) (ntu := B.coil.ntu) hm.charge g1 g3
  rw [htd, toF_frF] at z1 z2
  obtain ⟨x1, x2⟩ := coolX_positive (x := toF w) h125
  have y1 : 0 < (Q + f) * (coolCapF r * coolCapX (toF w) t) := mul_pos (by linarith) (mul_pos k1 x1)
  have y2 : 0 < (P - f) * (coolEirF r * coolCapF r * (coolEirX (toF w) t * coolCapX (toF w) t)) := mul_pos (by linarith) (mul_pos (mul_pos k2 k1) (mul_pos x2 x1))
  rw [if_neg (not_lt.2 y1.le)] at z1
  rw [if_neg (not_lt.2 y2.le)] at z2
  exact ⟨⟨_, z1, y1⟩, _, z2, y2⟩

/-- C119: a representation is generated for a RESNET unit none of whose rated cooling capacities is more than 2.99 times the last one: the air of the map can be evaluated, the net map is positive,
the coil calculation returns at the points of the map and at the rating condition, and the fan has a representation. -/
theorem C119_generated {F : Type} {A : Attributes ℝ} {fan : Py F} (h : build u E T brentq a = .ok B) (ht : ∀ d, a.tables = some d → RatedTables (tableSpeeds B.core.st) d)
    (hm : Made u E a B.core.st B.core.net qc qh B) (hrho : 0 < E.rhoStd) (hn : A.nCooling = speedCount B.core.st) {q0 qn : ℝ} (h0 : qc[0]? = some q0) (hl : qc.getLast? = some qn)
    (hq0 : qn ≤ q0) (hqn : ∀ q ∈ qc, q ≤ 2.99 * qn) (hA : MapAir E) (hM : MapNet u B.core.st B.core.net qc)
    (hsens : ∀ tOut ∈ linspace4 (55 : ℝ) 125, ∀ rh ∈ linspace4 (0 : ℝ) 1, ∀ tIn ∈ linspace4 (65 : ℝ) 90, ∀ p ∈ linspace4 (57226.508 : ℝ) 106868.78, ∀ m i c, 0 < m → i < speedCount B.core.st →
      gridCondition E B.sys (frF tOut) rh (frF tIn) m i p = .ok c → (∃ q, (B.unit u E T brentq).grossTotalCoolingCapacity (some c) = .ok q ∧ 0 < q) →
      ∃ x, (B.unit u E T brentq).grossSensibleCoolingCapacity (some c) = .ok x)
    (hshr : ∃ x, (B.unit u E T brentq).grossSHR none = .ok x) (hfan : ∃ f, fan = .ok f) :
    ∃ r, representation u E B.sys (B.unit u E T brentq) A fan = .ok r := by
  obtain ⟨_, st, _, _, rc, rh, -, -, -, -, -, -, -, hcore, hS, hpts, -⟩ := build_ok h
  obtain ⟨s1, -, s3, -⟩ := sys_ok hS
  have hcf := u.cfm_pos
  have hto := u.ton_pos
  have qp := fun i q hq => (hm.grossRated i q hq).1
  have qnp : 0 < qn := by
    rw [List.getLast?_eq_getElem?] at hl
    exact qp _ qn hl
  have q0p := qp 0 q0 h0
  have est : B.core.rc = rc := by
    unfold core at hcore
    simp only [bind_eq_ok, pure_eq_ok, Except.ok.injEq] at hcore
    obtain ⟨_, -, _, -, _, -, ⟨_, _, _⟩, -, _, -, _, -, _, -, _, -, _, -, _, -, _, -, h12⟩ := hcore
    rw [← h12]
  have hne : B.sys.netCooling ≠ [] := by
    rw [s1, hm.coolCaps]
    rintro rfl
    simp at h0
  have pA : fileCooling E B.sys B.core.rc.full none = .ok B.points.aFull := by rw [est]; exact (full_points hpts).1
  have hfull : B.core.rc.full < speedCount B.core.st := by rw [hm.full.1]; exact full_lt _
  obtain ⟨-, c2, c3, c4, c5, -⟩ := fileCooling_rated pA
  obtain ⟨⟨qA, gA, gA0⟩, pwA, gP, gP0⟩ := point_returns (T := T) h ht hm hA hM hfull c2 c3 c4 one_pos (by norm_num) (List.mem_cons_self) c5
  have gA' : (B.unit u E T brentq).grossTotalCoolingCapacity none = .ok qA := gA
  have gP' : (B.unit u E T brentq).grossCoolingPower none = .ok pwA := gP
  refine (C65_returns_iff hne).2 ⟨⟨qA, gA'⟩, ⟨qA / pwA, ?_⟩, hshr, hfan, ?_⟩
  · simp only [DX.Performance.grossTotalCoolingCOP, gA', gP', bind_ok, pdiv_ok gP0.ne']
  have hax : ∃ A', Rep205.axes u E.rhoStd B.sys.netCooling A.nCooling = .ok A' := by
    obtain ⟨l, x, e⟩ := (List.eq_nil_or_concat' B.sys.netCooling).resolve_left hne
    have : pyGet B.sys.netCooling 0 = .ok q0 := pyGet_eq_ok.2 (by rw [s1, hm.coolCaps]; exact h0)
    exact ⟨_, by simp only [Rep205.axes]; rw [this, e, Fan.pyGetI_last]; rfl⟩
  obtain ⟨A', hA'⟩ := hax
  refine ⟨A', hA', ?_⟩
  obtain ⟨last, first, a1, a2, a3, a4, a5, a6, a7, a8⟩ := map_axes hA'
  rw [s1, hm.coolCaps] at a1 a2
  rw [hl] at a1; cases a1
  rw [h0] at a2; cases a2
  rw [a3, a4, a5, a6, a7, a8]
  intro tOut hOut rh hrh tIn hIn m hmm k hk p hp
  obtain ⟨t, htm, rfl⟩ := List.mem_map.1 hOut
  obtain ⟨t', htm', rfl⟩ := List.mem_map.1 hIn
  obtain ⟨j, hj, rfl⟩ := List.mem_map.1 hk
  have hi : A.nCooling - (j + 1) < speedCount B.core.st := by have := List.mem_range.1 hj; omega
  generalize A.nCooling - (j + 1) = i at hi ⊢
  obtain ⟨q, hq⟩ := made_capacity hm hS hi
  obtain ⟨so, hso⟩ := hA.outdoor t htm p hp
  obtain ⟨si, rho, hsi, r0, hrho'⟩ := hA.indoor t' htm' rh hrh p hp
  obtain ⟨c0, hc0⟩ := hm.conditions false i so hi
  obtain ⟨c, hc⟩ := recondition hc0 r0 hrho' (some so)
  have hc' := hc
  obtain ⟨rho1, pr, v, cap, fs, k1, k2, k3, k4, k5, k6, k7, ⟨full, k8, k9, rfl⟩, k10, rfl⟩ := Sys.makeCondition_spec E B.sys false _ _ _ _ hc
  have ev : v = q * (400 * u.cfm / u.ton) := by
    simp only [Bool.false_eq_true, if_false, s3, hm.coolAirflow _ q hq] at k7
    simpa using k7.symm
  have lo : 280 * (u.cfm / u.ton) * qn * E.rhoStd ≤ m := by
    obtain ⟨x, hx, rfl⟩ := linspace4_mem hmm
    have : 280 * (u.cfm / u.ton) * qn * E.rhoStd ≤ 500 * (u.cfm / u.ton) * q0 * E.rhoStd := by
      have : 280 * qn ≤ 500 * q0 := by linarith
      have := mul_le_mul_of_nonneg_left this (show 0 ≤ u.cfm / u.ton * E.rhoStd by positivity)
      linarith
    have := mul_nonneg (Nat.cast_nonneg (α := ℝ) x) (sub_nonneg.2 this)
    linarith
  have lo0 : 0 < 280 * (u.cfm / u.ton) * qn * E.rhoStd := by positivity
  have m0 : 0 < m := lo0.trans_le lo
  have hset := C10_setMassAirflow_effect (ratedFlow rho1 E.rhoStd i fs (B.sys.fullESP * (v / full) ^ 2) v cap) m (v * E.rhoStd) cap 1 (B.sys.fullESP * (v / full) ^ 2) rfl rfl rfl rfl rfl m0.ne' k1 k2 k4
  have hg := hso
  obtain ⟨f', hf', hf2, hf3⟩ : ∃ f', Cond.setMassAirflow m (ratedFlow rho1 E.rhoStd i fs (B.sys.fullESP * (v / full) ^ 2) v cap) = (.ok (), f') ∧ f'.ratio = some (v * E.rhoStd / m) ∧
      f'.compressorSpeed = i := ⟨_, hset, rfl, rfl⟩
  have hgrid : gridCondition E B.sys (frF t) rh (frF t') m i p = .ok ⟨false, si, so, f'⟩ := by
    simp only [gridCondition, hso, hsi, bind_ok, hc', PyM.exec, hf', Option.getD_some]
    rfl
  obtain ⟨-, w, hw⟩ := humid_wb hsi
  have hp0 := qp i q hq
  have v0 : 0 < v * E.rhoStd / m := by rw [ev]; positivity
  have v1 : v * E.rhoStd / m ≤ 4.2715 := by
    rw [div_le_iff₀ m0, ev]
    have hx := hqn q (List.mem_of_getElem? hq)
    have h1 : 400 * q ≤ 4.2715 * (280 * qn) := by linarith
    have h2 := mul_le_mul_of_nonneg_left h1 (show 0 ≤ u.cfm / u.ton * E.rhoStd by positivity)
    have h3 : q * (400 * u.cfm / u.ton) * E.rhoStd = u.cfm / u.ton * E.rhoStd * (400 * q) := by ring
    rw [h3]
    linarith
  obtain ⟨⟨tot, z1, z0⟩, pw, z2, -⟩ := point_returns (T := T) (c := ⟨false, si, so, f'⟩) h ht hm hA hM hi hf3 hw hf2 v0 v1 (List.mem_cons_of_mem _ htm) (humid_wb hso).1
  obtain ⟨x, z3⟩ := hsens t htm rh hrh t' htm' p hp _ _ _ m0 hi hgrid ⟨tot, z1, z0⟩
  exact ⟨_, by simp only [entry, hgrid, bind_ok, z1, z2, z3]; rfl⟩

theorem mapLoop_returns {α : Type} (f : Nat → ℝ → Py α) (map : List Nat) (grid : List ℝ) (h : ∀ i ∈ map, ∀ p ∈ grid, ∃ x, f i p = .ok x) : ∃ r, mapLoop f map grid = .ok r := by
  obtain ⟨rows, hr⟩ := mapM_isOk (fun (k : Nat) => do
    let setting ← pyGet map k
    grid.mapM fun p => f setting p) (List.range map.length) (by
      intro k hk
      have hk := List.mem_range.1 hk
      obtain ⟨x, hx⟩ := mapM_isOk (fun p => f map[k] p) grid (h _ (List.getElem_mem hk))
      exact ⟨x, by simp only [pyGet, List.getElem?_eq_getElem hk, bind_ok, hx]⟩)
  exact ⟨rows.flatten, by simp only [mapLoop, hr, bind_ok, pure_eq_ok]⟩

/-- C119: the representation of the fan of a RESNET unit is generated, for either motor. -/
theorem C119_fan (hbr : BrentqSpec brentq) {argsort : List ℝ → List Nat} (harg : ∀ l, IsArgsort l (argsort l)) (h : build u E T brentq a = .ok B)
    (ha1 : a.coolingPerCap = none) (ha2 : a.heatingPerCap = none) (hm : Made u E a B.core.st B.core.net qc qh B)
    (hs : ∃ x y, qc[fullIndex B.core.st]? = some x ∧ qh[fullIndex B.core.st]? = some y ∧ RatedSizes (max x y) qc ∧ RatedSizes (max x y) qh) :
    ∃ f, ResnetFan.fanRepresentation u brentq argsort B.core.psc B.core.fan = .ok f := by
  obtain ⟨d, hd0, hgood, hset⟩ := fan_airflows h ha1 ha2 hm hs
  have hn : 0 < B.core.fan.airflow.length := (List.getElem?_eq_some_iff.1 hgood.2.1).1
  have setting : ∀ k < B.core.fan.airflow.length, ∀ p : ℝ, (∃ x, resnetAirflow B.core.fan k (some p) = .ok x) ∧ (∃ w, ResnetFan.motorPower u brentq B.core.psc B.core.fan k (some p) = .ok w) ∧
      ∃ v, inRps u (resnetRotationalSpeed u B.core.fan) k (some p) = .ok v := by
    intro k hk p
    have hx := hset _ (List.getElem_mem hk)
    have e1 : ∀ p, resnetAirflow B.core.fan k p = .ok (B.core.fan.airflow[k]) := fun p => pyGetI_nat hk
    have e0 : ∀ p, resnetAirflow B.core.fan 0 p = .ok d := by
      intro p
      obtain ⟨hlt, h⟩ := List.getElem?_eq_some_iff.1 hgood.2.1
      have := pyGetI_nat hlt
      rw [h] at this
      exact this
    refine ⟨⟨_, e1 _⟩, ?_, ⟨_, by simp only [inRps, resnetRotationalSpeed, resnetAirflowRatio, e1, e0, bind_ok, pdiv_ok hd0.ne', pure_eq_ok]; rfl⟩⟩
    cases B.core.psc with
    | true => exact ⟨_, by simp only [ResnetFan.motorPower, if_true, resnetPSCPower, resnetPSCEfficacy, resnetAirflowRatio, e1, e0, bind_ok, pdiv_ok hd0.ne', pure_eq_ok]; rfl⟩
    | false =>
      simp only [ResnetFan.motorPower, Bool.false_eq_true, if_false]
      exact ⟨_, bpm_power u hbr hd0 hgood (List.getElem?_eq_getElem hk) hx.1 hx.2 p⟩
  obtain ⟨l, hl⟩ : ∃ l, speedOrderMap argsort (resnetAirflow B.core.fan) B.core.fan.airflow.length = .ok l := by
    obtain ⟨fl, hfl⟩ := mapM_isOk (fun (i : Nat) => resnetAirflow B.core.fan (i : Int) (some 0)) (List.range B.core.fan.airflow.length)
      (fun i hi => (setting i (List.mem_range.1 hi) 0).1)
    exact ⟨argsort fl, by simp only [speedOrderMap, hfl, bind_ok, pure_eq_ok]⟩
  obtain ⟨hperm, -⟩ := C24_order_map argsort harg _ _ _ hl
  have hlt : ∀ s ∈ l, s < B.core.fan.airflow.length := fun s hs => List.mem_range.1 (hperm.mem_iff.1 hs)
  have hne : l ≠ [] := by
    intro e
    rw [e] at hperm
    have := hperm.length_eq
    simp at this
    omega
  obtain ⟨l', x, e⟩ := (List.eq_nil_or_concat' l).resolve_left hne
  have hlast : pyGetI l (-1) = .ok x := by rw [e]; exact Fan.pyGetI_last _ _
  have hx := hlt x (by rw [e]; simp)
  obtain ⟨w, hw⟩ := (setting x hx 0).2.1
  obtain ⟨nom, hnom⟩ := (setting x hx B.core.fan.designESP).1
  obtain ⟨pts, hpts⟩ := mapLoop_returns (fun (i : Nat) p => do
    let w ← ResnetFan.motorPower u brentq B.core.psc B.core.fan i (some p)
    let a ← resnetAirflow B.core.fan i (some p)
    let r ← inRps u (resnetRotationalSpeed u B.core.fan) i (some p)
    return (w, a, r)) l (pressureGrid (1.2 * u.inH2O)) (by
      intro i hi p _
      obtain ⟨⟨x, hx⟩, ⟨w, hw⟩, v, hv⟩ := setting i (hlt i hi) p
      exact ⟨(w, x, v), by simp only [hx, hw, hv, bind_ok, pure_eq_ok]⟩)
  simp only [pure_eq_ok] at hpts
  exact ⟨_, by simp only [ResnetFan.fanRepresentation, fanRep, hl, hlast, Fan.motorPower, hw, bind_ok, pure_eq_ok, hpts, hnom]; rfl⟩

/-- C119 with the representation of the unit's own fan. -/
theorem C119_with_fan (hbr : BrentqSpec brentq) {argsort : List ℝ → List Nat} (harg : ∀ l, IsArgsort l (argsort l)) {A : Attributes ℝ} (h : build u E T brentq a = .ok B)
    (ht : ∀ d, a.tables = some d → RatedTables (tableSpeeds B.core.st) d) (ha1 : a.coolingPerCap = none) (ha2 : a.heatingPerCap = none) (hm : Made u E a B.core.st B.core.net qc qh B)
    (hs : ∃ x y, qc[fullIndex B.core.st]? = some x ∧ qh[fullIndex B.core.st]? = some y ∧ RatedSizes (max x y) qc ∧ RatedSizes (max x y) qh) (hrho : 0 < E.rhoStd)
    (hn : A.nCooling = speedCount B.core.st) {q0 qn : ℝ} (h0 : qc[0]? = some q0) (hl : qc.getLast? = some qn) (hq0 : qn ≤ q0) (hqn : ∀ q ∈ qc, q ≤ 2.99 * qn) (hA : MapAir E)
    (hM : MapNet u B.core.st B.core.net qc)
    (hsens : ∀ tOut ∈ linspace4 (55 : ℝ) 125, ∀ rh ∈ linspace4 (0 : ℝ) 1, ∀ tIn ∈ linspace4 (65 : ℝ) 90, ∀ p ∈ linspace4 (57226.508 : ℝ) 106868.78, ∀ m i c, 0 < m → i < speedCount B.core.st →
      gridCondition E B.sys (frF tOut) rh (frF tIn) m i p = .ok c → (∃ q, (B.unit u E T brentq).grossTotalCoolingCapacity (some c) = .ok q ∧ 0 < q) →
      ∃ x, (B.unit u E T brentq).grossSensibleCoolingCapacity (some c) = .ok x)
    (hshr : ∃ x, (B.unit u E T brentq).grossSHR none = .ok x) :
    ∃ r, representation u E B.sys (B.unit u E T brentq) A (ResnetFan.fanRepresentation u brentq argsort B.core.psc B.core.fan) = .ok r :=
  C119_generated h ht hm hrho hn h0 hl hq0 hqn hA hM hsens hshr (C119_fan hbr harg h ha1 ha2 hm hs)

end Resdx.Props

/-! ## Examples -/

namespace Resdx.Sample

open Spec Spec.Idf Tabular BaseModel Props ResnetFan Fan Table Build Transfer Idf Rep205

/-- The outdoor temperatures of a map. -/
theorem mapTemps {t : ℝ} (h : t ∈ 95 :: linspace4 (55 : ℝ) 125) : t ∈ List.map φ [95, 55, 235 / 3, 305 / 3, 125] := by
  rcases List.mem_cons.1 h with rfl | h
  · simp
  · obtain ⟨k, hk, rfl⟩ := linspace4_mem h
    rcases (by omega : k = 0 ∨ k = 1 ∨ k = 2 ∨ k = 3) with rfl | rfl | rfl | rfl <;> norm_num

/-- `MapNet` -/
def mapB (st : Staging) (d : Perf ℚ) (qc : List ℚ) : Bool :=
  (List.range (speedCount st)).all fun i =>
    [95, 55, 235 / 3, 305 / 3, 125].all fun t =>
      match d.coolingCapacity ((speedsQ st).getD i 0) (frF t), d.coolingPower ((speedsQ st).getD i 0) (frF t) with
      | .ok Q, .ok P => decide (0 < Q) && decide (337.2 / unitsQ.ton * qc.getD i 0 < P)
      | _, _ => false

theorem map_of {st : Staging} {d : Perf ℚ} {qc : List ℚ} (h : mapB st d qc = true) : MapNet units st (pT φ d) (qc.map φ) := by
  have hton : φ (337.2 / unitsQ.ton) = 337.2 / units.ton := by simp [unitsQ, units]
  simp only [mapB, List.all_eq_true, List.mem_range] at h
  intro i σ hσ t ht
  have hi := tableSpeed_lt hσ
  obtain ⟨t', ht', rfl⟩ := List.mem_map.1 (mapTemps ht)
  have h1 := h i hi t' ht'
  rw [← frF_map, ← speedsQ_of hσ]
  generalize (speedsQ st).getD i 0 = σ' at h1 ⊢
  simp only [Perf.coolingCapacity, Perf.coolingPower, pT] at h1 ⊢
  rw [calculate_map φ_mono, calculate_map φ_mono]
  cases hQ : d.coolingCapacities.calculate σ' (frF t') with
  | error e => rw [hQ] at h1; simp at h1
  | ok Q =>
    cases hP : d.coolingPowers.calculate σ' (frF t') with
    | error e => rw [hQ, hP] at h1; simp at h1
    | ok P =>
      rw [hQ, hP] at h1
      simp only [Bool.and_eq_true, decide_eq_true_eq] at h1
      refine ⟨φ Q, φ P, rfl, (by rw [← map_zero φ]; exact (φ_mono h1.1).le), rfl, fun q hq => ?_⟩
      obtain ⟨rfl, -⟩ := getD_cast hq
      rw [← hton, ← map_mul]
      exact φ_mono h1.2

theorem mapAir : MapAir env := ⟨fun _ _ => ⟨_, rfl⟩, fun _ _ _ _ => ⟨_, rfl⟩, fun _ _ _ _ _ _ => ⟨_, 1.2, rfl, by norm_num, rfl⟩⟩

/-- The stored coil size of a sample unit is not 0. -/
theorem sample_ntu {brentq : Brentq} {a : Args} {B : Built} (h : build units env tools brentq a = .ok B) {i : Nat} (hi : i < speedCount B.core.st) {c : Conditions ℝ}
    (hc : B.sys.makeCondition env false i = .ok c) {q : ℝ} (hq : (B.unit units env tools brentq).grossTotalCoolingCapacity (some c) = .ok q) (hq0 : 0 < q) :
    ∃ n, n ≠ 0 ∧ B.coil.ntu[i]? = some (some n) := by
  obtain ⟨c', s, t, bf, n, h1, h2, h3, -, -, h6, -⟩ := coil_stored h hi
  rw [hc] at h1; cases h1
  simp only at h2
  rw [hq] at h2; cases h2
  have hin : c.indoor = wetState env.atm (frF 80) (frF 67) := by
    obtain ⟨_, _, _, _, _, -, -, -, -, -, -, -, -, -, rfl⟩ := Sys.makeCondition_spec env B.sys false _ _ _ _ hc
    rfl
  set h0 : ℝ := 1000 * toC (frF 80) + 2500000 * 0.01 with hh0
  have e1 : (Psych.getH tools.lib c.indoor).1 = .ok h0 := by rw [hin]; rfl
  simp only [Coil.ratedBypass, bind_eq_ok, e1] at h3
  obtain ⟨out, k1, adp, -, _, k2, hOut, k3, hA, -, m, k4, k5⟩ := h3
  cases k2
  have hm : c.flow.mass = some m := by
    cases hx : c.flow.mass with
    | none => rw [hx] at k4; cases k4
    | some z => rw [hx] at k4; exact congrArg some (Except.ok.inj k4)
  simp only [Coil.outletState, bind_eq_ok, e1, hm, pyAttr, Except.ok.injEq, pdiv_eq_ok] at k1
  obtain ⟨_, rfl, _, rfl, x, ⟨m0, rfl⟩, y, -, k1⟩ := k1
  have k3' : hOut = h0 - q / m := by
    have : Psych.init tools.lib (c.indoor.db - y) c.indoor.p [("enthalpy", h0 - q / m)] = .ok out := k1
    cases this
    exact (Except.ok.inj k3).symm
  simp only [DX.ratedBypassFactor, bind_eq_ok, pdiv_eq_ok, pure_eq_ok, Except.ok.injEq, Prod.mk.injEq] at k5
  obtain ⟨_, ⟨d0, rfl⟩, lg, hlg, hbf, hn⟩ := k5
  have hb1 : bf ≠ 1 := by
    rw [← hbf, Ne, div_eq_one_iff_eq d0, k3']
    intro h
    have : q / m ≠ 0 := div_ne_zero hq0.ne' m0
    apply this; linarith
  have hb0 : 0 < bf := by
    by_contra hb
    rw [hbf] at hlg
    simp [plog, hb] at hlg
  have hlg' : lg = Real.log bf := by
    rw [hbf] at hlg
    simpa [plog, hb0, eq_comm] using hlg
  refine ⟨n, ?_, h6⟩
  rw [← hn, hlg']
  exact mul_ne_zero (neg_ne_zero.2 m0) (Real.log_ne_zero_of_pos_of_ne_one hb0 hb1)

/-- The sample coil takes no moisture out of the air at any point of a map. -/
theorem sample_sensible {brentq : Brentq} {a : Args} {B : Built} {n : ℝ} {i : Nat} (hn0 : n ≠ 0) (hn : B.coil.ntu[i]? = some (some n)) {tOut rh tIn m p : ℝ} {c : Conditions ℝ}
    (hc : gridCondition env B.sys tOut rh tIn m i p = .ok c) {q : ℝ} (hq : (B.unit units env tools brentq).grossTotalCoolingCapacity (some c) = .ok q) (hq0 : 0 < q) :
    (B.unit units env tools brentq).grossSensibleCoolingCapacity (some c) = .ok q := by
  simp only [gridCondition, bind_eq_ok, pure_eq_ok, Except.ok.injEq] at hc
  obtain ⟨so, -, si, hsi, c0, hc0, f, hf, rfl⟩ := hc
  obtain ⟨rho, pr, v, cap, fs, k1, k2, k3, k4, -, -, -, ⟨full, -, -, rfl⟩, -, rfl⟩ := Sys.makeCondition_spec env B.sys false _ _ _ _ hc0
  have m0 : m ≠ 0 := by
    rintro rfl
    simp [PyM.exec, Cond.setMassAirflow, ratedFlow, PyM.bind_run, PyM.modify_run, PyM.get_run, PyM.liftM_run, PyM.monadLift_run, PyM.lift_run, PyM.pure_run, pyAttr, pdiv_zero] at hf
  have hf' := C10_setMassAirflow_effect (ratedFlow rho env.rhoStd i fs (B.sys.fullESP * (v / full) ^ 2) v cap) m (v * env.rhoStd) cap 1 (B.sys.fullESP * (v / full) ^ 2) rfl rfl rfl rfl rfl m0 k1 k2 k4
  simp only [PyM.exec, hf'] at hf
  have hm : f.mass = some m := by rw [← Except.ok.inj hf]
  have hsp : f.compressorSpeed = i := by rw [← Except.ok.inj hf]; rfl
  have hind : (Psych.getH tools.lib si).1 = .ok (1000 * si.dbC + 2500000 * 0.01) := by
    cases hsi
    rfl
  set bf : ℝ := Real.exp (-n / m) with hbf
  have hb1 : bf ≠ 1 := by
    rw [hbf, Ne, Real.exp_eq_one_iff]
    exact div_ne_zero (neg_ne_zero.2 hn0) m0
  refine DX.Performance.grossSensible_eq_ok.2 ⟨?_, hq0.le⟩
  generalize hcc : (⟨false, (some si).getD (defaultIndoor env false), (some so).getD (defaultOutdoor env false), f⟩ : Conditions ℝ) = c at hq
  have hin : c.indoor = si := by rw [← hcc]; rfl
  have hfl : c.flow = f := by rw [← hcc]
  show (B.unit units env tools brentq).sensible c = .ok q
  have e2 : Coil.bypass B.coil.ntu c = .ok bf := by
    simp only [Coil.bypass, Sys.at_, hfl, hsp, pyGet, hn, bind_ok, pyNum, hm, pyAttr, DX.bypassFactor, pdiv_ok m0, pure_eq_ok]
    rfl
  have z1 : m * (1 - bf) ≠ 0 := mul_ne_zero m0 (sub_ne_zero.2 hb1.symm)
  have z2 : q / (m * (1 - bf)) ≠ 0 := div_ne_zero hq0.ne' z1
  have e3 : (B.unit units env tools brentq).sensible c = Coil.sensibleFrom tools c ((B.unit units env tools brentq).grossTotalCoolingCapacity (some c)) (Coil.bypass B.coil.ntu c) := rfl
  rw [e3, hq, e2]
  simp only [Coil.sensibleFrom, bind_ok, hin, hind, hfl, hm, pyAttr, pdiv_ok z1]
  show (pdiv (q * (1000 * si.dbC + 2500000 * 0.01 - (1000 * si.dbC + 2500000 * 0.01 - q / (m * (1 - bf))))) (1000 * si.dbC + 2500000 * 0.01 - (1000 * si.dbC + 2500000 * 0.01 - q / (m * (1 - bf))))) = .ok q
  rw [sub_sub_cancel, pdiv_ok z2, mul_div_cancel_right₀ _ z2]

/-- C119: the representation of the two-stage unit is generated. -/
example : ∃ brentq argsort B, build units env tools brentq twoArgs = .ok B ∧ ∀ A : Attributes ℝ, A.nCooling = 2 →
    ∃ r, representation units env B.sys (B.unit units env tools brentq) A (ResnetFan.fanRepresentation units brentq argsort B.core.psc B.core.fan) = .ok r := by
  obtain ⟨brentq, hbr⟩ := brentqSpec_satisfiable
  obtain ⟨argsort, harg⟩ := isArgsort_satisfiable
  obtain ⟨d, hd, hs⟩ := of_check (x := makeTwoSpeed unitsQ 10000 16 12 11000 (some 6500) 8 (frF 125) (frF 0) (some 5) (some 3.2))
    (p := fun d => soundB .two d [10000, 7280] [11000, 7832] && mapB .two d [10000, 7280]) (by decide +kernel)
  rw [Bool.and_eq_true] at hs
  have hm : makeTwoSpeed units 10000 16 12 11000 (some 6500) 8 (frF 125) (frF 0) (some 5) (some 3.2) = .ok (pT φ d) := by
    have := makeTwoSpeed_map φ_mono units_btuh 10000 16 12 11000 (some 6500) 8 (frF 125) (frF 0) (some 5) (some 3.2)
    rw [hd] at this
    refine Eq.trans ?_ this
    congr 1 <;> norm_num [frF_cast]
  have hS := sound_of (st := .two) (two_rated hm) hs.1
  have hF := map_of (st := .two) hs.2
  simp only [List.map, Rat.coe_castHom, Rat.cast_ofNat] at hS hF
  obtain ⟨B, h, hB⟩ := C90_ratings (a := twoArgs) (brentq := brentq) rfl rfl (q47 := 11000) rfl
    (by simpa [netTables, twoArgs, number, pyNum, inputEer, hspfFor, bind_ok, seerFor, cd, DX.offTemperature] using hm) hS (surroundings hbr rfl rfl rfl rfl rfl (by simp))
  refine ⟨brentq, argsort, B, h, fun A hA => ?_⟩
  have est := hB.staging
  have ent := hB.tables
  have hB' : Made units env twoArgs B.core.st B.core.net [10000, 7280] [11000, 7832] B := by rw [est, ent]; exact hB
  have hMN : MapNet units B.core.st B.core.net [10000, 7280] := by rw [est, ent]; exact hF
  have ht : ∀ d, twoArgs.tables = some d → RatedTables (tableSpeeds B.core.st) d := fun d hd => by cases hd
  obtain ⟨_, _, _, _, rc, _, -, -, -, -, -, -, -, hcore, hSys, hpts, -⟩ := build_ok h
  have rated : ∀ i < speedCount B.core.st, ∃ c q, B.sys.makeCondition env false i = .ok c ∧ (B.unit units env tools brentq).grossTotalCoolingCapacity (some c) = .ok q ∧ 0 < q := by
    intro i hi
    obtain ⟨q, hq⟩ := made_capacity hB' hSys hi
    obtain ⟨q0, c, t, hc, hg, t1, -⟩ := hB'.grossRated i q hq
    exact ⟨c, t, hc.made, grossTotal_returns hB'.charge hg (by linarith), by linarith⟩
  refine C119_with_fan hbr harg h ht rfl rfl hB' (by rw [est]; exact hS.sizes) (by norm_num [env]) (by rw [hA, est]; rfl) rfl rfl (by norm_num)
    (by intro q hq; simp at hq; rcases hq with rfl | rfl <;> norm_num) mapAir hMN ?_ ?_
  · rintro tOut - rh - tIn - p - m i c - hi hc ⟨q, hq, hq0⟩
    obtain ⟨c', q', hc', hq', hq0'⟩ := rated i hi
    obtain ⟨n, hn0, hn⟩ := sample_ntu h hi hc' hq' hq0'
    exact ⟨q, sample_sensible (a := twoArgs) hn0 hn hc hq hq0⟩
  · have hrc : B.core.rc = rc := by
      unfold core at hcore
      simp only [bind_eq_ok, pure_eq_ok, Except.ok.injEq] at hcore
      obtain ⟨_, -, _, -, _, -, ⟨_, _, _⟩, -, _, -, _, -, _, -, _, -, _, -, _, -, _, -, h12⟩ := hcore
      rw [← h12]
    have hfull : B.core.rc.full < speedCount B.core.st := by rw [hB'.full.1]; exact full_lt _
    obtain ⟨c, q, hc, hq, hq0⟩ := rated _ hfull
    have hc' : B.sys.makeCondition env false B.core.rc.full = .ok B.points.aFull := by rw [hrc]; exact (full_points hpts).1
    rw [hc] at hc'
    have e := Except.ok.inj hc'
    have := sample_shr h hfull hc hq hq0
    rw [e] at this
    exact ⟨1, this⟩

/-- C119: no representation of the variable-speed unit is ever generated. -/
theorem var_never {brentq : Brentq} (hbr : BrentqSpec brentq) : ∃ B qc qh, build units env tools brentq varArgs = .ok B ∧ Made units env varArgs B.core.st B.core.net qc qh B ∧
    speedCount B.core.st = 4 ∧ MapNet units B.core.st B.core.net qc ∧ ∀ (F : Type) (fan : Py F) (A : Attributes ℝ), A.nCooling = 4 →
    ∀ r, representation units env B.sys (B.unit units env tools brentq) A fan ≠ .ok r := by
  obtain ⟨d, hd, hs⟩ := of_check (x := makeNeepStatistical unitsQ 10000 18 12 10000 (some 6890) 9 (frF 125) (frF (-20)) (some 0.3) (some 4) (some 3.2))
    (p := fun d => soundB .varSpeed d [5000000 / 467, 10000, 3085000 / 467, 1500000 / 467] [2500000 / 227, 10000, 1475000 / 227, 680000 / 227] &&
      mapB .varSpeed d [5000000 / 467, 10000, 3085000 / 467, 1500000 / 467]) (by decide +kernel)
  rw [Bool.and_eq_true] at hs
  have hm : makeNeepStatistical units 10000 18 12 10000 (some 6890) 9 (frF 125) (frF (-20)) (some 0.3) (some 4) (some 3.2) = .ok (pT φ d) := by
    have := makeNeepStatistical_map φ_mono units_btuh 10000 18 12 10000 (some 6890) 9 (frF 125) (frF (-20)) (some 0.3) (some 4) (some 3.2)
    rw [hd] at this
    refine Eq.trans ?_ this
    congr 1 <;> norm_num [frF_cast]
  have hS := sound_of (st := .varSpeed) (variable_rated hm) hs.1
  have hF := map_of (st := .varSpeed) hs.2
  simp only [List.map, Rat.coe_castHom, Rat.cast_ofNat, Rat.cast_div, Rat.cast_neg] at hS hF
  obtain ⟨B, h, hB⟩ := C90_ratings (a := varArgs) (brentq := brentq) rfl rfl (q47 := 10000) rfl
    (by simpa [netTables, varArgs, number, pyNum, inputEer, hspfFor, bind_ok, seerFor, cd, DX.offTemperature] using hm) hS (surroundings hbr rfl rfl rfl rfl rfl (by simp))
  have est := hB.staging
  have ent := hB.tables
  refine ⟨B, _, _, h, (by rw [est, ent]; exact hB), (by rw [est]; rfl), (by rw [est, ent]; exact hF), fun F fan A hA => ?_⟩
  have t3 : TableSpeed .varSpeed 0 3 := by simp [TableSpeed]
  have mem : (55 : ℝ) ∈ linspace4 (55 : ℝ) 125 := List.mem_of_getElem? linspace4_get
  obtain ⟨Q, P, m1, m2, -⟩ := hF 0 3 t3 55 (List.mem_cons_of_mem _ mem)
  refine C119_never h (fun d hd => by cases hd) (by rw [est, ent]; exact hB) (by norm_num [env]) (by rw [hA, est]; rfl) rfl rfl ?_ (by rw [est]; exact t3) mem (by rw [ent]; exact m1) m2
  norm_num

end Resdx.Sample

namespace Resdx.Props

open Spec BaseModel Fan ResnetFan Tabular Build Rep205

/-- C119 (the claim is false of the code): a representation cannot be generated for every RESNET unit, although the air of the map can be evaluated, the net map is positive and the fan has a
representation. -/
theorem C119_refuted : ¬ ∀ (u : Units ℝ) (E : Env ℝ) (T : Coil.Tools) (brentq : Brentq) (a : Args) (B : Built) (qc qh : List ℝ) (A : Attributes ℝ), BrentqSpec brentq →
    build u E T brentq a = .ok B → Made u E a B.core.st B.core.net qc qh B → A.nCooling = speedCount B.core.st → MapAir E → MapNet u B.core.st B.core.net qc →
    ∃ r, representation u E B.sys (B.unit u E T brentq) A (.ok ()) = .ok r := by
  intro hall
  obtain ⟨brentq, hbr⟩ := brentqSpec_satisfiable
  obtain ⟨B, qc, qh, h, hB, hst, hM, hno⟩ := Sample.var_never hbr
  obtain ⟨r, hr⟩ := hall Sample.units Sample.env Sample.tools brentq Sample.varArgs B qc qh ⟨4, 0, 0, 0⟩ hbr h hB hst.symm Sample.mapAir hM
  exact hno Unit (.ok ()) ⟨4, 0, 0, 0⟩ rfl r hr

end Resdx.Props
