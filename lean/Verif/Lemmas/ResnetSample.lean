import Verif.Lemmas.ResnetConstruct
import Verif.Lemmas.TransferBuild

/-!
# Concrete RESNET units

Sample data for the hypotheses of the theorems about constructed units. The tables are computed with rational numbers and carried over to the reals (`Lemmas/Transfer`); the air
properties are simple linear stand-ins for psychrolib.
-/

set_option linter.unusedSectionVars false
set_option linter.unusedSimpArgs false

namespace Resdx.Sample

open Spec Tabular BaseModel Props ResnetFan Fan Table Build Transfer

/-- The embedding of the rationals. -/
noncomputable abbrev φ : ℚ →+* ℝ := Rat.castHom ℝ

theorem φ_mono : StrictMono φ := fun _ _ h => Rat.cast_lt.2 h

/-- Conversion factors (rounded). -/
def unitsQ : Units ℚ :=
  { cfm := 0.000472, inH2O := 249, ton := 3516.8, btuh := 0.29307, minute := 60, rpm := 0.1047
    cfm_pos := by norm_num, inH2O_pos := by norm_num, ton_pos := by norm_num, btuh_pos := by norm_num, minute_pos := by norm_num, rpm_pos := by norm_num }

/-- The same factors as real numbers. -/
noncomputable def units : Units ℝ :=
  { cfm := 0.000472, inH2O := 249, ton := 3516.8, btuh := 0.29307, minute := 60, rpm := 0.1047
    cfm_pos := by norm_num, inH2O_pos := by norm_num, ton_pos := by norm_num, btuh_pos := by norm_num, minute_pos := by norm_num, rpm_pos := by norm_num }

theorem units_btuh : φ unitsQ.btuh = units.btuh := by simp [unitsQ, units]

/-! ## Air -/

/-- Linear air properties: 1000 J/kg/K, 2.5 MJ/kg, 1.2 kg/m³, 1 % humidity. -/
noncomputable def air : Psych.PsychLib ℝ :=
  { humRatioFromTWetBulb := fun _ _ _ => .ok 0.01, tWetBulbFromHumRatio := fun _ _ _ => .ok 15, tWetBulbFromRelHum := fun _ _ _ => .ok 15
    moistAirEnthalpy := fun t w => .ok (1000 * t + 2500000 * w), humRatioFromEnthalpyAndTDryBulb := fun h t => .ok ((h - 1000 * t) / 2500000)
    moistAirDensity := fun _ _ _ => .ok 1.2, relHumFromTWetBulb := fun _ _ _ => .ok 0.5 }

/-- The surroundings. -/
noncomputable def env : Env ℝ := { lib := air, atm := 101325, rhoStd := 1.2 }

/-- A root finder that reports −1000 °C. -/
noncomputable def tools : Coil.Tools :=
  { lib := air, coil := { humRatioFromRelHum := fun _ _ _ => .ok 0, satHumRatio := fun _ _ => .ok 0.01, satAirEnthalpy := fun _ _ => .ok 0 }, newton := fun _ _ => .ok (-1000) }

theorem indoorAir : IndoorAir env := ⟨by norm_num [env], fun h => ⟨1.2, by norm_num, by cases h <;> rfl⟩⟩

theorem outdoorAir (db : ℝ) : ∃ r, Resnet.ratedOutdoor env db = .ok r := ⟨_, rfl⟩

theorem coilReturns' {q t : ℝ} (hq : 0 < q) (ht0 : 0 < t) (h2' : t ≤ 1.2 * q) : CoilReturns units env tools q t := by
  intro c hin hm
  have hmv : q * (400 * units.cfm / units.ton) * env.rhoStd = q * (0.22656 / 3516.8) := by simp only [units, env]; ring
  rw [hmv] at hm
  set m := q * (0.22656 / 3516.8 : ℝ) with hmdef
  have hm0 : 0 < m := by positivity
  -- enthalpy and temperature drops
  obtain ⟨x, hx⟩ : ∃ x, x = t / m := ⟨_, rfl⟩
  have hx0 : 0 < x := by rw [hx]; positivity
  have hx1 : x ≤ 20000 := by
    rw [hx, div_le_iff₀ hm0, hmdef]; linarith
  have hd : ratedShr * t / (m * Coil.cp) = ratedShr / 1006 * x := by rw [hx]; unfold Coil.cp; field_simp
  have hmc : m * Coil.cp ≠ 0 := by unfold Coil.cp; positivity
  have e1 : (Psych.getH tools.lib c.indoor).1 = .ok (1000 * toC (frF 80) + 2500000 * 0.01) := by rw [hin]; rfl
  have e2 : (Psych.getHr tools.lib c.indoor).1 = .ok (0.01 : ℝ) := by rw [hin]; rfl
  have hp : c.indoor.p = env.atm := by rw [hin]; rfl
  have hdb : c.indoor.db = frF 80 := by rw [hin]; rfl
  have hdbC : c.indoor.dbC = toC (frF 80) := by rw [hin]; rfl
  set y := ratedShr / 1006 * x with hy
  have hy0 : 0 < y := by rw [hy]; unfold ratedShr; positivity
  have hy1 : y ≤ 20 := by rw [hy]; unfold ratedShr; linarith
  have hxy : 1000 * y ≤ x := by rw [hy]; unfold ratedShr; linarith
  set h0 : ℝ := 1000 * toC (frF 80) + 2500000 * 0.01 with hh0
  -- the outlet
  obtain ⟨w, hw⟩ : ∃ w, w = (h0 - x - 1000 * toC (frF 80 - y)) / 2500000 := ⟨_, rfl⟩
  have hw' : w = 0.01 - (x - 1000 * y) / 2500000 := by
    rw [hw, hh0]; unfold toC; ring
  let out : Psych.PsychState ℝ :=
    { db := frF 80 - y, dbC := toC (frF 80 - y), p := env.atm, wb := some (frC 15), wbC := some (toC (frC 15)), hr := some w, rh := none, h := some (h0 - x), rho := none }
  have eo : Coil.outletState tools c t (ratedShr * t) = .ok out := by
    unfold Coil.outletState
    simp only [e1, bind_ok, hm, pyAttr, pdiv_ok hm0.ne', pdiv_ok hmc, hd, ← hx, hdb, hp, ← hy, out, hw]
    rfl
  have o1 : (Psych.getHr tools.lib out).1 = .ok w := rfl
  have o2 : (Psych.getH tools.lib out).1 = .ok (h0 - x) := rfl
  have tdiff : toC (frF 80) - toC (frF (80 : ℝ) - y) = y := by unfold toC; ring
  have hT : toC (frF (80 : ℝ)) = 26 + 2 / 3 := by unfold toC frF; norm_num
  have hline : Coil.lineHumRatio (toC (frF 80)) 0.01 (toC (frF 80 - y)) w (-1000) = .ok (0.01 - (0.01 - w) / y * (toC (frF 80) + 1000)) := by
    simp only [Coil.lineHumRatio, tdiff, pdiv_ok hy0.ne', bind_ok, pure_eq_ok]
    congr 1; ring
  set wA := 0.01 - (0.01 - w) / y * (toC (frF 80) + 1000) with hwA
  have n1 : ¬ (toC (frF (80 : ℝ) - y) < -1000 ∨ w < wA) := by
    rw [not_or, not_lt, not_lt]
    constructor
    · have : toC (frF (80 : ℝ) - y) = toC (frF 80) - y := by unfold toC; ring
      rw [this, hT]; linarith
    · have h3 : 0 ≤ (0.01 - w) / y := div_nonneg (by rw [hw']; linarith) hy0.le
      have h4 : (0.01 - w) / y * y = 0.01 - w := div_mul_cancel₀ _ hy0.ne'
      have h5 : (0.01 - w) / y * y ≤ (0.01 - w) / y * (toC (frF 80) + 1000) := mul_le_mul_of_nonneg_left (by rw [hT]; linarith) h3
      rw [hwA]; linarith
  let adp : Psych.PsychState ℝ :=
    { db := frC (-1000), dbC := toC (frC (-1000)), p := env.atm, wb := some (frC 15), wbC := some (toC (frC 15)), hr := some wA, rh := none, h := none, rho := none }
  have ea : Coil.adpState tools c.indoor out = .ok adp := by
    have hnew : ∀ f x, tools.newton f x = .ok (-1000) := fun _ _ => rfl
    unfold Coil.adpState
    simp only [e2, o1, bind_ok, hnew, hdbC, out, hline, if_neg n1, hp, adp]
    rfl
  have a1 : (Psych.getH tools.lib adp).1 = .ok (1000 * toC (frC (-1000)) + 2500000 * wA) := rfl
  set hA := 1000 * toC (frC (-1000)) + 2500000 * wA with hhA
  have k1 : hA = h0 - x / y * (toC (frF 80) + 1000) := by
    rw [hhA, hh0, hwA, toC_frC, hw']
    field_simp
    ring
  have k2 : 0 < x / y := by positivity
  have k3 : h0 - hA = x / y * (toC (frF 80) + 1000) := by rw [k1]; ring
  have k4 : h0 - x - hA = x / y * (toC (frF 80) + 1000 - y) := by
    rw [k1]; field_simp; ring
  have p1 : 0 < h0 - hA := by rw [k3, hT]; positivity
  have p2 : 0 < h0 - x - hA := by rw [k4, hT]; exact mul_pos k2 (by linarith)
  have p3 : 0 < (h0 - x - hA) / (h0 - hA) := div_pos p2 p1
  unfold Coil.ratedBypass
  simp only [eo, ea, bind_ok, e1, o2, a1, hm, pyAttr, DX.ratedBypassFactor, pdiv_ok p1.ne', plog, if_pos p3, pure_eq_ok]
  exact ⟨_, rfl⟩

theorem coilReturns {q t : ℝ} (hq : 0 < q) (h1 : q < t) (h2 : t ≤ (1 + 337.2 / units.ton) * q) : CoilReturns units env tools q t := by
  have : (1 + 337.2 / units.ton) * q ≤ 1.2 * q := mul_le_mul_of_nonneg_right (by norm_num [units]) hq.le
  exact coilReturns' hq (hq.trans h1) (h2.trans this)

/-! ## Checking tables with rational numbers -/

/-- The compressor speed of a table column. -/
def colIndex : Staging → Nat → Nat
  | .single, _ => 0
  | .two, k => 1 - k
  | .varSpeed, 0 => 3
  | .varSpeed, 1 => 1
  | .varSpeed, _ => 0

/-- `Covers` -/
def coversB (m : ℚ) (st : Staging) (q : List ℚ) (t : Table ℚ) : Bool :=
  (List.range (tableSpeeds st)).all fun k => t.temperatures.all fun x =>
    match t.get ((k : Int) + 1) x with
    | .ok (some v) => decide (m * q.getD (colIndex st k) 0 < v)
    | _ => true

/-- `RatedAt` -/
def ratedB (st : Staging) (t : Table ℚ) (x : ℚ) (q : List ℚ) : Bool :=
  decide (q.length = speedCount st) && (List.range (tableSpeeds st)).all (fun k => decide (t.get ((k : Int) + 1) x = .ok (some (q.getD (colIndex st k) 0)))) &&
    (decide (st ≠ .varSpeed) || decide (q.getD 2 0 = (q.getD 1 0 + q.getD 3 0) / 2))

/-- `RatedSizes` -/
def sizesB (D : ℚ) (q : List ℚ) : Bool :=
  q.all (fun x => decide (0 < x)) && decide (q.Pairwise (fun x y => y ≤ x)) && q.all (fun x => decide (x ^ 2 ≤ 3 * D ^ 2)) && decide (D ^ 2 ≤ 3 * q.getD 0 0 ^ 2)

/-- `Sound`, apart from `RatedTables` -/
def soundB (st : Staging) (d : Perf ℚ) (qc qh : List ℚ) : Bool :=
  ratedB st d.coolingCapacities (frF 95) qc && ratedB st d.heatingCapacities (frF 47) qh && sizesB (max (qc.getD (fullIndex st) 0) (qh.getD (fullIndex st) 0)) qc &&
    sizesB (max (qc.getD (fullIndex st) 0) (qh.getD (fullIndex st) 0)) qh && coversB 0 st qc d.coolingCapacities && coversB (337.2 / unitsQ.ton) st qc d.coolingPowers &&
    coversB (337.2 / unitsQ.ton) st qh d.heatingCapacities && coversB (337.2 / unitsQ.ton) st qh d.heatingPowers

theorem colIndex_of {st : Staging} {i k : Nat} (h : TableSpeed st i ((k : ℝ) + 1)) : i = colIndex st k ∧ k < tableSpeeds st := by
  have c : ∀ n : Nat, (k : ℝ) + 1 = n → k + 1 = n := fun n h => by exact_mod_cast h
  cases st with
  | single =>
    obtain ⟨rfl, h⟩ := h
    have := c 1 (by rw [h]; norm_num)
    obtain rfl : k = 0 := by omega
    exact ⟨rfl, by decide⟩
  | two =>
    rcases h with ⟨rfl, h⟩ | ⟨rfl, h⟩
    · have := c 2 (by rw [h]; norm_num)
      obtain rfl : k = 1 := by omega
      exact ⟨rfl, by decide⟩
    · have := c 1 (by rw [h]; norm_num)
      obtain rfl : k = 0 := by omega
      exact ⟨rfl, by decide⟩
  | varSpeed =>
    rcases h with ⟨rfl, h⟩ | ⟨rfl, h⟩ | ⟨rfl, h⟩ | ⟨rfl, h⟩
    · have := c 3 (by rw [h]; norm_num)
      obtain rfl : k = 2 := by omega
      exact ⟨rfl, by decide⟩
    · have := c 2 (by rw [h]; norm_num)
      obtain rfl : k = 1 := by omega
      exact ⟨rfl, by decide⟩
    · exfalso
      have h2 : (2 * (k + 1) : ℝ) = 3 := by rw [h]; norm_num
      have h3 : 2 * (k + 1) = 3 := by exact_mod_cast h2
      omega
    · have := c 1 (by rw [h]; norm_num)
      obtain rfl : k = 0 := by omega
      exact ⟨rfl, by decide⟩

theorem getD_cast {q : List ℚ} {i : Nat} {c : ℝ} (h : (q.map φ)[i]? = some c) : c = φ (q.getD i 0) ∧ q[i]? = some (q.getD i 0) := by
  rw [List.getElem?_map] at h
  obtain ⟨x, hx, rfl⟩ := Option.map_eq_some_iff.1 h
  simp [List.getD, hx]

theorem covers_of {m : ℚ} {m' : ℝ} (hm : φ m = m') {st : Staging} {q : List ℚ} {t : Table ℚ} (h : coversB m st q t = true) : Covers m' st (q.map φ) (tT φ t) := by
  subst hm
  intro i k x v c hσ hc hv
  obtain ⟨rfl, hk⟩ := colIndex_of hσ
  obtain ⟨rfl, -⟩ := getD_cast hc
  have hx : x ∈ (tT φ t).temperatures := by
    simp only [Table.get, bind_eq_ok] at hv
    obtain ⟨ti, h1, -⟩ := hv
    exact List.mem_of_getElem? (pyIndex_ok h1)
  simp only [tT, List.mem_map] at hx
  obtain ⟨x', hx', rfl⟩ := hx
  rw [get_map] at hv
  simp only [coversB, List.all_eq_true, List.mem_range] at h
  have := h k hk x' hx'
  cases hg : t.get ((k : Int) + 1) x' with
  | error e => rw [hg] at hv; cases hv
  | ok o =>
    rw [hg] at hv this
    cases o with
    | none => cases hv
    | some y =>
      simp only [Except.map, Option.map, Except.ok.injEq, Option.some.injEq] at hv
      subst hv
      simp only [decide_eq_true_eq] at this
      rw [← map_mul]
      exact φ_mono this

theorem ratedAt_of {st : Staging} {t : Table ℚ} {x : ℚ} {x' : ℝ} (hx : φ x = x') {q : List ℚ} (hf : Fresh (tT φ t)) (hn : (tT φ t).nSpeeds = tableSpeeds st) (h : ratedB st t x q = true) :
    RatedAt st (tT φ t) x' (q.map φ) := by
  subst hx
  simp only [ratedB, Bool.and_eq_true, decide_eq_true_eq, List.all_eq_true, List.mem_range, Bool.or_eq_true] at h
  obtain ⟨⟨h1, h2⟩, h3⟩ := h
  have node : ∀ k, k < tableSpeeds st → (tT φ t).calculate ((k : ℝ) + 1) (φ x) = .ok (φ (q.getD (colIndex st k) 0)) := by
    intro k hk
    have hg : (tT φ t).get ((k : Int) + 1) (φ x) = .ok (some (φ (q.getD (colIndex st k) 0))) := by rw [get_map, h2 k hk]; rfl
    have := C30_node (tT φ t) hf _ _ _ ⟨by omega, by omega⟩ hg
    push_cast at this
    exact this
  have get : ∀ i, i < speedCount st → (q.map φ)[i]? = some (φ (q.getD i 0)) := by
    intro i hi
    simp [List.getElem?_map, List.getD, List.getElem?_eq_getElem (show i < q.length by omega)]
  constructor
  · intro i σ hσ
    refine ⟨_, get i (tableSpeed_lt hσ), ?_⟩
    cases st with
    | single => obtain ⟨rfl, rfl⟩ := hσ; have := node 0 (by decide); norm_num at this; exact this
    | two =>
      rcases hσ with ⟨rfl, rfl⟩ | ⟨rfl, rfl⟩
      · have := node 1 (by decide); norm_num at this; exact this
      · have := node 0 (by decide); norm_num at this; exact this
    | varSpeed =>
      have n0 := node 0 (by decide)
      have n1 := node 1 (by decide)
      norm_num at n0 n1
      rcases hσ with ⟨rfl, rfl⟩ | ⟨rfl, rfl⟩ | ⟨rfl, rfl⟩ | ⟨rfl, rfl⟩
      · have := node 2 (by decide); norm_num at this; exact this
      · exact n1
      · obtain ⟨z0, z1, y, z2, z3, z4, hline⟩ := C30_linear_in_speed (tT φ t) hf 1 (3 / 2) (φ x) ⟨by norm_num, by rw [hn]; decide⟩ ⟨by norm_num, by rw [hn]; decide⟩ (.inr rfl) (.inl (by norm_num))
        norm_num at z2 z3
        rw [n0] at z2; cases z2
        rw [n1] at z3; cases z3
        rw [z4]
        unfold OnLine at hline
        push_cast at hline
        norm_num at hline
        have h4 := h3.resolve_left (by simp)
        have h5 : φ (q.getD 2 0) = (φ (q.getD 1 0) + φ (q.getD 3 0)) / 2 := by rw [h4]; simp
        rw [h5]
        congr 1
        simp only [colIndex] at hline
        have e : ∀ i, φ (q.getD i 0) = ((q[i]?.getD 0 : ℚ) : ℝ) := fun i => rfl
        rw [e, e]
        linarith
      · exact n0
  · intro i c hc
    have hi : i < speedCount st := by rw [← h1]; simpa using (List.getElem?_eq_some_iff.1 hc).1
    exact speed_at st hi

theorem sizes_of {D : ℚ} {q : List ℚ} (h : sizesB D q = true) : RatedSizes (φ D) (q.map φ) := by
  simp only [sizesB, Bool.and_eq_true, decide_eq_true_eq, List.all_eq_true] at h
  obtain ⟨⟨⟨h1, h2⟩, h3⟩, h4⟩ := h
  refine ⟨?_, ?_, ?_, ?_⟩
  · intro x hx
    obtain ⟨y, hy, rfl⟩ := List.mem_map.1 hx
    rw [← map_zero φ]; exact φ_mono (h1 y hy)
  · intro i j x y hij hx hy
    obtain ⟨rfl, hx'⟩ := getD_cast hx
    obtain ⟨rfl, hy'⟩ := getD_cast hy
    apply φ_mono.monotone
    rcases Nat.lt_or_eq_of_le hij with h | rfl
    · obtain ⟨a1, a2⟩ := List.getElem?_eq_some_iff.1 hx'
      obtain ⟨b1, b2⟩ := List.getElem?_eq_some_iff.1 hy'
      have := List.pairwise_iff_getElem.1 h2 i j a1 b1 h
      rw [a2, b2] at this
      exact this
    · exact le_refl _
  · intro x hx
    obtain ⟨y, hy, rfl⟩ := List.mem_map.1 hx
    have := φ_mono.monotone (h3 y hy)
    simpa using this
  · intro x hx
    obtain ⟨rfl, hx⟩ := getD_cast hx
    have := φ_mono.monotone h4
    simpa using this

theorem sound_of {st : Staging} {d : Perf ℚ} {qc qh : List ℚ} (hr : RatedTables (tableSpeeds st) (pT φ d)) (h : soundB st d qc qh = true) :
    Sound units st (pT φ d) (qc.map φ) (qh.map φ) := by
  simp only [soundB, Bool.and_eq_true] at h
  obtain ⟨⟨⟨⟨⟨⟨⟨h1, h2⟩, h3⟩, h4⟩, h5⟩, h6⟩, h7⟩, h8⟩ := h
  have f95 : φ (frF 95) = frF 95 := by rw [frF_map]; simp
  have f47 : φ (frF 47) = frF 47 := by rw [frF_map]; simp
  have hm : φ (337.2 / unitsQ.ton) = 337.2 / units.ton := by simp [unitsQ, units]
  have l1 : qc.length = speedCount st := by simp only [ratedB, Bool.and_eq_true, decide_eq_true_eq] at h1; exact h1.1.1
  have l2 : qh.length = speedCount st := by simp only [ratedB, Bool.and_eq_true, decide_eq_true_eq] at h2; exact h2.1.1
  have get : ∀ {q : List ℚ}, q.length = speedCount st → (q.map φ)[fullIndex st]? = some (φ (q.getD (fullIndex st) 0)) := by
    intro q hq
    have := full_lt st
    simp [List.getElem?_map, List.getD, List.getElem?_eq_getElem (show fullIndex st < q.length by omega)]
  have hmax : ∀ a b : ℚ, max (φ a) (φ b) = φ (max a b) := fun a b => (φ_mono.monotone.map_max).symm
  refine ⟨hr, ratedAt_of f95 hr.qc hr.speeds.1 h1, ratedAt_of f47 hr.qh hr.speeds.2.2.1 h2, ⟨_, _, get l1, get l2, ?_, ?_⟩, covers_of (by simp) h5, covers_of hm h6, covers_of hm h7, covers_of hm h8⟩
  · rw [hmax]; exact sizes_of h3
  · rw [hmax]; exact sizes_of h4

end Resdx.Sample
