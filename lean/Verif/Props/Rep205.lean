import Verif.Lemmas.Rep205
import Verif.Props.Conditions
import Verif.Props.Performance
import Verif.Model.Nrel
import Verif.Props.BaseModel
import Verif.Lemmas.System

/-!
# Properties of the ASHRAE 205 representation of a unit

C65 (map layout), C91 (mass-flow axis), C92 (axes and scalar entries), C93 (identifiers).
-/

set_option linter.unusedSectionVars false
set_option linter.unusedSimpArgs false

namespace Resdx.Props

open Spec Rep205

variable {K : Type} [Field K] [LinearOrder K] [IsStrictOrderedRing K]

/-! ## C65: layout of the cooling map -/

section C65

variable {F : Type} {u : Units K} {E : Env K} {S : Sys K} {U : DX.Performance (Conditions K) K} {B : Attributes K} {fan : Py F} {r : Rep K F}

theorem coolingMap_spec {n : Nat} {A : Axes K} {map : List (Entry K)} (h : coolingMap E S U n A = .ok map) :
    map.length = gridSize (axisLengths A) ∧
    ∀ i₀ i₁ i₂ i₃ i₄ i₅ tOut rh tIn m k p, A.outdoorDb[i₀]? = some tOut → A.indoorRh[i₁]? = some rh → A.indoorDb[i₂]? = some tIn →
      A.massFlow[i₃]? = some m → A.sequence[i₄]? = some k → A.pressure[i₅]? = some p →
      ∃ e, map[rowMajor ([i₀, i₁, i₂, i₃, i₄, i₅].zip (axisLengths A))]? = some e ∧ entry E S U tOut rh tIn m (n - k) p = .ok e := by
  unfold coolingMap at h
  -- lengths from the inside out
  have L5 : ∀ (tOut rh tIn m : K) (speed : Nat) (x : List (Entry K)),
      (forAppend A.pressure fun p => do
        let e ← entry E S U tOut rh tIn m speed p
        return [e]) = .ok x → x.length = A.pressure.length := by
    intro tOut rh tIn m speed x hx
    refine ((forAppend_spec _ _ _ 1 hx ?_).1).trans (Nat.mul_one _)
    intro p y hy
    simp only [bind_eq_ok, pure_eq_ok, Except.ok.injEq] at hy
    obtain ⟨_, _, rfl⟩ := hy
    rfl
  have L4 := fun tOut rh tIn m => forAppend_length (l := A.sequence.map fun k => n - k) (L5 tOut rh tIn m)
  have L3 := fun tOut rh tIn => forAppend_length (l := A.massFlow) (L4 tOut rh tIn)
  have L2 := fun tOut rh => forAppend_length (l := A.indoorDb) (L3 tOut rh)
  have L1 := fun tOut => forAppend_length (l := A.indoorRh) (L2 tOut)
  obtain ⟨l0, g0⟩ := forAppend_spec _ _ map _ h L1
  refine ⟨by rw [l0]; simp only [gridSize, axisLengths, List.foldl, List.length_map]; ring, ?_⟩
  intro i₀ i₁ i₂ i₃ i₄ i₅ tOut rh tIn m k p h0 h1 h2 h3 h4 h5
  obtain ⟨x1, e1, k1⟩ := g0 i₀ tOut h0
  obtain ⟨x2, e2, k2⟩ := (forAppend_spec _ _ _ _ e1 (L2 tOut)).2 i₁ rh h1
  obtain ⟨x3, e3, k3⟩ := (forAppend_spec _ _ _ _ e2 (L3 tOut rh)).2 i₂ tIn h2
  obtain ⟨x4, e4, k4⟩ := (forAppend_spec _ _ _ _ e3 (L4 tOut rh tIn)).2 i₃ m h3
  obtain ⟨x5, e5, k5⟩ := (forAppend_spec _ _ _ _ e4 (L5 tOut rh tIn m)).2 i₄ (n - k) (by simp [h4])
  obtain ⟨x6, e6, k6⟩ := (forAppend_spec _ _ _ 1 e5 (by
    intro p y hy
    simp only [bind_eq_ok, pure_eq_ok, Except.ok.injEq] at hy
    obtain ⟨_, _, rfl⟩ := hy
    rfl)).2 i₅ p h5
  simp only [bind_eq_ok, pure_eq_ok, Except.ok.injEq] at e6
  obtain ⟨e, he, rfl⟩ := e6
  refine ⟨e, ?_, he⟩
  have b1 := (List.getElem?_eq_some_iff.1 h1).1
  have b2 := (List.getElem?_eq_some_iff.1 h2).1
  have b3 := (List.getElem?_eq_some_iff.1 h3).1
  have b4 := (List.getElem?_eq_some_iff.1 h4).1
  have b5 := (List.getElem?_eq_some_iff.1 h5).1
  have m6 := k6 0 (by omega)
  simp only [Nat.mul_one, Nat.add_zero, List.getElem?_cons_zero] at m6
  have lt {i j n m : Nat} (hi : i < n) (hj : j < m) : i * m + j < n * m := by
    calc i * m + j < i * m + m := by omega
      _ = (i + 1) * m := by ring
      _ ≤ n * m := Nat.mul_le_mul_right _ hi
  have b4' : i₄ < (A.sequence.map fun k => n - k).length := by rwa [List.length_map]
  have c4 := lt b4' b5
  have c3 := lt b3 c4
  have c2 := lt b2 c3
  have c1 := lt b1 c2
  rw [← m6, ← k5 _ b5, ← k4 _ c4, ← k3 _ c3, ← k2 _ c2, ← k1 _ c1]
  congr 1
  simp only [rowMajor, axisLengths, List.zip_cons_cons, List.zip_nil_right, List.foldl, List.length_map]
  ring

/-- C65: the map has exactly one entry per grid point (the number of entries is the product of the axis lengths, and row-major order assigns
different entries to different grid points), and the entry of a grid point holds the gross total capacity, gross sensible capacity and gross power
that the unit itself reports for the condition made there: outdoor air at the outdoor axis value with 40 % relative humidity, indoor air at the two
indoor axis values, both at the pressure of the last axis, compressor speed `n - k` for sequence number `k`, and the mass flow of the mass-flow
axis set with `set_mass_airflow`. -/
theorem C65_row_major (h : representation u E S U B fan = .ok r) :
    r.map.length = gridSize (axisLengths r.axes) ∧
    (∀ i₀ i₁ i₂ i₃ i₄ i₅ tOut rh tIn m k p, r.axes.outdoorDb[i₀]? = some tOut → r.axes.indoorRh[i₁]? = some rh → r.axes.indoorDb[i₂]? = some tIn →
      r.axes.massFlow[i₃]? = some m → r.axes.sequence[i₄]? = some k → r.axes.pressure[i₅]? = some p →
      ∃ e o i c f, r.map[rowMajor ([i₀, i₁, i₂, i₃, i₄, i₅].zip (axisLengths r.axes))]? = some e ∧
        Psych.init E.lib tOut p [("rel_hum", 0.4)] = .ok o ∧ Psych.init E.lib tIn p [("rel_hum", rh)] = .ok i ∧
        S.makeCondition E false (B.nCooling - k) (some i) (some o) = .ok c ∧ Cond.setMassAirflow m c.flow = (.ok (), f) ∧
        U.grossTotalCoolingCapacity (some { c with flow := f }) = .ok e.total ∧
        U.grossSensibleCoolingCapacity (some { c with flow := f }) = .ok e.sensible ∧
        U.grossCoolingPower (some { c with flow := f }) = .ok e.power ∧ e.state = "NORMAL") ∧
    ∀ ix jx : List Nat, ix.length = 6 → jx.length = 6 → (∀ q ∈ ix.zip (axisLengths r.axes), q.1 < q.2) →
      (∀ q ∈ jx.zip (axisLengths r.axes), q.1 < q.2) →
      rowMajor (ix.zip (axisLengths r.axes)) < r.map.length ∧
      (rowMajor (ix.zip (axisLengths r.axes)) = rowMajor (jx.zip (axisLengths r.axes)) → ix = jx) := by
  simp only [representation, bind_eq_ok, pure_eq_ok, Except.ok.injEq] at h
  obtain ⟨cap, -, cop, -, shr, -, A, hA, map, hmap, fr, -, rfl⟩ := h
  obtain ⟨h1, h2⟩ := coolingMap_spec hmap
  refine ⟨h1, ?_, ?_⟩
  · intro i₀ i₁ i₂ i₃ i₄ i₅ tOut rh tIn m k p k0 k1 k2 k3 k4 k5
    obtain ⟨e, he, h3⟩ := h2 i₀ i₁ i₂ i₃ i₄ i₅ tOut rh tIn m k p k0 k1 k2 k3 k4 k5
    simp only [entry, gridCondition, bind_eq_ok, pure_eq_ok, Except.ok.injEq] at h3
    obtain ⟨c', ⟨o, ho, i, hi, c, hc, f, hf, rfl⟩, t, ht, s, hs, w, hw, rfl⟩ := h3
    refine ⟨_, o, i, c, f, he, ho, hi, hc, ?_, ht, hs, hw, rfl⟩
    have := hf
    unfold PyM.exec at this
    revert this
    rcases hx : Cond.setMassAirflow m c.flow with ⟨_ | v, s'⟩
    · simp
    · simp only [Except.ok.injEq]
      rintro rfl
      rfl
  · intro ix jx hix hjx b1 b2
    have len : (axisLengths A).length = 6 := rfl
    have snd (l : List Nat) (hl : l.length = 6) : (l.zip (axisLengths A)).map Prod.snd = axisLengths A :=
      List.map_snd_zip (by simp [hl, axisLengths])
    have fst (l : List Nat) (hl : l.length = 6) : (l.zip (axisLengths A)).map Prod.fst = l :=
      List.map_fst_zip (by simp [hl, axisLengths])
    refine ⟨?_, fun e => ?_⟩
    · have := rowMajor_lt _ b1
      rw [snd ix hix] at this
      exact lt_of_lt_of_eq this h1.symm
    · have := rowMajor_inj _ _ b1 b2 ((snd ix hix).trans (snd jx hjx).symm) e
      rw [← fst ix hix, ← fst jx hjx, this]

/-- C65: sequence numbers are 1 … n in order, the compressor speed used for number `k` is a valid speed of the unit, number `n` is full speed (index
0), number 1 is the slowest speed, and consecutive numbers are consecutive speeds. The map has 1024 entries per speed. -/
theorem C65_sequence_numbers (h : representation u E S U B fan = .ok r) :
    r.axes.sequence.length = B.nCooling ∧ r.map.length = 1024 * B.nCooling ∧
    ∀ i k, r.axes.sequence[i]? = some k → k = i + 1 ∧ 1 ≤ k ∧ k ≤ B.nCooling ∧ B.nCooling - k < B.nCooling ∧ (B.nCooling - k = 0 ↔ k = B.nCooling) := by
  have hl := (C65_row_major h).1
  simp only [representation, bind_eq_ok, pure_eq_ok, Except.ok.injEq] at h
  obtain ⟨cap, -, cop, -, shr, -, A, hA, map, hmap, fr, -, rfl⟩ := h
  simp only [axes, bind_eq_ok, pure_eq_ok, Except.ok.injEq] at hA
  obtain ⟨last, -, first, -, rfl⟩ := hA
  refine ⟨by simp, ?_, ?_⟩
  · rw [hl]
    simp [gridSize, axisLengths, linspace4]
    ring
  · intro i k hk
    simp only [List.getElem?_map, Option.map_eq_some_iff] at hk
    obtain ⟨j, hj, rfl⟩ := hk
    have := List.getElem?_eq_some_iff.1 hj
    obtain ⟨hb, he⟩ := this
    simp only [List.length_range] at hb
    simp only [List.getElem_range] at he
    omega

/-- C65: the representation is generated iff the description values, the fan representation and the three quantities at every grid point can be computed
(no other step can fail on a unit with at least one speed). -/
theorem C65_returns_iff (hq : S.netCooling ≠ []) :
    (∃ r, representation u E S U B fan = .ok r) ↔
      (∃ q, U.grossTotalCoolingCapacity none = .ok q) ∧ (∃ q, U.grossTotalCoolingCOP none = .ok q) ∧ (∃ q, U.grossSHR none = .ok q) ∧
      (∃ f, fan = .ok f) ∧ ∃ A, axes u E.rhoStd S.netCooling B.nCooling = .ok A ∧
        ∀ tOut ∈ A.outdoorDb, ∀ rh ∈ A.indoorRh, ∀ tIn ∈ A.indoorDb, ∀ m ∈ A.massFlow, ∀ k ∈ A.sequence, ∀ p ∈ A.pressure,
          ∃ e, entry E S U tOut rh tIn m (B.nCooling - k) p = .ok e := by
  constructor
  · rintro ⟨r, h⟩
    simp only [representation, bind_eq_ok, pure_eq_ok, Except.ok.injEq] at h
    obtain ⟨cap, hcap, cop, hcop, shr, hshr, A, hA, map, hmap, fr, hfr, rfl⟩ := h
    refine ⟨⟨_, hcap⟩, ⟨_, hcop⟩, ⟨_, hshr⟩, ⟨_, hfr⟩, A, hA, ?_⟩
    intro tOut h0 rh h1 tIn h2 m h3 k h4 p h5
    obtain ⟨x1, e1⟩ := forAppend_all _ _ _ hmap tOut h0
    obtain ⟨x2, e2⟩ := forAppend_all _ _ _ e1 rh h1
    obtain ⟨x3, e3⟩ := forAppend_all _ _ _ e2 tIn h2
    obtain ⟨x4, e4⟩ := forAppend_all _ _ _ e3 m h3
    obtain ⟨x5, e5⟩ := forAppend_all _ _ _ e4 (B.nCooling - k) (List.mem_map.2 ⟨k, h4, rfl⟩)
    obtain ⟨x6, e6⟩ := forAppend_all _ _ _ e5 p h5
    simp only [bind_eq_ok] at e6
    obtain ⟨e, he, -⟩ := e6
    exact ⟨e, he⟩
  · rintro ⟨⟨cap, hcap⟩, ⟨cop, hcop⟩, ⟨shr, hshr⟩, ⟨fr, hfr⟩, A, hA, hall⟩
    have : ∃ map, coolingMap E S U B.nCooling A = .ok map := by
      unfold coolingMap
      refine forAppend_isOk _ _ fun tOut h0 => forAppend_isOk _ _ fun rh h1 => forAppend_isOk _ _ fun tIn h2 => forAppend_isOk _ _ fun m h3 =>
        forAppend_isOk _ _ fun s h4 => forAppend_isOk _ _ fun p h5 => ?_
      obtain ⟨k, hk, rfl⟩ := List.mem_map.1 h4
      obtain ⟨e, he⟩ := hall tOut h0 rh h1 tIn h2 m h3 k hk p h5
      exact ⟨[e], by simp [he, bind_ok, pure_eq_ok]⟩
    obtain ⟨map, hmap⟩ := this
    simp [representation, hcap, hcop, hshr, hA, hmap, hfr, bind_ok, pure_eq_ok]

end C65

/-! ## C91: the mass-flow axis -/

section C91

variable {F : Type} {u : Units K} {E : Env K} {S : Sys K} {U : DX.Performance (Conditions K) K} {B : Attributes K} {fan : Py F} {r : Rep K F}

/-- C91 (what the map holds): at every grid point the values are computed for a condition whose mass flow is the axis value `m` but whose airflow ratio is
`rated / m` instead of `m / rated` (`rated` is the rated mass flow of that speed), and whose external static pressure is still that of the rated
airflow. -/
theorem C91_stored_condition (h : representation u E S U B fan = .ok r) (i₀ i₁ i₂ i₃ i₄ i₅ : Nat) (tOut rh tIn m : K) (k : Nat) (p : K)
    (h0 : r.axes.outdoorDb[i₀]? = some tOut) (h1 : r.axes.indoorRh[i₁]? = some rh) (h2 : r.axes.indoorDb[i₂]? = some tIn)
    (h3 : r.axes.massFlow[i₃]? = some m) (h4 : r.axes.sequence[i₄]? = some k) (h5 : r.axes.pressure[i₅]? = some p) :
    ∃ e c a a0, r.map[rowMajor ([i₀, i₁, i₂, i₃, i₄, i₅].zip (axisLengths r.axes))]? = some e ∧
      U.grossTotalCoolingCapacity (some c) = .ok e.total ∧ U.grossSensibleCoolingCapacity (some c) = .ok e.sensible ∧
      U.grossCoolingPower (some c) = .ok e.power ∧ Psych.init E.lib tOut p [("rel_hum", 0.4)] = .ok c.outdoor ∧
      Psych.init E.lib tIn p [("rel_hum", rh)] = .ok c.indoor ∧ c.flow.compressorSpeed = B.nCooling - k ∧
      S.coolingAirflow[B.nCooling - k]? = some (some a) ∧ S.coolingAirflow[0]? = some (some a0) ∧
      c.flow.ratedMass = some (a * E.rhoStd) ∧ c.flow.mass = some m ∧ c.flow.ratio = some (a * E.rhoStd / m) ∧
      c.flow.esp = some (S.fullESP * (a / a0) ^ 2) := by
  obtain ⟨e, o, i, c, f, he, ho, hi, hc, hf, ht, hs, hw, -⟩ := (C65_row_major h).2.1 i₀ i₁ i₂ i₃ i₄ i₅ tOut rh tIn m k p h0 h1 h2 h3 h4 h5
  obtain ⟨rho, pr, a, cap, fs, k1, k2, k3, k4, k5, k6, k7, ⟨a0, k8, k9, rfl⟩, k10, rfl⟩ := Sys.makeCondition_spec E S false _ _ _ _ hc
  have hm : m ≠ 0 := by
    rintro rfl
    simp [Cond.setMassAirflow, ratedFlow, PyM.bind_run, PyM.modify_run, PyM.get_run, PyM.liftM_run, PyM.monadLift_run, PyM.lift_run, PyM.pure_run, pyAttr,
      pdiv_zero] at hf
  rw [C10_setMassAirflow_effect _ m (a * E.rhoStd) cap 1 (S.fullESP * (a / a0) ^ 2) rfl rfl rfl rfl rfl hm k1 k2 k4] at hf
  simp only [Prod.mk.injEq, true_and] at hf
  subst hf
  exact ⟨e, _, a, a0, he, ht, hs, hw, ho, hi, rfl, k7, k8, rfl, rfl, rfl, by simp⟩

/-- The NREL airflow modifier of the cooling capacity falls when the ratio falls, for ratios up to 1.5. -/
theorem nrel_capFF_lt {x y : K} (h0 : 0 ≤ x) (hxy : x < y) (h1 : y ≤ 1.5) (cx cy : K) (hx : Util.calcQuad Nrel.coolingCapFF x = .ok cx)
    (hy : Util.calcQuad Nrel.coolingCapFF y = .ok cy) : 0 < cx ∧ cx < cy := by
  simp only [Util.calcQuad, Nrel.coolingCapFF, pyGet, List.getElem?_cons_zero, List.getElem?_cons_succ, bind_ok, pure_eq_ok, Except.ok.injEq] at hx hy
  subst hx hy
  norm_num at h1 ⊢
  constructor <;> nlinarith

/-- C91 (consequence for NREL units): along the mass-flow axis the tabulated total capacity *falls* with rising mass flow, although the unit's own
capacity rises with the airflow ratio. Two grid points that differ only in mass flow, at airflow ratios the correlation is meant for (the lower flow is at
least two thirds of the rated one), with no charge fault. -/
theorem C91_nrel_reversed {timeFraction humidity sensible fanPower : Conditions K → Py K} {aFull h1Full : Conditions K}
    (hU : U = Nrel.unit E S timeFraction humidity sensible fanPower aFull h1Full) (hcharge : S.chargeDeviation = 0)
    (h : representation u E S U B fan = .ok r) (i₀ i₁ i₂ i₃ j₃ i₄ i₅ : Nat) (tOut rh tIn m m' : K) (k : Nat) (p a : K)
    (h0 : r.axes.outdoorDb[i₀]? = some tOut) (h1 : r.axes.indoorRh[i₁]? = some rh) (h2 : r.axes.indoorDb[i₂]? = some tIn)
    (h3 : r.axes.massFlow[i₃]? = some m) (h3' : r.axes.massFlow[j₃]? = some m') (h4 : r.axes.sequence[i₄]? = some k)
    (h5 : r.axes.pressure[i₅]? = some p) (ha : S.coolingAirflow[B.nCooling - k]? = some (some a)) (hpos : 0 < a * E.rhoStd)
    (hm : 2 / 3 * (a * E.rhoStd) ≤ m) (hmm : m < m') :
    ∃ e e', r.map[rowMajor ([i₀, i₁, i₂, i₃, i₄, i₅].zip (axisLengths r.axes))]? = some e ∧
      r.map[rowMajor ([i₀, i₁, i₂, j₃, i₄, i₅].zip (axisLengths r.axes))]? = some e' ∧ (0 < e.total → e'.total < e.total) := by
  obtain ⟨e, c, a1, a0, he, ht, -, -, ho, hi, hsp, ha1, -, -, -, hr, -⟩ :=
    C91_stored_condition h i₀ i₁ i₂ i₃ i₄ i₅ tOut rh tIn m k p h0 h1 h2 h3 h4 h5
  obtain ⟨e', c', a2, a0', he', ht', -, -, ho', hi', hsp', ha2, -, -, -, hr', -⟩ :=
    C91_stored_condition h i₀ i₁ i₂ j₃ i₄ i₅ tOut rh tIn m' k p h0 h1 h2 h3' h4 h5
  refine ⟨e, e', he, he', fun hp => ?_⟩
  rw [ha] at ha1 ha2
  obtain rfl : a = a1 := by simpa using ha1
  obtain rfl : a = a2 := by simpa using ha2
  have eo : c'.outdoor = c.outdoor := by rw [ho] at ho'; simpa using ho'.symm
  have ei : c'.indoor = c.indoor := by rw [hi] at hi'; simpa using hi'.symm
  subst hU
  have one (c : Conditions K) : Nrel.gradingModel E S (Nrel.raw S) .capacity c = .ok 1 := by simp [Nrel.gradingModel, hcharge]
  have eIn : Nrel.coolingIndoor c' = Nrel.coolingIndoor c := by simp only [Nrel.coolingIndoor, ei]
  have eOut : Nrel.coolingOutdoor c' = Nrel.coolingOutdoor c := by simp only [Nrel.coolingOutdoor, eo]
  simp only [DX.Performance.grossTotalCoolingCapacity, Nrel.unit, Option.getD_some, one, bind_eq_ok, bind_ok, mul_one, Util.limitCheck,
    Nrel.grossTotalCoolingCapacity, pure_eq_ok, Except.ok.injEq, eIn, eOut, hsp, hsp', hr, hr', pyAttr] at ht ht'
  obtain ⟨q, ⟨x1, x2, x3, x4, x5, x6, x7, x8, rfl⟩, hq⟩ := ht
  obtain ⟨q', ⟨y1, y2, y3, y4, y5, y6, y7, y8, rfl⟩, hq'⟩ := ht'
  rw [x2] at y2
  obtain rfl : x1 = y1 := by simpa using y2
  rw [x4] at y4
  obtain rfl : x3 = y3 := by simpa using y4
  rw [x8] at y8
  obtain rfl : x7 = y7 := by simpa using y8
  have hm0 : 0 < m := lt_of_lt_of_le (by positivity) hm
  have hm0' : 0 < m' := hm0.trans hmm
  obtain ⟨c1, c2⟩ := nrel_capFF_lt (x := a * E.rhoStd / m') (y := a * E.rhoStd / m) (by positivity) (div_lt_div_of_pos_left hpos hm0 hmm)
    (by rw [div_le_iff₀ hm0]; norm_num; linarith) y5 x5 y6 x6
  have hqe : x5 * x3 * x7 = e.total := by
    split at hq
    · simp at hq
    · simpa using hq
  have hqe' : y5 * x3 * x7 = e'.total := by
    split at hq'
    · simp at hq'
    · simpa using hq'
  rw [← hqe] at hp ⊢
  rw [← hqe']
  have hc0 : 0 < x5 := c1.trans c2
  have hft : 0 < x3 * x7 := by
    rw [mul_assoc] at hp
    exact (mul_pos_iff_of_pos_left hc0).1 hp
  rw [mul_assoc, mul_assoc]
  exact mul_lt_mul_of_pos_right c2 hft

/-- A single-speed NREL unit (`sampleSys`) with a constant sensible heat ratio and a 100 W fan. -/
def nrelUnit : DX.Performance (Conditions ℚ) ℚ :=
  Nrel.unit sampleEnv sampleSys (fun _ => .ok 0) (fun _ => .ok 0)
    (fun c => do return (← Nrel.grossTotalCoolingCapacity sampleSys c) * 3 / 4) (fun _ => .ok 100) sampleA sampleH1

/-- Its remaining attributes. -/
def nrelAttributes : Attributes ℚ := { nCooling := 1, cdCooling := 0.2, crankcaseSetpoint := frF 50, crankcaseCapacity := 35 }

/-- Conversion factors (rounded). -/
def roundUnits : Units ℚ :=
  { cfm := 0.000472, inH2O := 249, ton := 3516.8, btuh := 0.29307, minute := 60, rpm := 0.1047
    cfm_pos := by norm_num, inH2O_pos := by norm_num, ton_pos := by norm_num, btuh_pos := by norm_num, minute_pos := by norm_num, rpm_pos := by norm_num }

/-- Its representation (with no fan data). -/
def nrelRep : Py (Rep ℚ Unit) := representation roundUnits sampleEnv sampleSys nrelUnit nrelAttributes (.ok ())

/-- The capacity of the unit at the first grid point, with the airflow ratio set to the mass flow over the rated mass flow. -/
def nrelFirst (m : ℚ) : Py ℚ := do
  let o ← Psych.init sampleEnv.lib (frF 55) 57226.508 [("rel_hum", 0.4)]
  let i ← Psych.init sampleEnv.lib (frF 65) 57226.508 [("rel_hum", 0)]
  let c ← sampleSys.makeCondition sampleEnv false 0 (some i) (some o)
  let f ← (Cond.setMassAirflowRatio (m / (0.57 * 1.2))).exec c.flow
  nrelUnit.grossTotalCoolingCapacity (some { c with flow := f })

/-- The representation of this unit is generated, has 1024 entries, its first and fifth entries (adjacent mass flows) have falling positive capacities,
and the first capacity is not that of the unit at the first mass flow. -/
theorem nrelRep_ok : (match nrelRep with
    | .ok r => decide (r.map.length = 1024) &&
        (match r.map[0]?, r.map[4]?, r.axes.massFlow[0]?, r.axes.massFlow[1]? with
          | some e, some e', some m, some m' =>
            decide (0 < e.total) && decide (e'.total < e.total) && decide (2 / 3 * (0.57 * 1.2) ≤ m) && decide (m < m') && !decide (nrelFirst m = .ok e.total)
          | _, _, _, _ => false)
    | .error _ => false) = true := by decide +kernel

/-- The representation returned. -/
theorem nrelRep_facts : ∃ (r : Rep ℚ Unit) (e e' : Entry ℚ) (m m' : ℚ), nrelRep = .ok r ∧ r.map[0]? = some e ∧ r.map[4]? = some e' ∧
    r.axes.massFlow[0]? = some m ∧ r.axes.massFlow[1]? = some m' ∧ r.map.length = 1024 ∧ 0 < e.total ∧ e'.total < e.total ∧
    2 / 3 * (0.57 * 1.2) ≤ m ∧ m < m' ∧ nrelFirst m ≠ .ok e.total := by
  have h := nrelRep_ok
  rcases hr : nrelRep with _ | r
  · simp [hr] at h
  · rw [hr] at h
    simp only [Bool.and_eq_true, decide_eq_true_eq] at h
    obtain ⟨h1, h2⟩ := h
    split at h2
    · rename_i e e' m m' k1 k2 k3 k4
      simp only [Bool.and_eq_true, decide_eq_true_eq, Bool.not_eq_true', decide_eq_false_iff_not] at h2
      obtain ⟨⟨⟨⟨a1, a2⟩, a3⟩, a4⟩, a5⟩ := h2
      exact ⟨r, e, e', m, m', rfl, k1, k2, k3, k4, h1, a1, a2, a3, a4, a5⟩
    · simp at h2

/-- C91 (the claim is false of the code): the tabulated capacity of a grid point is not the capacity of the unit with the mass flow of that grid point. -/
theorem C91_refuted :
    ¬ ∀ (u : Units ℚ) (E : Env ℚ) (S : Sys ℚ) (U : DX.Performance (Conditions ℚ) ℚ) (B : Attributes ℚ) (fan : Py Unit) (r : Rep ℚ Unit),
      representation u E S U B fan = .ok r →
      ∀ i₀ i₁ i₂ i₃ i₄ i₅ tOut rh tIn m k p, r.axes.outdoorDb[i₀]? = some tOut → r.axes.indoorRh[i₁]? = some rh → r.axes.indoorDb[i₂]? = some tIn →
        r.axes.massFlow[i₃]? = some m → r.axes.sequence[i₄]? = some k → r.axes.pressure[i₅]? = some p →
        ∀ o i c rm f, Psych.init E.lib tOut p [("rel_hum", 0.4)] = .ok o → Psych.init E.lib tIn p [("rel_hum", rh)] = .ok i →
          S.makeCondition E false (B.nCooling - k) (some i) (some o) = .ok c → c.flow.ratedMass = some rm →
          Cond.setMassAirflowRatio (m / rm) c.flow = (.ok (), f) →
          ∃ e, r.map[rowMajor ([i₀, i₁, i₂, i₃, i₄, i₅].zip (axisLengths r.axes))]? = some e ∧
            U.grossTotalCoolingCapacity (some { c with flow := f }) = .ok e.total := by
  intro hall
  obtain ⟨r, e, e', m, m', hr, h1, h2, h3, h4, -, hp, hlt, hm, hmm, hne⟩ := nrelRep_facts
  have ax : r.axes.outdoorDb = linspace4 (frF 55) (frF 125) ∧ r.axes.indoorRh = linspace4 0 1 ∧ r.axes.indoorDb = linspace4 (frF 65) (frF 90) ∧
      r.axes.sequence = [1] ∧ r.axes.pressure = linspace4 57226.508 106868.78 := by
    have h := hr
    simp only [nrelRep, representation, bind_eq_ok, pure_eq_ok, Except.ok.injEq] at h
    obtain ⟨cap, -, cop, -, shr, -, A, hA, map, hmap, fr, -, rfl⟩ := h
    simp only [axes, bind_eq_ok, pure_eq_ok, Except.ok.injEq] at hA
    obtain ⟨last, -, first, -, rfl⟩ := hA
    exact ⟨rfl, rfl, rfl, rfl, rfl⟩
  obtain ⟨x0, x1, x2, x4, x5⟩ := ax
  let o : Psych.PsychState ℚ := { Psych.blank (frF 55) 57226.508 with wb := some (frC (toC (frF 55))), wbC := some (toC (frC (toC (frF 55)))), rh := some 0.4 }
  let i : Psych.PsychState ℚ := { Psych.blank (frF 65) 57226.508 with wb := some (frC (toC (frF 65))), wbC := some (toC (frC (toC (frF 65)))), rh := some 0 }
  let c : Conditions ℚ := { heating := false, indoor := i, outdoor := o, flow := ratedFlow 1.2 1.2 0 (some 0) 125 0.57 10550 }
  have ho : Psych.init sampleEnv.lib (frF 55) 57226.508 [("rel_hum", 0.4)] = .ok o := by decide +kernel
  have hi : Psych.init sampleEnv.lib (frF 65) 57226.508 [("rel_hum", 0)] = .ok i := by decide +kernel
  have hc : sampleSys.makeCondition sampleEnv false 0 (some i) (some o) = .ok c := by decide +kernel
  obtain ⟨f, hf⟩ : ∃ f, Cond.setMassAirflowRatio (m / (0.57 * 1.2)) c.flow = (.ok (), f) := by
    have := setRatio_rated (1.2 : ℚ) 1.2 0 (some 0) 125 0.57 10550 (m / (0.57 * 1.2)) (by norm_num) (by norm_num) (by norm_num)
    rw [exec_iff] at this
    exact ⟨_, this⟩
  obtain ⟨e'', k1, k2⟩ := hall _ _ _ _ _ _ r hr 0 0 0 0 0 0 (frF 55) 0 (frF 65) m 1 57226.508 (by simp [x0, linspace4]) (by simp [x1, linspace4]) (by simp [x2, linspace4])
    h3 (by simp [x4]) (by simp [x5, linspace4]) o i c (0.57 * 1.2) f ho hi hc rfl hf
  have : e'' = e := by
    have z : rowMajor ([0, 0, 0, 0, 0, 0].zip (axisLengths r.axes)) = 0 := by simp [rowMajor, axisLengths]
    rw [z, h1] at k1
    simpa using k1.symm
  subst this
  refine hne ?_
  simp only [nrelFirst, ho, hi, hc, bind_ok, PyM.exec, hf]
  exact k2

/-- The hypotheses of `C91_nrel_reversed` (and of the C65 theorems) are met by this unit, with a positive capacity. -/
example : ∃ (r : Rep ℚ Unit) (e : Entry ℚ) (m m' : ℚ), representation roundUnits sampleEnv sampleSys nrelUnit nrelAttributes (.ok ()) = .ok r ∧
    sampleSys.chargeDeviation = 0 ∧ sampleSys.coolingAirflow[nrelAttributes.nCooling - 1]? = some (some 0.57) ∧ r.axes.massFlow[0]? = some m ∧
    r.axes.massFlow[1]? = some m' ∧ 2 / 3 * (0.57 * sampleEnv.rhoStd) ≤ m ∧ m < m' ∧ r.map[0]? = some e ∧ 0 < e.total ∧ r.map.length = 1024 := by
  obtain ⟨r, e, e', m, m', hr, h1, h2, h3, h4, h5, h6, -, h7, h8, -⟩ := nrelRep_facts
  exact ⟨r, e, m, m', hr, rfl, rfl, h3, h4, h7, h8, h1, h6, h5⟩

end C91

/-! ## C92: axes and scalar entries -/

section C92

theorem linspace4_spaced {a b : K} (h : a < b) : EvenlySpaced a b (linspace4 a b) := by
  have e : linspace4 a b = [a, a + (b - a) / 3, a + 2 * ((b - a) / 3), b] := by
    simp [linspace4, List.range_succ]
    ring
  rw [e]
  refine ⟨?_, rfl, rfl, ?_⟩
  · have : 0 < (b - a) / 3 := by linarith
    simp
    refine ⟨by linarith, by linarith, by linarith⟩
  · intro i x y z hx hy hz
    match i with
    | 0 =>
      simp at hx hy hz
      subst hx hy hz
      ring
    | 1 =>
      simp at hx hy hz
      subst hx hy hz
      ring
    | i + 2 => simp at hz

theorem linspace4_chain {a b : K} : (linspace4 a b).IsChain (· < ·) ↔ a < b := by
  refine ⟨fun h => ?_, fun h => (linspace4_spaced h).1⟩
  simp [linspace4, List.range_succ] at h
  linarith [h.1]

variable {F : Type} {u : Units K} {E : Env K} {S : Sys K} {U : DX.Performance (Conditions K) K} {B : Attributes K} {fan : Py F} {r : Rep K F}

/-- C92: each axis rises in equal steps over its range: 55–125 °F outdoors, 0–100 % and 65–90 °F indoors, 57 226.508–106 868.78 Pa, and 280 cfm/ton of the
lowest-speed capacity to 500 cfm/ton of the full capacity (as mass flow of standard air). The last range is the only one that depends on the unit; its
axis rises iff 280 times the last capacity is less than 500 times the first. -/
theorem C92_axes (h : representation u E S U B fan = .ok r) (hrho : 0 < E.rhoStd) (first last : K) (hf : S.netCooling.head? = some first)
    (hl : S.netCooling.getLast? = some last) :
    EvenlySpaced (frF 55) (frF 125) r.axes.outdoorDb ∧ EvenlySpaced 0 1 r.axes.indoorRh ∧ EvenlySpaced (frF 65) (frF 90) r.axes.indoorDb ∧
    EvenlySpaced 57226.508 106868.78 r.axes.pressure ∧
    (r.axes.massFlow.IsChain (· < ·) ↔ 280 * last < 500 * first) ∧
    (280 * last < 500 * first →
      EvenlySpaced (280 * (u.cfm / u.ton) * last * E.rhoStd) (500 * (u.cfm / u.ton) * first * E.rhoStd) r.axes.massFlow) := by
  simp only [representation, bind_eq_ok, pure_eq_ok, Except.ok.injEq] at h
  obtain ⟨cap, -, cop, -, shr, -, A, hA, map, -, fr, -, rfl⟩ := h
  simp only [axes, bind_eq_ok, pure_eq_ok, Except.ok.injEq] at hA
  obtain ⟨last', hlast, first', hfirst, rfl⟩ := hA
  obtain rfl : first' = first := by
    rw [pyGet_eq_ok, ← List.head?_eq_getElem?, hf] at hfirst
    simpa using hfirst.symm
  obtain rfl : last' = last := by
    simp only [pyGetI, bind_eq_ok] at hlast
    obtain ⟨k, hk, hget⟩ := hlast
    rw [pyIdx_eq_ok] at hk
    have : k = S.netCooling.length - 1 := by omega
    rw [pyGet_eq_ok, this, ← List.getLast?_eq_getElem?, hl] at hget
    simpa using hget.symm
  have hc : 0 < u.cfm / u.ton * E.rhoStd := mul_pos (div_pos u.cfm_pos u.ton_pos) hrho
  have key : 280 * (u.cfm / u.ton) * last' * E.rhoStd < 500 * (u.cfm / u.ton) * first' * E.rhoStd ↔ 280 * last' < 500 * first' := by
    rw [show 280 * (u.cfm / u.ton) * last' * E.rhoStd = (280 * last') * (u.cfm / u.ton * E.rhoStd) by ring,
      show 500 * (u.cfm / u.ton) * first' * E.rhoStd = (500 * first') * (u.cfm / u.ton * E.rhoStd) by ring]
    exact mul_lt_mul_iff_left₀ hc
  exact ⟨linspace4_spaced (frF_lt.2 (by norm_num)), linspace4_spaced one_pos, linspace4_spaced (frF_lt.2 (by norm_num)), linspace4_spaced (by norm_num),
    linspace4_chain.trans key, fun h => linspace4_spaced (key.2 h)⟩

/-- C92: capacities accepted by the constructor (positive, in descending order) give a rising mass-flow axis. -/
theorem C92_axis_of_accepted_unit (h : representation u E S U B fan = .ok r) (hrho : 0 < E.rhoStd) (hpos : ∀ q ∈ S.netCooling, 0 < q)
    (hord : BaseModel.checkArrayOrder S.netCooling = .ok ()) : r.axes.massFlow.IsChain (· < ·) := by
  rcases hq : S.netCooling with _ | ⟨first, t⟩
  · simp [representation, bind_eq_ok, axes, hq, pyGetI, pyIdx] at h
  · obtain ⟨last, hl⟩ : ∃ last, (first :: t).getLast? = some last := ⟨_, List.getLast?_eq_some_getLast (by simp)⟩
    have hle : last ≤ first := by
      refine (BaseModel.C37_order S.netCooling).1.1 hord 0 t.length first last (Nat.zero_le _) (by simp [hq]) ?_
      rw [hq, ← hl, List.getLast?_eq_getElem?]
      simp
    have hlast : 0 < last := hpos last (by rw [hq]; exact List.mem_of_getLast? hl)
    refine (C92_axes h hrho first last (by simp [hq]) (by rw [hq, hl])).2.2.2.2.1.2 (by linarith)

/-- C92: the scalar entries. The description quotes the gross capacity (kBtu/h), COP and sensible heat ratio of the unit at its rating condition; one and two
speed units are labelled `DISCRETE`, all others `CONTINUOUS`; the degradation coefficient is that of the unit; the standby map gives the crankcase heater
capacity half a kelvin below its setpoint and nothing half a kelvin above. -/
theorem C92_scalars (h : representation u E S U B fan = .ok r) :
    U.grossTotalCoolingCapacity none = .ok (r.capacity * 1000 * u.btuh) ∧ U.grossTotalCoolingCOP none = .ok r.cop ∧ U.grossSHR none = .ok r.shr ∧
    (r.controlType = "DISCRETE" ↔ B.nCooling ≤ 2) ∧ (r.controlType = "CONTINUOUS" ↔ 3 ≤ B.nCooling) ∧ r.cyclingDegradation = B.cdCooling ∧
    r.standbyTemperature.zip r.standbyPower = [(B.crankcaseSetpoint - 1 / 2, B.crankcaseCapacity), (B.crankcaseSetpoint + 1 / 2, 0)] ∧
    r.standbyTemperature.IsChain (· < ·) ∧ fan = .ok r.fan := by
  simp only [representation, bind_eq_ok, pure_eq_ok, Except.ok.injEq] at h
  obtain ⟨cap, hcap, cop, hcop, shr, hshr, A, hA, map, -, fr, hfr, rfl⟩ := h
  have := u.btuh_pos.ne'
  refine ⟨by rw [hcap]; congr 1; field_simp, hcop, hshr, ?_, ?_, rfl, by simp [sub_eq_add_neg], ?_, hfr⟩
  · by_cases h : B.nCooling < 3 <;> simp [h] <;> omega
  · by_cases h : B.nCooling < 3 <;> simp [h] <;> omega
  · simp

/-- The hypotheses of the C92 theorems are met by the sample unit. -/
example : (∃ r, representation roundUnits sampleEnv sampleSys nrelUnit nrelAttributes (.ok ()) = .ok r) ∧ 0 < sampleEnv.rhoStd ∧
    sampleSys.netCooling.head? = some 10550 ∧ sampleSys.netCooling.getLast? = some 10550 ∧ (∀ q ∈ sampleSys.netCooling, 0 < q) ∧
    BaseModel.checkArrayOrder sampleSys.netCooling = .ok () := by
  obtain ⟨r, -, -, -, -, hr, -⟩ := nrelRep_facts
  exact ⟨⟨r, hr⟩, by decide +kernel⟩

end C92

/-! ## C93: identifiers -/

section C93

/-- Repeated calls of `generate_205_representation` in one process: the identifiers of each and the stored seeds at the end. -/
def idsOfCalls (H : Hashes) : Nat → Seeds → List (Py Ids)
  | 0, _ => []
  | n + 1, s => (identifiers H s).1 :: idsOfCalls H n (identifiers H s).2

theorem identifiers_run (H : Hashes) (s : Seeds) :
    identifiers H s =
      (.ok { coil := H.uuidOfInt (s.unit.getD H.unit), fan := H.uuidOfInt (s.fan.getD H.fan), motor := H.uuidOfStr (H.uuidOfInt (s.fan.getD H.fan))
             unitary := H.uuidOfInt (H.pair (H.uuidOfInt (s.unit.getD H.unit)) (H.uuidOfInt (s.fan.getD H.fan))) },
        { unit := some (s.unit.getD H.unit), fan := some (s.fan.getD H.fan) }) := by
  obtain ⟨a, b⟩ := s
  cases a <;> cases b <;> rfl

/-- C93: within one process the identifiers do not depend on how often the representation has been generated: every call of any sequence of calls returns
the identifiers of the first, whether or not seeds were given. -/
theorem C93_stable (H : Hashes) (s : Seeds) (n : Nat) : ∀ x ∈ idsOfCalls H n s, x = (identifiers H s).1 := by
  induction n generalizing s with
  | zero => simp [idsOfCalls]
  | succ n ih =>
    intro x hx
    simp only [idsOfCalls, List.mem_cons] at hx
    rcases hx with rfl | hx
    · rfl
    · rw [ih _ x hx]
      simp [identifiers_run]

/-- C93: a given seed is never replaced, and a stored seed stays. -/
theorem C93_seed_kept (H : Hashes) (s : Seeds) :
    (∀ v, s.unit = some v → (identifiers H s).2.unit = some v) ∧ (∀ v, s.fan = some v → (identifiers H s).2.fan = some v) := by
  rw [identifiers_run]
  exact ⟨fun v hv => by simp [hv], fun v hv => by simp [hv]⟩

/-- C93: with seeds for unit and fan the identifiers of the coil, the fan and the motor are the same in every process, whatever its object and string
hashes. -/
theorem C93_parts_reproducible (H H' : Hashes) (h1 : H'.uuidOfInt = H.uuidOfInt) (h2 : H'.uuidOfStr = H.uuidOfStr) (a b : Int) (i i' : Ids)
    (hi : (identifiers H ⟨some a, some b⟩).1 = .ok i) (hi' : (identifiers H' ⟨some a, some b⟩).1 = .ok i') :
    i'.coil = i.coil ∧ i'.fan = i.fan ∧ i'.motor = i.motor := by
  rw [identifiers_run] at hi hi'
  simp only [Except.ok.injEq, Option.getD_some] at hi hi'
  subst hi hi'
  simp [h1, h2]

/-- C93: the identifier of the whole representation is the same in two processes if they hash the pair of part identifiers alike; otherwise it is the
identifier of another seed. -/
theorem C93_whole_depends_on_string_hash (H H' : Hashes) (h1 : H'.uuidOfInt = H.uuidOfInt) (h2 : H'.uuidOfStr = H.uuidOfStr) (a b : Int) (i i' : Ids)
    (hi : (identifiers H ⟨some a, some b⟩).1 = .ok i) (hi' : (identifiers H' ⟨some a, some b⟩).1 = .ok i') :
    i.unitary = H.uuidOfInt (H.pair i.coil i.fan) ∧ i'.unitary = H.uuidOfInt (H'.pair i.coil i.fan) := by
  rw [identifiers_run] at hi hi'
  simp only [Except.ok.injEq, Option.getD_some] at hi hi'
  subst hi hi'
  simp [h1, h2]

/-- Identifier of an integer in a toy generator, and two processes that hash pairs of strings differently (Python salts string hashes per process). -/
def toyHashes (salt : Int) : Hashes :=
  { uuidOfInt := fun i => toString i, uuidOfStr := fun s => "m" ++ s, unit := 7, fan := 8, pair := fun _ _ => salt }

/-- C93 (the claim is false of the code for the whole representation): seeds for unit and fan do not fix its identifier across processes. -/
theorem C93_refuted :
    ¬ ∀ (H H' : Hashes) (a b : Int), H'.uuidOfInt = H.uuidOfInt → H'.uuidOfStr = H.uuidOfStr → H'.unit = H.unit → H'.fan = H.fan →
      (identifiers H ⟨some a, some b⟩).1 = (identifiers H' ⟨some a, some b⟩).1 := by
  intro h
  have := h (toyHashes 1) (toyHashes 2) 3 4 rfl rfl rfl rfl
  revert this
  decide +kernel

/-- Without seeds the parts differ between processes as well (object hashes differ). -/
example : (identifiers (toyHashes 1) ⟨none, none⟩).1 ≠ (identifiers { toyHashes 1 with unit := 9 } ⟨none, none⟩).1 ∧
    (identifiers (toyHashes 1) ⟨none, some 5⟩).1 = .ok ⟨"1", "7", "5", "m5"⟩ ∧ idsOfCalls (toyHashes 1) 2 ⟨none, some 5⟩ =
      [.ok ⟨"1", "7", "5", "m5"⟩, .ok ⟨"1", "7", "5", "m5"⟩] := by decide +kernel

end C93

end Resdx.Props
