import Verif.Lemmas.UnitBuild
import Verif.Lemmas.UnitSample
import Verif.Lemmas.Title24Build
import Verif.Props.ResnetReturns

/-!
# C99–C101: which units can be constructed, shared model objects, keyword arguments
-/

set_option linter.unusedSectionVars false
set_option linter.unusedSimpArgs false

namespace Resdx.Props

open UnitBuild BaseModel Fan Spec

variable {u : Units ℝ} {E : Env ℝ} {T : Coil.Tools}

/-! ## C99: construction -/

/-- C99, constant model: from any positive, non-increasing capacities (a number or a list per mode, any number of speeds, any staging whose speeds exist) and usable COPs, with air properties and a coil calculation
that return, the constructor returns a unit without touching anything else; and at the rated airflow of every speed, whatever the outdoor air, the unit delivers its rated net capacity and – unless a list of gross
COPs was given – its rated net COP, which is the given one if only net COPs were given. -/
theorem C99_constant {a : Args} {st : Staging} {qc qh : List ℝ} {q0 : ℝ} (hkw : ∀ k ∈ a.kwargs, k = "base_model") (hfan : a.fan = none) (hc : Capacities a.cooling a.nC qc)
    (hq0 : qc[0]? = some q0) (hh : Capacities (a.heating.getD (.num q0)) a.nH qh) (oc : Ordered qc) (oh : Ordered qh) (hst : stagingOf a.nH a.staging = .ok st)
    (sc : SpeedsExist st a.nC a.coolingFullSpeed a.coolingIntermediateSpeed) (sh : SpeedsExist st a.nH a.heatingFullSpeed a.heatingIntermediateSpeed)
    (ht : 136.875 < u.ton) (cc : CopsUsable (136.875 / u.ton) a.nC a.netCoolingCop a.grossCoolingCop) (ch : CopsUsable (136.875 / u.ton) a.nH a.netHeatingCop a.grossHeatingCop)
    (hE : Build.IndoorAir E)
    (hT : ∀ q ∈ qc, ∀ c : Conditions ℝ, c.indoor = defaultIndoor E false → c.flow.mass = some (q * (375 * u.cfm / u.ton) * E.rhoStd) →
      ∃ r, Coil.ratedBypass T c 0.7 (q + 136.875 / u.ton * q) = .ok r) :
    ∃ B, build u E T .constant a = .ok B ∧ B.st = st ∧ B.sys.netCooling = qc ∧ B.sys.netHeating = qh ∧
      (∀ (i : Nat) (q : ℝ), qc[i]? = some q → ∀ o, ∃ c, B.sys.makeCondition E false i none o = .ok c ∧ B.constant.netTotalCoolingCapacity (some c) = .ok q ∧
        ((∀ l, a.grossCoolingCop ≠ some (.list l)) → ∃ cop, B.constant.netTotalCoolingCOP (some c) = .ok cop ∧ B.cool.netCop[i]? = some (some cop) ∧
          (a.grossCoolingCop = none → ∀ arg, a.netCoolingCop = some arg → Supplies arg a.nC i cop))) ∧
      ∀ (i : Nat) (q : ℝ), qh[i]? = some q → ∀ o, ∃ c, B.sys.makeCondition E true i none o = .ok c ∧ B.constant.netSteadyHeatingCapacity (some c) = .ok q ∧
        B.constant.netIntegratedHeatingCapacity (some c) = .ok q ∧
        ((∀ l, a.grossHeatingCop ≠ some (.list l)) → ∃ cop, B.constant.netSteadyHeatingCOP (some c) = .ok cop ∧ B.constant.netIntegratedHeatingCOP (some c) = .ok cop ∧
          B.heat.netCop[i]? = some (some cop) ∧ (a.grossHeatingCop = none → ∀ arg, a.netHeatingCop = some arg → Supplies arg a.nH i cop)) := by
  obtain ⟨B, hB, M⟩ := constant_returns (u := u) (E := E) (T := T) hkw hfan hc hq0 hh oc oh hst sc sh ht cc ch hE hT
  have given : ∀ {n : Nat} {q : List ℝ} {arg : NumArg ℝ} {k : ℝ} {l : List (Option ℝ)} {i : Nat} {cop : ℝ}, n = q.length → (∀ i < n, ∃ c, Supplies arg n i c ∧ 0 < c ∧ k * c < 1) →
      (∀ (i : Nat) (c : ℝ), i < q.length → Supplies arg q.length i c → l[i]? = some (some c)) → l[i]? = some (some cop) → i < n → Supplies arg n i cop := by
    intro n q arg k l i cop hn h1 h2 h3 hi
    obtain ⟨c, hc, -⟩ := h1 i hi
    have := h2 i c (by omega) (by rw [← hn]; exact hc)
    rw [h3] at this
    cases this
    exact hc
  refine ⟨B, hB, M.staging, M.netCool, M.netHeat, ?_, ?_⟩
  · intro i q hq o
    obtain ⟨c, hc'⟩ := M.conditions false i o (by simpa using (List.getElem?_eq_some_iff.1 hq).1)
    obtain ⟨r1, r2⟩ := constant_cooling M hq (oc.pos _ (List.mem_of_getElem? hq)) hc'
    refine ⟨c, hc', r1, fun hl => ?_⟩
    obtain ⟨cop, g1, g2⟩ := r2 hl
    refine ⟨cop, g2, g1, fun hn arg ha => ?_⟩
    exact given (hc.1.symm) (cc.2.1 arg ha) (M.givenCool hn arg ha) g1 (by rw [← hc.1]; exact (List.getElem?_eq_some_iff.1 hq).1)
  · intro i q hq o
    obtain ⟨c, hc'⟩ := M.conditions true i o (by simpa using (List.getElem?_eq_some_iff.1 hq).1)
    obtain ⟨r1, r2, r3⟩ := constant_heating M ht hq (oh.pos _ (List.mem_of_getElem? hq)) hc'
    refine ⟨c, hc', r1, r2, fun hl => ?_⟩
    obtain ⟨cop, g1, g2, g3⟩ := r3 hl
    refine ⟨cop, g2, g3, g1, fun hn arg ha => ?_⟩
    exact given (hh.1.symm) (ch.2.1 arg ha) (M.givenHeat hn arg ha) g1 (by rw [← hh.1]; exact (List.getElem?_eq_some_iff.1 hq).1)

/-- A two-stage unit with capacities per stage and one net COP for both stages. -/
noncomputable def stagedArgs : Args :=
  { cooling := .list [10000, 7000], heating := some (.list [11000, 8000]), netCoolingCop := some (.num 3.5), grossCoolingCop := none, netHeatingCop := none, defrost := Sample.defrost }

theorem stagedArgs_coil : ∀ q ∈ [(10000 : ℝ), 7000], ∀ c : Conditions ℝ, c.indoor = defaultIndoor Sample.env false → c.flow.mass = some (q * (375 * Sample.units.cfm / Sample.units.ton) * Sample.env.rhoStd) →
    ∃ r, Coil.ratedBypass Sample.tools c 0.7 (q + 136.875 / Sample.units.ton * q) = .ok r := by
  intro q hq c hin hm
  have q0 : 0 < q := by simp at hq; rcases hq with rfl | rfl <;> norm_num
  have e1 : q * (375 * Sample.units.cfm / Sample.units.ton) * Sample.env.rhoStd = q * (0.2124 / 3516.8) := by simp only [Sample.units, Sample.env]; ring
  have e2 : q + 136.875 / Sample.units.ton * q = q * (1 + 136.875 / 3516.8) := by simp only [Sample.units]; ring
  rw [e1] at hm
  rw [e2]
  refine Sample.coil_ok hin hm (by positivity) (by positivity) ?_ (by norm_num) (by norm_num)
  rw [← mul_assoc, mul_comm 20000 q, mul_assoc]
  exact mul_le_mul_of_nonneg_left (by norm_num) q0.le

theorem stagedArgs_made : ∃ B, build Sample.units Sample.env Sample.tools .constant stagedArgs = .ok B := by
  have t : Sample.units.ton = 3516.8 := rfl
  obtain ⟨B, hB, -⟩ := C99_constant (u := Sample.units) (E := Sample.env) (T := Sample.tools) (a := stagedArgs) (st := .two) (qc := [10000, 7000]) (qh := [11000, 8000]) (q0 := 10000) (by simp [stagedArgs, Args.kwargs])
    rfl ⟨rfl, fun i hi => ⟨_, List.getElem?_eq_getElem hi, List.getElem?_eq_getElem hi⟩⟩ rfl ⟨rfl, fun i hi => ⟨_, List.getElem?_eq_getElem hi, List.getElem?_eq_getElem hi⟩⟩
    ⟨by simp, by rintro (_ | _ | i) x y h1 h2 <;> simp at h1 h2; subst h1; subst h2; norm_num⟩ ⟨by simp, by rintro (_ | _ | i) x y h1 h2 <;> simp at h1 h2; subst h1; subst h2; norm_num⟩ rfl
    ⟨by decide, fun _ => by decide, by simp⟩ ⟨by decide, fun _ => by decide, by simp⟩ (by rw [t]; norm_num)
    ⟨by simp [stagedArgs], by
      intro arg h i hi
      simp only [stagedArgs, Option.some.injEq] at h
      subst h
      exact ⟨3.5, ⟨hi, rfl⟩, by norm_num, by rw [t]; norm_num⟩, by simp [stagedArgs]⟩
    ⟨by simp [stagedArgs, defaultGrossHeatingCop], by simp [stagedArgs], by
      intro arg h
      simp only [stagedArgs, defaultGrossHeatingCop, Option.some.injEq] at h
      subst h
      norm_num⟩
    Sample.indoorAir stagedArgs_coil
  exact ⟨B, hB⟩

/-- C99, Carrier model: no arguments make a unit with a `CarrierDefrostModel`; the constructor needs a sensible heat ratio, which that model does not have. -/
theorem C99_carrier_refuted (a : Args) (B : Built) : build u E T .carrier a ≠ .ok B := by
  intro h
  obtain ⟨S, U, P, st, d, hd⟩ := build_coil h
  simp [coilData, coilStep, shrAndTotal, bind_error] at hd

/-- C99, NREL model: no arguments make a unit with an `NRELDXModel`; the rated fan powers are never set. -/
theorem C99_nrel_refuted (a : Args) (B : Built) : build u E T .nrel a ≠ .ok B := by
  intro h
  obtain ⟨g, hg⟩ := build_gross h
  obtain ⟨h1, l, h2⟩ := gross_assigned hg
  obtain ⟨n0, hp⟩ := nrel_speeds h1
  rw [hp] at h2
  have := grossList_placeholders h2
  omega

/-- C99, supplied fan: with a fan given by the caller no unit can be made with any of these models; the rated airflows and fan powers stay unset. -/
theorem C99_supplied_fan_refuted (m : Class) (hm : m ≠ .resnet) (a : Args) (f : AnyFan) (hf : a.fan = some f) (B : Built) : build u E T m a ≠ .ok B := by
  intro h
  obtain ⟨g, hg⟩ := build_gross h
  obtain ⟨h1, l, h2⟩ := gross_assigned hg
  obtain ⟨hp, n0⟩ := supplied_power hf h1
  rw [hp] at h2
  have := grossList_placeholders h2
  omega

/-- C99, RESNET model with a supplied fan: without the rated fan-speed maps, which the constructor does not default, `set_fan` raises `TypeError` for any number of speeds. -/
theorem C99_resnet_supplied_fan (f : AnyFan) (n : Nat) (hn : 0 < n) : resnetSupplied f n none = .error .type := by
  obtain ⟨k, rfl⟩ : ∃ k, n = k + 1 := ⟨n - 1, by omega⟩
  have : ∀ g : Nat → Py ℝ, g 0 = .error .type → comp (k + 1) g = .error .type := by
    intro g hg
    unfold comp
    rw [List.range_succ_eq_map, List.mapM_cons, hg]
    rfl
  simp only [resnetSupplied]
  rw [this _ rfl]
  rfl

/-- C99, Title-24 model: from one positive capacity per mode and usable COPs, with air properties and a coil calculation that return, the constructor returns a unit with these rated net capacities and the sensible
heat ratio 0.6908748; but at the rating condition the net cooling capacity of that unit falls short of the rated one by 1.923775 % of the gross capacity. The fan takes `k` = 500 Btu/h per ton of cooling. -/
theorem C99_title24_made {a : Args} {q h : ℝ} (hkw : ∀ x ∈ a.otherKwargs, x = "base_model") (hfan : a.fan = none) (hm1 : a.coolingFanSpeed = none) (hm2 : a.heatingFanSpeed = none)
    (hc : a.cooling = .num q) (hh : a.heating = some (.num h) ∨ a.heating = none ∧ h = q) (hst : a.staging = none ∨ a.staging = some .single) (q0 : 0 < q) (h0 : 0 < h)
    (f1 : a.coolingFullSpeed = 0) (f2 : a.heatingFullSpeed = 0) (k1 : 500 * u.btuh / u.ton < 1) (k2 : 500 * u.btuh / u.ton * q < h)
    (cc : CopsUsable (500 * u.btuh / u.ton) 1 a.netCoolingCop a.grossCoolingCop) (ch : CopsUsable (500 * u.btuh / u.ton * q / h) 1 a.netHeatingCop a.grossHeatingCop) (hE : Build.IndoorAir E)
    (hT : ∀ c : Conditions ℝ, c.indoor = defaultIndoor E false → c.flow.mass = some (q * (350 * u.cfm / u.ton) * E.rhoStd) →
      ∃ r, Coil.ratedBypass T c 0.6908748 (0.98076225 * (q + 500 * u.btuh / u.ton * q)) = .ok r) :
    ∃ B, build u E T .title24 a = .ok B ∧ B.sys.netCooling = [q] ∧ B.sys.netHeating = [h] ∧ B.coil.shr = [some 0.6908748] ∧
      ∃ c, B.sys.makeCondition E false 0 none none = .ok c ∧
        ∀ U : Title24.Unit24 ℝ, U.sys = B.sys → U.u = u → ∃ gross fan, Title24.systemTotal U c = .ok gross ∧ B.fanPower c = .ok fan ∧
          gross - fan = q - 0.01923775 * (q + 500 * u.btuh / u.ton * q) := by
  have hto := u.ton_pos
  have hcf := u.cfm_pos
  have hbt := u.btuh_pos
  obtain ⟨B, hB, M⟩ := title24_returns (u := u) (E := E) (T := T) hkw hfan hm1 hm2 hc hh hst q0 h0 f1 f2 k1 k2 cc ch hE hT
  refine ⟨B, hB, M.netCool, M.netHeat, M.shr, ?_⟩
  obtain ⟨c, d1, d2, d3, d4, d5, d6, d7, p, d8⟩ := title24_condition (E := E) (S := B.sys) (heating := false) (a := q * (350 * u.cfm / u.ton)) (cap := q) (fs := 0) hE (by positivity) q0
    (by simpa using M.netCool) (by simpa using M.coolAirflow) (by simpa using M.coolSpeed) none
  refine ⟨c, d1, fun U hU hu => ?_⟩
  obtain ⟨-, -, v⟩ := title24_values (E := E) (U := U) (c := c) (Q := q + 500 * u.btuh / u.ton * q) d2 d3 d4 (by rw [d6, hu]; congr 1; field_simp) (by rw [hU]; exact M.grossCool) (by positivity)
  refine ⟨_, 500 * u.btuh / u.ton * q, v, ?_, by ring⟩
  simp only [Built.fanPower, d7, d8, pyNum, pyAttr, bind_ok]
  exact (M.fan (some p)).1

/-- A single-speed unit with equal net COPs. -/
noncomputable def plain24 : Args :=
  { cooling := .num 10000, heating := some (.num 11000), netCoolingCop := some (.num 3.5), grossCoolingCop := none, netHeatingCop := some (.num 3.2), grossHeatingCop := none, defrost := Sample.defrost }

example : ∃ B, build Sample.units Sample.env Sample.tools .title24 plain24 = .ok B := by
  have t : Sample.units.ton = 3516.8 := rfl
  have b : Sample.units.btuh = 0.29307 := rfl
  obtain ⟨B, hB, -⟩ := C99_title24_made (u := Sample.units) (E := Sample.env) (T := Sample.tools) (a := plain24) (q := 10000) (h := 11000) (by simp [plain24]) rfl rfl rfl rfl (.inl rfl) (.inl rfl) (by norm_num)
    (by norm_num) rfl rfl (by rw [t, b]; norm_num) (by rw [t, b]; norm_num)
    ⟨by simp [plain24], by
      intro arg h i hi
      simp only [plain24, Option.some.injEq] at h
      subst h
      exact ⟨3.5, ⟨hi, rfl⟩, by norm_num, by rw [t, b]; norm_num⟩, by simp [plain24]⟩
    ⟨by simp [plain24], by
      intro arg h i hi
      simp only [plain24, Option.some.injEq] at h
      subst h
      exact ⟨3.2, ⟨hi, rfl⟩, by norm_num, by rw [t, b]; norm_num⟩, by simp [plain24]⟩
    Sample.indoorAir (by
      intro c hin hm
      refine Sample.coil_ok hin hm ?_ ?_ ?_ (by norm_num) (by norm_num) <;> simp only [Sample.units, Sample.env] <;> norm_num)
  exact ⟨B, hB⟩

/-- C99, Title-24 model: only units with one cooling and one heating speed can be made. -/
theorem C99_title24_single (a : Args) (B : Built) (h : build u E T .title24 a = .ok B) : a.nC = 1 ∧ a.nH = 1 := by
  cases hf : a.fan with
  | some f => exact absurd h (C99_supplied_fan_refuted .title24 (by decide) a f hf B)
  | none =>
    obtain ⟨g, hg⟩ := build_gross h
    have h1 := (gross_assigned hg).1
    simp only [grossOf, bind_eq_ok, pure_eq_ok, Except.ok.injEq] at hg
    obtain ⟨s, hs, _, _, gc, hgc, gh, hgh, rfl⟩ := hg
    obtain ⟨n1, -, x, hx, n0⟩ := title24_length hf hs
    refine ⟨n1, ?_⟩
    by_contra hne
    unfold Build.grossList at hgh
    obtain ⟨-, hall⟩ := comp_eq_ok.1 hgh
    obtain ⟨y, -, hy⟩ := hall 1 (by omega)
    simp only [bind_eq_ok, numAt_eq_ok] at hy
    obtain ⟨_, _, w, hw, -⟩ := hy
    rw [hx, List.getElem?_set_ne (by decide), List.getElem?_replicate] at hw
    split at hw <;> simp at hw

/-! ## C100: model objects shared by several units -/

theorem run_snoc {D : Type} : ∀ (cs : List (Call D)) (c : Call D) (o : Objects D), Objects.run (cs ++ [c]) o = (Objects.run cs o).construct c
  | [], _, _ => rfl
  | _ :: cs, c, o => run_snoc cs c _

theorem run_objects {D : Type} (cs : List (Call D)) : (Objects.run cs (Objects.start D)).units = cs.map Call.outcome ∧ (Objects.run cs (Objects.start D)).modelOf = cs.map Call.model ∧
    ∀ m k, (Objects.run cs (Objects.start D)).system m = some k ↔ LastBinding cs m k := by
  induction cs using List.reverseRecOn with
  | nil => refine ⟨rfl, rfl, fun m k => ?_⟩; simp [Objects.run, Objects.start, LastBinding]
  | append_singleton cs c ih =>
    obtain ⟨i1, i2, i3⟩ := ih
    rw [run_snoc]
    generalize Objects.run cs (Objects.start D) = o at *
    refine ⟨by simp [Objects.construct, i1], by simp [Objects.construct, i2], fun m k => ?_⟩
    have hlen : o.units.length = cs.length := by rw [i1]; simp
    have hsys : (o.construct c).system m = some k ↔ (Binds c m ∧ k = cs.length) ∨ (¬ Binds c m ∧ LastBinding cs m k) := by
      rw [← i3]
      simp only [Objects.construct, Binds, hlen]
      by_cases h1 : m = c.model
      · subst h1; simp [eq_comm]
      · rw [if_neg h1]
        have h1' : c.model ≠ m := fun h => h1 h.symm
        cases ho : c.outcome with
        | rejected => simp [h1']
        | failed => by_cases h2 : c.base = some m <;> simp [h1', h2, eq_comm]
        | made d => by_cases h2 : c.base = some m <;> simp [h1', h2, eq_comm]
    rw [hsys]
    constructor
    · rintro (⟨hb, rfl⟩ | ⟨hb, ⟨c0, h0, h0'⟩, hlast⟩)
      · refine ⟨⟨c, by simp, hb⟩, ?_⟩
        intro j c' hj hc'
        have := (List.getElem?_eq_some_iff.1 hc').1
        simp at this
        omega
      · have hk := (List.getElem?_eq_some_iff.1 h0).1
        refine ⟨⟨c0, by rw [List.getElem?_append_left hk]; exact h0, h0'⟩, ?_⟩
        intro j c' hj hc'
        by_cases hjl : j < cs.length
        · rw [List.getElem?_append_left hjl] at hc'
          exact hlast j c' hj hc'
        · have := (List.getElem?_eq_some_iff.1 hc').1
          simp at this
          have : j = cs.length := by omega
          subst this
          simp at hc'
          subst hc'
          exact hb
    · rintro ⟨⟨c0, h0, h0'⟩, hlast⟩
      by_cases hk : k < cs.length
      · refine .inr ⟨hlast cs.length c hk (by simp), ⟨c0, by rw [List.getElem?_append_left hk] at h0; exact h0, h0'⟩, ?_⟩
        intro j c' hj hc'
        exact hlast j c' hj (by rw [List.getElem?_append_left (List.getElem?_eq_some_iff.1 hc').1]; exact hc')
      · have hlt := (List.getElem?_eq_some_iff.1 h0).1
        simp at hlt
        have : k = cs.length := by omega
        subst this
        simp at h0
        subst h0
        exact .inl ⟨h0', rfl⟩

/-- C100: after any sequence of constructor calls, successful or not, a unit answers with the rated data of the last unit whose constructor call took hold of its model object – as model or as accepted base model – and
with none if that construction failed. -/
theorem C100_last_binding {D : Type} (cs : List (Call D)) (i k : Nat) (c ck : Call D) (hc : cs[i]? = some c) (hk : LastBinding cs c.model k) (hck : cs[k]? = some ck) :
    (Objects.run cs (Objects.start D)).dataFor i = ck.outcome.data := by
  obtain ⟨h1, h2, h3⟩ := run_objects cs
  simp only [Objects.dataFor, h1, h2, List.getElem?_map, hc, Option.map_some, (h3 c.model k).2 hk, hck, Option.bind_eq_bind, Option.bind_some]

/-- C100: there always is such a call. -/
theorem C100_binding_exists {D : Type} (cs : List (Call D)) (i : Nat) (c : Call D) (hc : cs[i]? = some c) : ∃ k ck, i ≤ k ∧ cs[k]? = some ck ∧ LastBinding cs c.model k := by
  classical
  obtain ⟨hi, hci⟩ := List.getElem?_eq_some_iff.1 hc
  let s := (Finset.range cs.length).filter fun j => ∃ c', cs[j]? = some c' ∧ Binds c' c.model
  have hs : i ∈ s := by simp only [s, Finset.mem_filter, Finset.mem_range]; exact ⟨hi, c, hc, .inl rfl⟩
  have hne : s.Nonempty := ⟨i, hs⟩
  have hmax := s.max'_mem hne
  simp only [s, Finset.mem_filter] at hmax
  obtain ⟨-, ck, g1, g2⟩ := hmax
  refine ⟨_, ck, s.le_max' i hs, g1, ⟨ck, g1, g2⟩, ?_⟩
  intro j c' hj hc' hb
  have hjs : j ∈ s := by simp only [s, Finset.mem_filter, Finset.mem_range]; exact ⟨(List.getElem?_eq_some_iff.1 hc').1, c', hc', hb⟩
  have := s.le_max' j hjs
  omega

/-- C100, what does hold: a unit whose model object no later constructor call takes hold of answers with its own data. -/
theorem C100_own_data_partial {D : Type} (cs : List (Call D)) (i : Nat) (c : Call D) (d : D) (hc : cs[i]? = some c) (hd : c.outcome = .made d)
    (hlater : ∀ j c', i < j → cs[j]? = some c' → c'.model ≠ c.model ∧ (c'.base = some c.model → c'.outcome = .rejected)) : (Objects.run cs (Objects.start D)).dataFor i = some d := by
  rw [C100_last_binding cs i i c c hc ⟨⟨c, hc, .inl rfl⟩, ?_⟩ hc, hd]
  · rfl
  · rintro j c' hj hc' (h | ⟨h1, h2⟩)
    · exact (hlater j c' hj hc').1 h
    · exact h2 ((hlater j c' hj hc').2 h1)

/-- A program with two units: the second gets its own model object and a new base model. -/
def twoUnits : List (Call Nat) := [⟨0, some 1, .made 24⟩, ⟨2, some 3, .made 36⟩]

example : twoUnits[0]? = some ⟨0, some 1, .made 24⟩ ∧ ∀ j c', 0 < j → twoUnits[j]? = some c' → c'.model ≠ 0 ∧ (c'.base = some 0 → c'.outcome = .rejected) := by
  refine ⟨rfl, ?_⟩
  rintro (_ | _ | j) c' hj hc'
  · omega
  · cases hc'; exact ⟨by decide, by simp⟩
  · simp [twoUnits] at hc'

/-- C100: a unit does not always answer with its own data. Two units made with one model object both answer with the data of the second; a call that fails or is rejected because of a misspelt keyword argument leaves
the earlier unit without complete data; a model object used as the base model of a later unit is taken over too. -/
theorem C100_shared_model_refuted (d e : Nat) :
    (Objects.run [⟨0, none, .made d⟩, ⟨0, none, .made e⟩] (Objects.start Nat)).dataFor 0 = some e ∧
    (Objects.run [⟨0, none, .made d⟩, ⟨0, none, .failed⟩] (Objects.start Nat)).dataFor 0 = none ∧
    (Objects.run [⟨0, none, .made d⟩, ⟨0, none, .rejected⟩] (Objects.start Nat)).dataFor 0 = none ∧
    (Objects.run [⟨0, none, .made d⟩, ⟨1, some 0, .made e⟩] (Objects.start Nat)).dataFor 0 = some e ∧
    (Objects.run [⟨0, none, .made d⟩, ⟨1, some 0, .rejected⟩] (Objects.start Nat)).dataFor 0 = some d := ⟨rfl, rfl, rfl, rfl, rfl⟩

/-! ## C101: keyword arguments -/

theorem recognised_iff (m : Class) (k : String) : k ∈ allowedKwargs m ↔ Recognised m k := by
  cases m <;> simp [allowedKwargs, Recognised]

/-- C101: a constructor call with a keyword argument the model does not recognise raises the generic exception, whatever all other arguments are – also those that would raise another exception. -/
theorem C101_unrecognised (m : Class) (a : Args) (k : String) (hk : k ∈ a.kwargs) (hr : ¬ Recognised m k) : build u E T m a = .error .exception := by
  have : setSystem m a.kwargs = .error .exception := setSystem_error fun h => hr ((recognised_iff m k).1 (h k hk))
  simp only [build, this, bind_error]

/-- C101: the check itself passes exactly if all are recognised. -/
theorem C101_accepted (m : Class) (l : List String) : setSystem m l = .ok () ↔ ∀ k ∈ l, Recognised m k := by
  simp only [setSystem_ok, recognised_iff]

/-- C101: the Title-24 ratings are keyword arguments of the Title-24 model only. -/
theorem C101_title24_only (m : Class) (hm : m ≠ .title24) (a : Args) (h : a.cap17.isSome ∨ a.cap35.isSome ∨ a.cop35.isSome ∨ a.multiplier.isSome) : build u E T m a = .error .exception := by
  have key : ∀ k, (k = "cap17" ∨ k = "cap35" ∨ k = "cop35" ∨ k = "input_cooling_efficiency_multiplier") → ¬ Recognised m k := by
    rintro k (rfl | rfl | rfl | rfl) hr <;> rw [← recognised_iff] at hr <;> cases m <;> simp [allowedKwargs] at hr hm
  rcases h with h | h | h | h
  · exact C101_unrecognised m a "cap17" (by simp [Args.kwargs, h]) (key _ (by simp))
  · exact C101_unrecognised m a "cap35" (by simp [Args.kwargs, h]) (key _ (by simp))
  · exact C101_unrecognised m a "cop35" (by simp [Args.kwargs, h]) (key _ (by simp))
  · exact C101_unrecognised m a "input_cooling_efficiency_multiplier" (by simp [Args.kwargs, h]) (key _ (by simp))

/-- C101, RESNET model: each recognised keyword argument is stored where it belongs (names are not repeated), and those not given are `None`. -/
theorem C101_resnet_values {V : Type} (kw : List (String × V)) (hu : (kw.map Prod.fst).Nodup) (v : V) :
    ((processKwargs kw).tables = some v ↔ ("tabular_data", v) ∈ kw) ∧ ((processKwargs kw).motor = some v ↔ ("motor_type", v) ∈ kw) ∧
    ((processKwargs kw).heating17 = some v ↔ ("rated_net_heating_capacity_17", v) ∈ kw) ∧ ((processKwargs kw).ratio95 = some v ↔ ("min_net_total_cooling_capacity_ratio_95", v) ∈ kw) ∧
    ((processKwargs kw).cop82 = some v ↔ ("rated_net_total_cooling_cop_82_min", v) ∈ kw) := by
  have key : ∀ name, kwargValue kw name = some v ↔ (name, v) ∈ kw := by
    intro name
    unfold kwargValue
    induction kw with
    | nil => simp
    | cons p kw ih =>
      obtain ⟨n, w⟩ := p
      simp only [List.map_cons, List.nodup_cons] at hu
      by_cases h : n = name
      · subst h
        have : (n, v) ∉ kw := fun hm => hu.1 (List.mem_map.2 ⟨_, hm, rfl⟩)
        simp [List.find?_cons, this, eq_comm]
      · have h' : name ≠ n := fun e => h e.symm
        simp only [List.find?_cons, h, decide_false, List.mem_cons, Prod.mk.injEq, h', false_and, false_or]
        exact ih hu.2
  exact ⟨key _, key _, key _, key _, key _⟩

/-- C101: the ratio of the EIRs at 82 °F, which the RESNET model also reads, can never be given: no accepted list of keyword arguments contains it. -/
theorem C101_eir_ratio_unreachable {V : Type} (kw : List (String × V)) (h : setSystem .resnet (kw.map Prod.fst) = .ok ()) : (processKwargs kw).eirRatio82 = none := by
  rw [setSystem_ok] at h
  simp only [processKwargs, kwargValue, Option.map_eq_none_iff, List.find?_eq_none]
  intro p hp he
  have := h p.1 (List.mem_map.2 ⟨p, hp, rfl⟩)
  simp only [decide_eq_true_eq] at he
  rw [he] at this
  simp [allowedKwargs] at this

example : setSystem .resnet (["motor_type", "tabular_data"]) = .ok () := by rw [C101_accepted]; simp [Recognised]

end Resdx.Props
