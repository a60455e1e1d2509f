import Verif.Props.IdfResnet
import Verif.Lemmas.FanSettings
import Verif.Lemmas.ResnetRatings
import Verif.Lemmas.ResnetCoil
import Verif.Props.ResnetReturns
import Verif.Props.FanRep
import Verif.Lemmas.TransferCalc

/-! # Writing the EnergyPlus file of a RESNET unit: C114, C115 -/

set_option linter.unusedSectionVars false
set_option linter.unusedSimpArgs false

namespace Resdx.Props

open Spec Spec.Idf BaseModel Fan ResnetFan Tabular Build Idf

variable {u : Units ℝ} {E : Env ℝ} {T : Coil.Tools} {brentq : Brentq} {a : Args} {B : Built} {X : FileContext} {fmt : ℝ → Nat → String} {net : Perf ℝ} {qc qh : List ℝ}

/-! ## C115: files do not depend on what was asked before -/

/-- The calls that read or write the unit's `model_data`. -/
inductive FileCall
  | write (X : FileContext) (fmt : ℝ → Nat → String) (o : FileOptions)
  | cop60

/-- The `model_data` of a unit after some calls, whether they returned or raised. -/
noncomputable def after (u : Units ℝ) (E : Env ℝ) (T : Coil.Tools) (brentq : Brentq) (B : Built) : List FileCall → Option ℝ
  | [] => none
  | .write X fmt o :: calls => (B.writeIdf u E T brentq X fmt o (after u E T brentq B calls)).2
  | .cop60 :: calls => (B.coolingCop60 u E T brentq (after u E T brentq B calls)).2

theorem cop60_held {s : Option ℝ} (h : ∀ v, s = some v → B.defrostCop u E T brentq = .ok v) :
    (B.coolingCop60 u E T brentq s).1 = B.defrostCop u E T brentq ∧ ∀ v, (B.coolingCop60 u E T brentq s).2 = some v → B.defrostCop u E T brentq = .ok v := by
  cases s with
  | some v => exact ⟨(h v rfl).symm, fun w hw => h w hw⟩
  | none =>
    unfold Built.coolingCop60
    cases hc : B.defrostCop u E T brentq with
    | error e => exact ⟨rfl, fun v hv => by cases hv⟩
    | ok x => exact ⟨rfl, fun v hv => by cases hv; rfl⟩

/-- Whatever is held is the COP of this unit. -/
theorem after_held (calls : List FileCall) : ∀ v : ℝ, after u E T brentq B calls = some v → B.defrostCop u E T brentq = .ok v := by
  induction calls with
  | nil => intro v h; cases h
  | cons call calls ih =>
    intro v h
    cases call with
    | write X fmt o =>
      simp only [after, Built.writeIdf] at h
      split at h
      · exact ih v h
      · exact (cop60_held ih).2 v h
    | cop60 => exact (cop60_held ih).2 v h

theorem addCooling_error {sys : String} {autosize normalize : Bool} {U : IdfUnit (Conditions ℝ) ℝ} {l l' : List IObj} {e : PyErr} (h : addCooling fmt sys autosize normalize U l = .error e) :
    addCooling fmt sys autosize normalize U l' = .error e := by
  unfold addCooling at *
  cases h1 : autoM fmt autosize (U.coolCap none) with
  | error e' => simp only [h1, bind_error] at h ⊢; exact h
  | ok x =>
    cases h2 : (List.range U.nCool).reverse.mapM (coolSpeed fmt sys normalize U) with
    | error e' => simp only [h1, h2, bind_ok, bind_error] at h ⊢; exact h
    | ok y => simp only [h1, h2, bind_ok] at h; cases h

/-- The operation on `model_data` returns what the writer returns. -/
theorem file_first (s : Option ℝ) (o : FileOptions) :
    (B.writeIdf u E T brentq X fmt o s).1 = Idf.writeIdf fmt o.name o.type o.autosize o.normalize (B.idf u E T brentq X s) := by
  unfold Built.writeIdf
  cases hb : beforeCop60 fmt o.name o.type o.autosize o.normalize (B.idf u E T brentq X s) with
  | ok _ => simp only [hb]
  | error e =>
    simp only [hb]
    symm
    generalize B.idf u E T brentq X s = U at hb
    unfold beforeCop60 at hb
    unfold Idf.writeIdf idfObjects
    cases h1 : systemObjects fmt (prefixOf o.name) o.type U with
    | error e' => simp only [h1, bind_error] at hb ⊢; cases hb; rfl
    | ok x1 =>
      cases h2 : fanObject fmt (prefixOf o.name) o.type o.autosize U with
      | error e' => simp only [h1, h2, bind_ok, bind_error] at hb ⊢; cases hb; rfl
      | ok x2 =>
        cases h3 : addCooling fmt (prefixOf o.name) o.autosize o.normalize U [] with
        | error e' => simp only [h1, h2, h3, addCooling_error h3, bind_ok, bind_error] at hb ⊢; cases hb; rfl
        | ok x3 =>
          simp only [h1, h2, h3, bind_ok] at hb ⊢
          cases h3' : addCooling fmt (prefixOf o.name) o.autosize o.normalize U (x1 ++ schedules (prefixOf o.name) ++ [x2] ++ axes fmt (prefixOf o.name) U) with
          | error e' => rw [addCooling_error h3'] at h3; cases h3
          | ok x3' =>
            simp only [bind_ok]
            unfold addHeating
            cases h4 : autoM fmt o.autosize (U.heatCap none) with
            | error e' => simp only [h4, bind_error] at hb ⊢; cases hb; rfl
            | ok x4 =>
              cases h5 : pyAttr U.on with
              | error e' => simp only [h4, h5, bind_ok, bind_error] at hb ⊢; cases hb; rfl
              | ok x5 =>
                cases h6 : timeFractionField fmt U with
                | error e' => simp only [h4, h5, h6, bind_ok, bind_error] at hb ⊢; cases hb; rfl
                | ok x6 => simp only [h4, h5, h6, bind_ok, pure_eq_ok] at hb; cases hb

theorem fresh_file (o : FileOptions) : (B.writeIdf u E T brentq X fmt o none).1 = Idf.writeIdf fmt o.name o.type o.autosize o.normalize (B.idf u E T brentq X none) := file_first none o

theorem idf_held {s : Option ℝ} (h : ∀ v, s = some v → B.defrostCop u E T brentq = .ok v) : B.idf u E T brentq X s = B.idf u E T brentq X none := by
  have h1 := (cop60_held h).1
  have h2 := (cop60_held (B := B) (u := u) (E := E) (T := T) (brentq := brentq) (s := none) (fun v hv => by cases hv)).1
  unfold Built.idf
  rw [h1, h2]

/-- C115: what `write_idf` returns or raises, and the defrost COP, are the same on a fresh unit and after any calls on the unit, including calls that raised. -/
theorem C115_history (calls : List FileCall) (o : FileOptions) :
    (B.writeIdf u E T brentq X fmt o (after u E T brentq B calls)).1 = (B.writeIdf u E T brentq X fmt o none).1 ∧
    (B.coolingCop60 u E T brentq (after u E T brentq B calls)).1 = (B.coolingCop60 u E T brentq none).1 := by
  have hh := after_held (u := u) (E := E) (T := T) (brentq := brentq) (B := B) calls
  refine ⟨by rw [file_first, file_first, idf_held hh], ?_⟩
  rw [(cop60_held hh).1, (cop60_held (s := none) (fun v hv => by cases hv)).1]

/-- C115, the value: the COP is that of the compressor speed with index 0 at 60 °F and 48 °F wet bulb outdoors and 70 °F and 60 °F wet bulb indoors, computed from the unit itself. -/
theorem C115_value (calls : List FileCall) (e : ℝ) (h : (B.coolingCop60 u E T brentq (after u E T brentq B calls)).1 = .ok e) :
    ∃ c q p, B.sys.makeCondition E false 0 (some (wetState E.atm (frF 70) (frF 60))) (some (wetState E.atm (frF 60) (frF 48))) = .ok c ∧
      (B.unit u E T brentq).grossTotalCoolingCapacity (some c) = .ok q ∧ (B.unit u E T brentq).grossCoolingPower (some c) = .ok p ∧ p ≠ 0 ∧ e = q / p := by
  rw [(cop60_held (after_held calls)).1] at h
  simp only [Built.defrostCop, DX.Performance.grossTotalCoolingCOP, bind_eq_ok, pdiv_eq_ok] at h
  obtain ⟨c, hc, q, hq, p, hp, h0, rfl⟩ := h
  exact ⟨c, q, p, hc, hq, hp, h0, rfl⟩

/-- C115 depends on the unit being left alone: `model_data` belongs to the object. A unit `B'` that replaces `B` in it after a call (attributes assigned anew) still reports the COP of `B`. -/
theorem C115_stale (B' : Built) (calls : List FileCall) (e : ℝ) (h : B.defrostCop u E T brentq = .ok e) :
    (B'.coolingCop60 u E T brentq (after u E T brentq B (.cop60 :: calls))).1 = .ok e := by
  have hh := after_held (u := u) (E := E) (T := T) (brentq := brentq) (B := B) calls
  simp only [after]
  cases hs : after u E T brentq B calls with
  | some v =>
    have := hh v hs
    rw [h] at this; cases this
    rfl
  | none => simp only [Built.coolingCop60, h]

/-! ## C114: the file is written -/

/-- The psychrometric library evaluates the air states of the file: the outdoor temperatures (and the one of the defrost COP) at 40 % relative humidity, the indoor wet bulbs of the cooling
tables and the indoor dry bulbs of the heating tables. -/
structure FileAir (E : Env ℝ) (off : ℝ) : Prop where
  outdoor : ∀ t ∈ [(55 : ℝ), 60, 82, 95, 125, toF off, 5, 17, 47], ∃ s, humid E t = .ok s
  wet : ∀ w ∈ [(50 : ℝ), 67, 80], ∃ rho, rho ≠ 0 ∧ (Psych.getRho E.lib (wetState E.atm (frF 80) (frF w))).1 = .ok rho
  dry : ∀ t ∈ [(60 : ℝ), 70, 80], ∃ s rho, humid E t = .ok s ∧ rho ≠ 0 ∧ (Psych.getRho E.lib s).1 = .ok rho

/-- The net performance map has positive cooling capacities at the outdoor temperatures of the file, and powers and heating capacities above the largest fan power at the rated capacity of the speed. -/
structure FileMap (u : Units ℝ) (st : Staging) (net : Perf ℝ) (qc qh : List ℝ) (off : ℝ) : Prop where
  cool : ∀ i σ, TableSpeed st i σ → ∀ t ∈ [(55 : ℝ), 60, 82, 95, 125], ∃ Q P, net.coolingCapacity σ (frF t) = .ok Q ∧ 0 < Q ∧ net.coolingPower σ (frF t) = .ok P ∧
    ∀ q, qc[i]? = some q → 337.2 / u.ton * q < P
  heat : ∀ i σ, TableSpeed st i σ → ∀ t ∈ [toF off, 5, 17, 47, 60], ∃ Q P, net.heatingCapacity σ (frF t) = .ok Q ∧ net.heatingPower σ (frF t) = .ok P ∧
    ∀ q, qh[i]? = some q → 337.2 / u.ton * q < Q ∧ 337.2 / u.ton * q < P

/-- The condition of a speed with other air. -/
theorem recondition {S : Sys ℝ} {heating : Bool} {i : Nat} {o s : Psych.PsychState ℝ} {c : Conditions ℝ} (h : S.makeCondition E heating i none (some o) = .ok c) {rho : ℝ} (h0 : rho ≠ 0)
    (hs : (Psych.getRho E.lib s).1 = .ok rho) (o' : Option (Psych.PsychState ℝ)) : ∃ c', S.makeCondition E heating i (some s) o' = .ok c' := by
  obtain ⟨_, _, x, cap, fs, -, h2, h3, h4, -, h6, h7, ⟨full, h8, h9, -⟩, h10, -⟩ := Sys.makeCondition_spec E S heating _ _ _ _ h
  exact ⟨_, Sys.makeCondition_ok E S heating i (some s) o' rho x cap full fs h0 h2 h3 h4 h9 hs h6 h7 h8 h10⟩

theorem built_rated (h : build u E T brentq a = .ok B) (ht : ∀ d, a.tables = some d → RatedTables (tableSpeeds B.core.st) d) : RatedTables (tableSpeeds B.core.st) B.core.net := by
  obtain ⟨st0, st, q47, net, rc, rh, -, -, -, h4, -, -, -, h8, -⟩ := build_ok h
  have e : B.core.st = st ∧ B.core.net = net := by
    unfold core at h8
    simp only [bind_eq_ok, pure_eq_ok, Except.ok.injEq] at h8
    obtain ⟨_, -, _, -, _, -, ⟨_, _, _⟩, -, _, -, _, -, _, -, _, -, _, -, _, -, _, -, h12⟩ := h8
    rw [← h12]; exact ⟨rfl, rfl⟩
  obtain ⟨rfl, rfl⟩ := e
  cases hd : a.tables with
  | none => exact netTables_rated h4 hd
  | some d => rw [netTables_given h4 hd]; exact ht d hd

/-- Between the first two speeds, tables are averages. -/
theorem table_half {t : Table ℝ} {x a b c : ℝ} (hf : Fresh t) (hn : t.nSpeeds = 3) (ha : t.calculate 1 x = .ok a) (hb : t.calculate 2 x = .ok b) (hc : t.calculate (3 / 2) x = .ok c) : c = (a + b) / 2 := by
  obtain ⟨z0, z1, y, z2, z3, z4, hline⟩ := C30_linear_in_speed t hf 1 (3 / 2) x ⟨by norm_num, by rw [hn]; decide⟩ ⟨by norm_num, by rw [hn]; decide⟩ (.inr rfl) (.inl (by norm_num))
  norm_num at z2 z3
  rw [ha] at z2; cases z2
  rw [hb] at z3; cases z3
  rw [hc] at z4; cases z4
  unfold OnLine at hline
  push_cast at hline
  linarith

/-- The fan powers in the gross tables. -/
theorem fan_powers {fc fh : ℝ → ℝ} (F : CoreFacts u brentq a B.core.st B.core.rc B.core.rh B.core.net B.core fc fh) (hR : RatedTables (tableSpeeds B.core.st) B.core.net) (hS : sys a B.core = .ok B.sys)
    (hm : Made u E a B.core.st net qc qh B) :
    (∀ i σ q, TableSpeed B.core.st i σ → qc[i]? = some q → 0 < fc σ ∧ fc σ ≤ 337.2 / u.ton * q) ∧
    ∀ i σ q, TableSpeed B.core.st i σ → qh[i]? = some q → 0 < fh σ ∧ fh σ ≤ 337.2 / u.ton * q := by
  obtain ⟨_, _, -, -, -, -, M1, M2⟩ := F.fan
  obtain ⟨-, -, -, -, -, -, -, g1, g2, -⟩ := sys_ok hS
  have c1 : ∀ i σ q, TableSpeed B.core.st i σ → σ ≠ 3 / 2 → qc[i]? = some q → 0 < fc σ ∧ fc σ ≤ 337.2 / u.ton * q := by
    intro i σ q hσ h32 hq
    obtain ⟨_, _, _, w, -, -, -, -, -, hw⟩ := M1.rated i (by rw [F.coolCaps.1]; exact tableSpeed_lt hσ)
    obtain ⟨w', e, p1, p2⟩ := hm.grossCool i q hq
    rw [grossList_get g1 (tableSpeed_lt hσ) (hm.coolCaps.symm ▸ hq) hw] at e
    have : w = w' := by simp at e; exact e
    subst this
    rw [F.coolFan i σ w hσ h32 hw]
    exact ⟨p1, p2⟩
  have c2 : ∀ i σ q, TableSpeed B.core.st i σ → σ ≠ 3 / 2 → qh[i]? = some q → 0 < fh σ ∧ fh σ ≤ 337.2 / u.ton * q := by
    intro i σ q hσ h32 hq
    obtain ⟨_, _, _, w, -, -, -, -, -, hw⟩ := M2.rated i (by rw [F.heatCaps.1]; exact tableSpeed_lt hσ)
    obtain ⟨w', e, p1, p2⟩ := hm.grossHeat i q hq
    rw [grossList_get g2 (tableSpeed_lt hσ) (hm.heatCaps.symm ▸ hq) hw] at e
    have : w = w' := by simp at e; linarith
    subst this
    rw [F.heatFan i σ w hσ h32 hw]
    exact ⟨p1, p2⟩
  have half : ∀ i (σ : ℝ), TableSpeed B.core.st i σ → σ = 3 / 2 → B.core.st = .varSpeed ∧ i = 2 := by
    intro i σ hσ h
    cases hst : B.core.st with
    | single => rw [hst] at hσ; obtain ⟨-, h'⟩ := hσ; rw [h'] at h; norm_num at h
    | two => rw [hst] at hσ; rcases hσ with ⟨-, h'⟩ | ⟨-, h'⟩ <;> · rw [h'] at h; norm_num at h
    | varSpeed =>
      rw [hst] at hσ
      rcases hσ with ⟨-, h'⟩ | ⟨-, h'⟩ | ⟨h', -⟩ | ⟨-, h'⟩
      · rw [h'] at h; norm_num at h
      · rw [h'] at h; norm_num at h
      · exact ⟨rfl, h'⟩
      · rw [h'] at h; norm_num at h
  have hn : B.core.st = .varSpeed → B.core.net.coolingCapacities.nSpeeds = 3 ∧ B.core.net.heatingCapacities.nSpeeds = 3 := by
    intro hv
    have := hR.speeds
    rw [hv] at this
    exact ⟨this.1, this.2.2.1⟩
  constructor
  · intro i σ q hσ hq
    by_cases h32 : σ = 3 / 2
    · obtain ⟨hv, rfl⟩ := half i σ hσ h32
      have s1 : TableSpeed B.core.st 3 1 := by rw [hv]; simp [TableSpeed]
      have s2 : TableSpeed B.core.st 1 2 := by rw [hv]; simp [TableSpeed]
      obtain ⟨q1, e1, v1⟩ := F.coolCaps.2 3 1 s1
      obtain ⟨q2, e2, v2⟩ := F.coolCaps.2 1 2 s2
      obtain ⟨q', e3, v3⟩ := F.coolCaps.2 2 σ hσ
      rw [hm.coolCaps] at e1 e2 e3
      rw [hq] at e3; cases e3
      obtain ⟨x1, y1⟩ := c1 3 1 q1 s1 (by norm_num) e1
      obtain ⟨x2, y2⟩ := c1 1 2 q2 s2 (by norm_num) e2
      rw [h32] at v3
      have := table_half hR.qc (hn hv).1 v1 v2 v3
      rw [h32, (F.half hv).1, this]
      constructor <;> linarith
    · exact c1 i σ q hσ h32 hq
  · intro i σ q hσ hq
    by_cases h32 : σ = 3 / 2
    · obtain ⟨hv, rfl⟩ := half i σ hσ h32
      have s1 : TableSpeed B.core.st 3 1 := by rw [hv]; simp [TableSpeed]
      have s2 : TableSpeed B.core.st 1 2 := by rw [hv]; simp [TableSpeed]
      obtain ⟨q1, e1, v1⟩ := F.heatCaps.2 3 1 s1
      obtain ⟨q2, e2, v2⟩ := F.heatCaps.2 1 2 s2
      obtain ⟨q', e3, v3⟩ := F.heatCaps.2 2 σ hσ
      rw [hm.heatCaps] at e1 e2 e3
      rw [hq] at e3; cases e3
      obtain ⟨x1, y1⟩ := c2 3 1 q1 s1 (by norm_num) e1
      obtain ⟨x2, y2⟩ := c2 1 2 q2 s2 (by norm_num) e2
      rw [h32] at v3
      have := table_half hR.qh (hn hv).2 v1 v2 v3
      rw [h32, (F.half hv).2, this]
      constructor <;> linarith
    · exact c2 i σ q hσ h32 hq

/-- The unit returns positive gross cooling capacities and COPs at the points of the file. -/
theorem cooling_returns {fc fh : ℝ → ℝ} (F : CoreFacts u brentq a B.core.st B.core.rc B.core.rh B.core.net B.core fc fh) (hR : RatedTables (tableSpeeds B.core.st) B.core.net)
    (hS : sys a B.core = .ok B.sys) (hm : Made u E a B.core.st B.core.net qc qh B) (hd : a.chargeDeviation = 0) (hA : FileAir E B.heatingOff) (hM : FileMap u B.core.st B.core.net qc qh B.heatingOff) {c : Conditions ℝ} {i : Nat}
    {w r t : ℝ} (hi : i < speedCount B.core.st) (hci : c.flow.compressorSpeed = i) (hw : (Psych.getWb c.indoor).1 = .ok (frF w)) (hr : c.flow.ratio = some r)
    (hr' : r ∈ [(0.75 : ℝ), 1, 1.25]) (htd : c.outdoor.db = frF t) (ht : t ∈ [(55 : ℝ), 60, 82, 95, 125]) :
    (∃ q, (B.unit u E T brentq).grossTotalCoolingCapacity (some c) = .ok q ∧ 0 < q) ∧ ∃ e, (B.unit u E T brentq).grossTotalCoolingCOP (some c) = .ok e ∧ 0 < e := by
  obtain ⟨σ, hσ⟩ : ∃ σ, TableSpeed B.core.st i σ := by
    have := speedMap_get (st := B.core.st) (i := i) (σ := (speedMap B.core.st)[i]'(by rw [speedMap_length]; exact hi))
    exact ⟨_, this.1 (List.getElem?_eq_getElem _)⟩
  have ht125 : t ≤ 125 := by
    simp only [List.mem_cons, List.not_mem_nil, or_false] at ht
    rcases ht with rfl | rfl | rfl | rfl | rfl <;> norm_num
  obtain ⟨q0, hq0, -⟩ := F.coolCaps.2 i σ hσ
  obtain ⟨w0, hQ, w1, w2⟩ := hm.grossCool i q0 (hm.coolCaps ▸ hq0)
  have hton := u.ton_pos
  have hq0' : 0 < q0 := by
    by_contra h
    have : 337.2 / u.ton * q0 ≤ 0 := mul_nonpos_of_nonneg_of_nonpos (by positivity) (not_lt.1 h)
    linarith
  obtain ⟨o, ho⟩ : ∃ o, Resnet.ratedOutdoor E c.outdoor.db = .ok o := by
    rw [htd]
    refine hA.outdoor t ?_
    simp only [List.mem_cons, List.not_mem_nil, or_false] at ht ⊢
    rcases ht with rfl | rfl | rfl | rfl | rfl <;> simp
  obtain ⟨rated, hrc⟩ := hm.conditions false i o hi
  obtain ⟨k1, k2, -, -⟩ := flow_positive hr'
  obtain ⟨q, p, h1, h2, h3, h4⟩ := gross_cooling_at F hS hσ hQ (by linarith) hci hw hr k1 k2 (by rw [htd, toF_frF]; exact ht125) ho hrc
  obtain ⟨-, -, -, -, -, -, -, -, -, -, -, hdev, -⟩ := sys_ok hS
  obtain ⟨g1, g2⟩ := unit_gross_cooling (u := u) (T := T) (brentq := brentq) (P := B.points) (ntu := B.coil.ntu) (hdev.trans hd) h3 h4
  obtain ⟨Q, P, m1, m2, m3, m5⟩ := hM.cool i σ hσ t ht
  obtain ⟨f1, f2'⟩ := (fan_powers F hR hS hm).1 i σ q0 hσ (hm.coolCaps ▸ hq0)
  have f2 := f2'.trans_lt (m5 q0 (hm.coolCaps ▸ hq0))
  obtain ⟨Q', e1, e2⟩ := F.gross.coolCap σ (frF t)
  obtain ⟨P', e3, e4⟩ := F.gross.coolPow σ (frF t)
  rw [m1] at e1; cases e1
  rw [m3] at e3; cases e3
  rw [htd, e2] at h1; cases h1
  rw [htd, e4] at h2; cases h2
  obtain ⟨x1, x2⟩ := coolX_positive (x := w) ht125
  simp only [htd, toF_frF] at g1 g2
  have gq : 0 < (Q + fc σ) * (coolCapF r * (coolCapT (clip 57 72 w) (max 75 t) / coolCapT 67 (max 75 t))) := mul_pos (by linarith) (mul_pos k1 x1)
  have gp : 0 < (P - fc σ) * (coolEirF r * coolCapF r * (coolEirT (clip 57 72 w) (max 75 t) / coolEirT 67 (max 75 t) * (coolCapT (clip 57 72 w) (max 75 t) / coolCapT 67 (max 75 t)))) :=
    mul_pos (by linarith) (mul_pos (mul_pos k2 k1) (mul_pos x2 x1))
  rw [if_neg (not_lt.2 gq.le)] at g1
  rw [if_neg (not_lt.2 gp.le)] at g2
  refine ⟨⟨_, g1, gq⟩, ⟨_, ?_, div_pos gq gp⟩⟩
  simp only [DX.Performance.grossTotalCoolingCOP]
  show (do let x ← (performance u E T brentq B.core B.sys B.points B.coil.ntu).grossTotalCoolingCapacity (some c); let y ← (performance u E T brentq B.core B.sys B.points B.coil.ntu).grossCoolingPower (some c); pdiv x y) = _
  rw [g1, g2]
  simp only [bind_ok, pdiv_ok gp.ne']

/-- The unit returns positive gross heating capacities and COPs at the points of the file. -/
theorem heating_returns {fc fh : ℝ → ℝ} (F : CoreFacts u brentq a B.core.st B.core.rc B.core.rh B.core.net B.core fc fh) (hR : RatedTables (tableSpeeds B.core.st) B.core.net)
    (hS : sys a B.core = .ok B.sys) (hm : Made u E a B.core.st B.core.net qc qh B) (hd : a.chargeDeviation = 0) (hA : FileAir E B.heatingOff) (hM : FileMap u B.core.st B.core.net qc qh B.heatingOff) {c : Conditions ℝ} {i : Nat}
    {x r t : ℝ} (hi : i < speedCount B.core.st) (hci : c.flow.compressorSpeed = i) (hx : c.indoor.db = frF x) (hx' : x ∈ [(60 : ℝ), 70, 80]) (hr : c.flow.ratio = some r)
    (hr' : r ∈ [(0.75 : ℝ), 1, 1.25]) (htd : c.outdoor.db = frF t) (ht : t ∈ [toF B.heatingOff, 5, 17, 47, 60]) :
    (∃ q, (B.unit u E T brentq).grossSteadyHeatingCapacity (some c) = .ok q ∧ 0 < q) ∧ ∃ e, (B.unit u E T brentq).grossSteadyHeatingCOP (some c) = .ok e ∧ 0 < e := by
  obtain ⟨σ, hσ⟩ : ∃ σ, TableSpeed B.core.st i σ := by
    have := speedMap_get (st := B.core.st) (i := i) (σ := (speedMap B.core.st)[i]'(by rw [speedMap_length]; exact hi))
    exact ⟨_, this.1 (List.getElem?_eq_getElem _)⟩
  obtain ⟨q0, hq0, hnet⟩ := F.heatCaps.2 i σ hσ
  obtain ⟨w0, hQ, w1, w2⟩ := hm.grossHeat i q0 (hm.heatCaps ▸ hq0)
  have hq0' : w0 < q0 := by
    obtain ⟨Q, P, m1, -, m5⟩ := hM.heat i σ hσ 47 (by simp)
    rw [hnet] at m1; cases m1
    have := (m5 _ (hm.heatCaps ▸ hq0)).1
    linarith
  obtain ⟨o, ho⟩ : ∃ o, Resnet.ratedOutdoor E c.outdoor.db = .ok o := by
    rw [htd]
    refine hA.outdoor t ?_
    simp only [List.mem_cons, List.not_mem_nil, or_false] at ht ⊢
    rcases ht with rfl | rfl | rfl | rfl | rfl <;> simp
  obtain ⟨rated, hrc⟩ := hm.conditions true i o hi
  obtain ⟨-, -, k1, k2⟩ := flow_positive hr'
  obtain ⟨q, p, h1, h2, h3, h4⟩ := gross_heating_at F hS hσ hQ (sub_pos.2 hq0').ne' hci hr ho hrc
  obtain ⟨-, -, -, -, -, -, -, -, -, -, -, hdev, -⟩ := sys_ok hS
  obtain ⟨g1, g2⟩ := unit_gross_heating (u := u) (T := T) (brentq := brentq) (P := B.points) (ntu := B.coil.ntu) (hdev.trans hd) h3 h4
  obtain ⟨Q, P, m1, m3, m5⟩ := hM.heat i σ hσ t ht
  obtain ⟨f1, f2'⟩ := (fan_powers F hR hS hm).2 i σ _ hσ (hm.heatCaps ▸ hq0)
  obtain ⟨m6, m7⟩ := m5 _ (hm.heatCaps ▸ hq0)
  have f2 := f2'.trans_lt m6
  have f3 := f2'.trans_lt m7
  obtain ⟨Q', e1, e2⟩ := F.gross.heatCap σ (frF t)
  obtain ⟨P', e3, e4⟩ := F.gross.heatPow σ (frF t)
  rw [m1] at e1; cases e1
  rw [m3] at e3; cases e3
  rw [htd, e2] at h1; cases h1
  rw [htd, e4] at h2; cases h2
  have hb : 60 ≤ x ∧ x ≤ 80 := by
    simp only [List.mem_cons, List.not_mem_nil, or_false] at hx'
    rcases hx' with rfl | rfl | rfl <;> norm_num
  have x1 : 0 < heatCapX x t := div_pos (heatCapT_ne hb.1 hb.2 t) (heatCapT_pos t)
  have x2 : 0 < heatEirX x t := div_pos (heatEirT_ne hb.1 hb.2 t) (heatEirT_pos t)
  simp only [htd, hx, toF_frF] at g1 g2
  have gq : 0 < (Q - fh σ) * (heatCapF r * (heatCapT x t / heatCapT 70 t)) := mul_pos (by linarith) (mul_pos k1 x1)
  have gp : 0 < (P - fh σ) * (heatEirF r * heatCapF r * (heatEirT x t / heatEirT 70 t * (heatCapT x t / heatCapT 70 t))) :=
    mul_pos (by linarith) (mul_pos (mul_pos k2 k1) (mul_pos x2 x1))
  refine ⟨⟨_, g1, gq⟩, ⟨_, ?_, div_pos gq gp⟩⟩
  simp only [DX.Performance.grossSteadyHeatingCOP]
  show (do let x ← (performance u E T brentq B.core B.sys B.points B.coil.ntu).grossSteadyHeatingCapacity (some c); let y ← (performance u E T brentq B.core B.sys B.points B.coil.ntu).grossSteadyHeatingPower (some c); pdiv x y) = _
  rw [g1, g2]
  simp only [bind_ok, pdiv_ok gp.ne']

/-- Every setting of the unit's fan has one of the rated airflows; the first has the design airflow. -/
theorem fan_airflows (h : build u E T brentq a = .ok B) (ha1 : a.coolingPerCap = none) (ha2 : a.heatingPerCap = none) (hm : Made u E a B.core.st B.core.net qc qh B)
    (hs : ∃ x y, qc[fullIndex B.core.st]? = some x ∧ qh[fullIndex B.core.st]? = some y ∧ RatedSizes (max x y) qc ∧ RatedSizes (max x y) qh) :
    ∃ d, 0 < d ∧ GoodFan u d B.core.fan ∧ ∀ x ∈ B.core.fan.airflow, 0 < x ∧ (x / d) ^ 2 ≤ 3 := by
  have hcf := u.cfm_pos
  have ht := u.ton_pos
  have hr : 0 < 400 * u.cfm / u.ton := by positivity
  obtain ⟨x, y, hx, hy, Rc, Rh⟩ := hs
  have hD : 0 < max x y := lt_max_of_lt_left (Rc.pos x (List.mem_of_getElem? hx))
  obtain ⟨st0, st, q47, net', rc, rh, h1, h2, h3, h4, h5, h6, h7, h8, -⟩ := build_ok h
  have hdes := hm.design x y hx hy
  have e1 := hm.coolCaps
  have e2 := hm.heatCaps
  unfold core at h8
  simp only [bind_eq_ok, pure_eq_ok, Except.ok.injEq] at h8
  obtain ⟨qc', -, qh', -, esp, -, ⟨cool, heat, fan⟩, hfan, cp, -, hp, -, gross, -, ncc, -, gcc, -, nhc, -, ghc, -, h12⟩ := h8
  obtain ⟨_, _, -, -, -, -, M1, M2⟩ := setFan_sets u (motor_local u brentq _) hfan
  have f1 : qc' = qc := by rw [← e1, ← h12]; exact M1.caps.symm
  have f2 : qh' = qh := by rw [← e2, ← h12]; exact M2.caps.symm
  subst f1; subst f2
  have hB : B.core.fan = fan := by rw [← h12]
  rw [hB] at hdes ⊢
  have hd0 : 0 < max x y * (400 * u.cfm / u.ton) := mul_pos hD hr
  refine ⟨_, hd0, setFan_good u (motor_local u brentq _) hfan hdes hd0, ?_⟩
  have air : ∀ {q : List ℝ} {n : Nat}, RatedSizes (max x y) q → Airflows (fun z => 0 < z ∧ (z / (max x y * (400 * u.cfm / u.ton))) ^ 2 ≤ 3) (Side.start u n q none) := by
    intro q n R i c r hc hr'
    have hc' : q[i]? = some c := hc
    have hrr : r = 400 * u.cfm / u.ton := by
      have hr'' : (List.replicate n (400 * u.cfm / u.ton))[i]? = some r := hr'
      exact (List.eq_of_mem_replicate (List.mem_of_getElem? hr''))
    subst hrr
    have hc0 := R.pos c (List.mem_of_getElem? hc')
    have hb := R.below c (List.mem_of_getElem? hc')
    refine ⟨mul_pos hc0 hr, ?_⟩
    rw [mul_div_mul_right _ _ hr.ne', div_pow, div_le_iff₀ (by positivity)]
    exact hb
  rw [ha1, ha2] at hfan
  exact (setFan_settings hfan (air Rc) (air Rh)).2

set_option maxHeartbeats 1000000 in
/-- C114: the file of a RESNET unit is written, whatever the type of system, the options, the name and the calls made before: the air states of the file can be evaluated, the
performance map is positive (above the fan power) at the temperatures of the file, the unit has no cut-in temperature of its own and reports a sensible heat ratio at the rating condition of each
speed. -/
theorem C114_written (hbr : BrentqSpec brentq) (harg : ∀ l, IsArgsort l (X.argsort l)) (h : build u E T brentq a = .ok B) (ht : ∀ d, a.tables = some d → RatedTables (tableSpeeds B.core.st) d)
    (ha1 : a.coolingPerCap = none) (ha2 : a.heatingPerCap = none) (hd : a.chargeDeviation = 0) (hon : a.heatingOn = none) (hm : Made u E a B.core.st B.core.net qc qh B)
    (hs : ∃ x y, qc[fullIndex B.core.st]? = some x ∧ qh[fullIndex B.core.st]? = some y ∧ RatedSizes (max x y) qc ∧ RatedSizes (max x y) qh)
    (hI : ∃ rho, rho ≠ 0 ∧ (Psych.getRho E.lib (wetState E.atm (frF 70) (frF 60))).1 = .ok rho)
    (hA : FileAir E B.heatingOff) (hM : FileMap u B.core.st B.core.net qc qh B.heatingOff)
    (hshr : ∀ i < speedCount B.core.st, ∀ c, B.sys.makeCondition E false i = .ok c → ∃ x, (B.unit u E T brentq).grossSHR (some c) = .ok x)
    (htf : B.sys.defrost.control = .timed → ∃ x, X.timeFraction B.points.h1Full = .ok x) (calls : List FileCall) (o : FileOptions) :
    ∃ s, (B.writeIdf u E T brentq X fmt o (after u E T brentq B calls)).1 = .ok s := by
  rw [(C115_history calls o).1]
  obtain ⟨fc, fh, F⟩ := built_facts h ht
  obtain ⟨st0, st, q47, net', rc, rh, -, -, -, -, -, hrc, hrh, hcore, hS, hpts, -, -, -, -, -, hB⟩ := build_ok h
  have hR := built_rated h ht
  obtain ⟨d, hd0, hgood, hset⟩ := fan_airflows h ha1 ha2 hm hs
  have hn : 0 < B.core.fan.airflow.length := (List.getElem?_eq_some_iff.1 hgood.2.1).1
  have setting := fun (k : Nat) (hk : k < B.core.fan.airflow.length) => by
    have hx := hset _ (List.getElem_mem hk)
    exact fan_setting (u := u) hbr B.core.psc hd0 hgood (List.getElem?_eq_getElem hk) hx.1 hx.2
  obtain ⟨l, hl⟩ : ∃ l, speedOrderMap X.argsort (resnetMethods brentq (ResnetFan.motorPower u brentq B.core.psc) B.core.fan).airflow B.core.fan.airflow.length = .ok l := by
    obtain ⟨fl, hfl⟩ := mapM_isOk (fun (i : Nat) => (resnetMethods brentq (ResnetFan.motorPower u brentq B.core.psc) B.core.fan).airflow (i : Int) (some 0)) (List.range B.core.fan.airflow.length)
      (fun i hi => ⟨_, (setting i (List.mem_range.1 hi)).2.2.1⟩)
    exact ⟨X.argsort fl, by simp only [speedOrderMap, hfl, bind_ok, pure_eq_ok]⟩
  obtain ⟨hperm, -⟩ := C24_order_map X.argsort harg _ _ _ hl
  have hlt : ∀ s ∈ l, s < B.core.fan.airflow.length := fun s hs => List.mem_range.1 (hperm.mem_iff.1 hs)
  have one_mem : (1 : ℝ) ∈ [(0.75 : ℝ), 1, 1.25] := by simp
  have mem95 : (95 : ℝ) ∈ [(55 : ℝ), 60, 82, 95, 125] := by simp
  have in_mem : (70 : ℝ) ∈ [(60 : ℝ), 70, 80] := by simp
  have mem47 : (47 : ℝ) ∈ [toF B.heatingOff, 5, 17, 47, 60] := by simp
  have cool : ∀ s < speedCount B.core.st, ∀ c, Asked (fileCooling E B.sys s) setRatio (coolIndoor : List ℝ) coolOutdoor c →
      (∃ q, (B.unit u E T brentq).grossTotalCoolingCapacity (some c) = .ok q ∧ 0 < q) ∧ ∃ e, (B.unit u E T brentq).grossTotalCoolingCOP (some c) = .ok e ∧ 0 < e := by
    intro s hs c hc
    cases hc with
    | rating hc =>
      obtain ⟨-, c2, c3, c4, c5, -⟩ := fileCooling_rated hc
      exact cooling_returns F hR hS hm hd hA hM hs c2 c3 c4 one_mem c5 mem95
    | flow hc hr =>
      obtain ⟨c1, c2, c3, c4, c5, -⟩ := fileCooling_rated hc
      obtain ⟨-, z2, z3, z4, z5⟩ := setRatio_made c1 _
      exact cooling_returns F hR hS hm hd hA hM hs z5 (by rw [z2]; exact c3) z4 hr (by rw [z3]; exact c5) mem95
    | table hi ho hc =>
      obtain ⟨z1, z2, z3, z4⟩ := fileCooling_at hc
      refine cooling_returns F hR hS hm hd hA hM hs z1 z2 z3 one_mem z4 ?_
      simp only [coolOutdoor, List.mem_cons, List.not_mem_nil, or_false] at ho ⊢
      tauto
  have heat : ∀ s < speedCount B.core.st, ∀ c, Asked (fileHeating E B.sys s) setRatio (heatIndoor : List ℝ) [toF B.heatingOff, 5, 17, 47, 60] c →
      (∃ q, (B.unit u E T brentq).grossSteadyHeatingCapacity (some c) = .ok q ∧ 0 < q) ∧ ∃ e, (B.unit u E T brentq).grossSteadyHeatingCOP (some c) = .ok e ∧ 0 < e := by
    intro s hs c hc
    cases hc with
    | rating hc =>
      obtain ⟨-, c2, c3, c4, c5, -⟩ := fileHeating_rated hc
      exact heating_returns F hR hS hm hd hA hM hs c2 c3 in_mem c4 one_mem c5 mem47
    | flow hc hr =>
      obtain ⟨c1, c2, c3, c4, c5, -⟩ := fileHeating_rated hc
      obtain ⟨-, z2, z3, z4, z5⟩ := setRatio_made c1 _
      exact heating_returns F hR hS hm hd hA hM hs z5 (by rw [z2]; exact c3) in_mem z4 hr (by rw [z3]; exact c5) mem47
    | table hi ho hc =>
      obtain ⟨z1, z2, z3, z4⟩ := fileHeating_at hc
      exact heating_returns F hR hS hm hd hA hM hs z1 z2 hi z3 one_mem z4 ho
  have hfc : B.core.rc.full < speedCount B.core.st := by rw [hm.full.1]; exact full_lt _
  have hfh : B.core.rh.full < speedCount B.core.st := by rw [hm.full.2]; exact full_lt _
  have est : B.core.st = st ∧ B.core.rc = rc ∧ B.core.rh = rh := by
    unfold core at hcore
    simp only [bind_eq_ok, pure_eq_ok, Except.ok.injEq] at hcore
    obtain ⟨_, -, _, -, _, -, ⟨_, _, _⟩, -, _, -, _, -, _, -, _, -, _, -, _, -, _, -, h12⟩ := hcore
    rw [← h12]; exact ⟨rfl, rfl, rfl⟩
  have pA : fileCooling E B.sys B.core.rc.full none = .ok B.points.aFull := by rw [est.2.1]; exact (full_points hpts).1
  have pH : fileHeating E B.sys B.core.rh.full none = .ok B.points.h1Full := by rw [est.2.2]; exact (full_points hpts).2.2.1
  obtain ⟨⟨qA, hqA, qA0⟩, -⟩ := cool _ hfc _ (.rating pA)
  obtain ⟨⟨qH, hqH, qH0⟩, -⟩ := heat _ hfh _ (.rating pH)
  have hcop : ∃ x, B.defrostCop u E T brentq = .ok x ∧ 0 < x := by
    obtain ⟨rho, r0, hrho⟩ := hI
    have hpos : 0 < speedCount B.core.st := by omega
    obtain ⟨c0, hc0⟩ := hm.conditions false 0 (wetState E.atm (frF 60) (frF 48)) hpos
    obtain ⟨c, hc⟩ := recondition hc0 r0 hrho (some (wetState E.atm (frF 60) (frF 48)))
    have hc' := hc
    obtain ⟨rho', pr, v, cap, fs, -, -, -, -, -, -, -, -, -, rfl⟩ := Sys.makeCondition_spec E B.sys false _ _ _ _ hc
    obtain ⟨-, e, he, he0⟩ := cooling_returns (T := T) F hR hS hm hd hA hM (i := 0) (w := 60) (r := 1) (t := 60)
      (c := ⟨false, wetState E.atm (frF 70) (frF 60), wetState E.atm (frF 60) (frF 48), ratedFlow rho' E.rhoStd 0 fs pr v cap⟩) hpos rfl rfl rfl one_mem rfl (by simp)
    exact ⟨e, by simp only [Built.defrostCop, hc', bind_ok]; exact he, he0⟩
  have hint : ∃ q, (B.unit u E T brentq).grossIntegratedHeatingCapacity none = .ok q := by
    have hg : Nrel.steadyCapacity E B.sys (Resnet.raw E B.sys (data B.core)) B.points.h1Full = .ok qH := hqH
    show ∃ x, Resnet.grossIntegratedHeatingCapacity E B.sys (data B.core) B.points.h1Full = .ok x
    unfold Resnet.grossIntegratedHeatingCapacity
    rw [hg]
    split <;> exact ⟨_, rfl⟩
  have hw : Writable (B.idf u E T brentq X none) o.type := by
    refine { order := ⟨l, hl, fun e => ?_⟩, fan := fun l' hl' s hs' => ?_, ratios := fun l' hl' s hs' t ht' => ?_, coolCondition := fun s hs' => ⟨?_, fun i hi o' ho' => ?_⟩
             heatCondition := fun s hs' => ⟨?_, fun i hi o' ho' => ?_⟩, coolRated := ⟨qA, hqA, qA0.ne'⟩, coolCap := fun s hs' c hc => ?_, coolCop := fun s hs' c hc => ?_
             shr := fun s hs' c hc => hshr s hs' c hc, heatRated := ⟨qH, hqH⟩, heatCap := fun s hs' c hc => ?_, heatCop := fun s hs' c hc => ?_, intCap := fun _ => hint
             timeFraction := htf, cop60 := ?_ }
    · rw [e] at hperm
      have := hperm.length_eq
      simp at this
      omega
    · rw [show (B.idf u E T brentq X none).order = .ok l from hl] at hl'; cases hl'
      obtain ⟨z1, z2, -, ⟨w, -, z3⟩, z4⟩ := setting s (hlt s hs')
      exact ⟨⟨_, z1⟩, ⟨_, z2⟩, ⟨w, z3⟩, z4⟩
    · rw [show (B.idf u E T brentq X none).order = .ok l from hl] at hl'; cases hl'
      obtain ⟨-, z2, -, ⟨w, -, z3⟩, -⟩ := setting s (hlt s hs')
      obtain ⟨-, y2, -, ⟨w', w0', y3⟩, -⟩ := setting t (hlt t ht')
      have hp := (hset _ (List.getElem_mem (hlt t ht'))).1
      refine ⟨⟨B.core.fan.airflow[s]'(hlt s hs') / B.core.fan.airflow[t]'(hlt t ht'), ?_⟩, ⟨w / w', ?_⟩⟩
      · simp only [Built.idf, Methods.airflowRatio, z2, y2, bind_ok, pdiv_ok hp.ne']
      · simp only [Built.idf, Methods.powerRatio, z3, y3, bind_ok, pdiv_ok w0'.ne']
    · exact hm.conditions false s (defaultOutdoor E false) hs'
    · obtain ⟨rho, r0, hrho⟩ := hA.wet i hi
      obtain ⟨so, hso⟩ := hA.outdoor o' (by
        have ho' : o' ∈ (coolOutdoor : List ℝ) := ho'
        simp only [coolOutdoor, List.mem_cons, List.not_mem_nil, or_false] at ho' ⊢
        tauto)
      obtain ⟨c0, hc0⟩ := hm.conditions false s so hs'
      obtain ⟨c, hc⟩ := recondition hc0 r0 hrho (some so)
      exact ⟨c, by simp only [Built.idf, fileCooling, hso, bind_ok]; exact hc⟩
    · exact hm.conditions true s (defaultOutdoor E true) hs'
    · obtain ⟨si, rho, hsi, r0, hrho⟩ := hA.dry i hi
      obtain ⟨so, hso⟩ := hA.outdoor o' (by
        have ho' : o' ∈ [toF B.heatingOff, 5, 17, 47, 60] := ho'
        simp only [List.mem_cons, List.not_mem_nil, or_false] at ho' ⊢
        tauto)
      obtain ⟨c0, hc0⟩ := hm.conditions true s so hs'
      obtain ⟨c, hc⟩ := recondition hc0 r0 hrho (some so)
      exact ⟨c, by simp only [Built.idf, fileHeating, hsi, hso, bind_ok]; exact hc⟩
    · obtain ⟨⟨q, h1, h2⟩, -⟩ := cool s hs' c hc; exact ⟨q, h1, h2.ne'⟩
    · obtain ⟨-, q, h1, h2⟩ := cool s hs' c hc; exact ⟨q, h1, h2.ne'⟩
    · obtain ⟨⟨q, h1, h2⟩, -⟩ := heat s hs' c hc; exact ⟨q, h1, h2.ne'⟩
    · obtain ⟨-, q, h1, h2⟩ := heat s hs' c hc; exact ⟨q, h1, h2.ne'⟩
    · obtain ⟨x, hx, hx0⟩ := hcop
      exact ⟨x, by simp only [Built.idf, Built.coolingCop60, hx], hx0.ne'⟩
  have hon' : (B.idf u E T brentq X none).on = some B.heatingOff := by
    show B.heatingOn = _
    rw [hB, hon]; rfl
  obtain ⟨s, hs⟩ := C86_written (fmt := fmt) (name := o.name) (autosize := o.autosize) (normalize := o.normalize) hw _ hon'
  exact ⟨s, by rw [fresh_file]; exact hs⟩

end Resdx.Props

namespace Resdx.Sample

open Spec Spec.Idf Tabular BaseModel Props ResnetFan Fan Table Build Transfer Idf

theorem fileAir (off : ℝ) : FileAir env off :=
  ⟨fun _ _ => ⟨_, rfl⟩, fun _ _ => ⟨1.2, by norm_num, rfl⟩, fun _ _ => ⟨_, 1.2, rfl, by norm_num, rfl⟩⟩

/-- The sample coil takes no moisture out of the air, so the sensible heat ratio is 1. -/
theorem sample_shr {brentq : Brentq} {a : Args} {B : Built} (h : build units env tools brentq a = .ok B) {i : Nat} (hi : i < speedCount B.core.st) {c : Conditions ℝ}
    (hc : B.sys.makeCondition env false i = .ok c) {q : ℝ} (hq : (B.unit units env tools brentq).grossTotalCoolingCapacity (some c) = .ok q) (hq0 : 0 < q) :
    (B.unit units env tools brentq).grossSHR (some c) = .ok 1 := by
  obtain ⟨c', s, t, bf, n, h1, h2, h3, -, -, h6, -⟩ := coil_stored h hi
  rw [hc] at h1; cases h1
  simp only at h2
  rw [hq] at h2; cases h2
  have hin : c.indoor = wetState env.atm (frF 80) (frF 67) := by
    obtain ⟨_, _, _, _, _, -, -, -, -, -, -, -, -, -, rfl⟩ := Sys.makeCondition_spec env B.sys false _ _ _ _ hc
    rfl
  set h0 : ℝ := 1000 * toC (frF 80) + 2500000 * 0.01 with hh0
  have e1 : (Psych.getH tools.lib c.indoor).1 = .ok h0 := by rw [hin]; rfl
  have hdbC : c.indoor.dbC = toC (frF 80) := by rw [hin]; rfl
  -- the coil data
  simp only [Coil.ratedBypass, bind_eq_ok, e1] at h3
  obtain ⟨out, k1, adp, -, _, k2, hOut, k3, hA, -, m, k4, k5⟩ := h3
  cases k2
  have hm : c.flow.mass = some m := by
    cases hx : c.flow.mass with
    | none => rw [hx] at k4; cases k4
    | some z => rw [hx] at k4; exact congrArg some (Except.ok.inj k4)
  simp only [Coil.outletState, bind_eq_ok, e1, hm, pyAttr, Except.ok.injEq, pdiv_eq_ok] at k1
  obtain ⟨_, rfl, _, rfl, x, ⟨m0, rfl⟩, y, -, k1⟩ := k1
  have k3' : hOut = h0 - q / m := by
    have : Psych.init tools.lib (c.indoor.db - y) c.indoor.p [("enthalpy", h0 - q / m)] = .ok out := k1
    cases this
    exact (Except.ok.inj k3).symm
  simp only [DX.ratedBypassFactor, bind_eq_ok, pdiv_eq_ok, pure_eq_ok, Except.ok.injEq, Prod.mk.injEq] at k5
  obtain ⟨_, ⟨d0, rfl⟩, lg, hlg, hbf, hn⟩ := k5
  have hb1 : bf ≠ 1 := by
    rw [← hbf, Ne, div_eq_one_iff_eq d0, k3']
    intro h
    have : q / m ≠ 0 := div_ne_zero hq0.ne' m0
    apply this; linarith
  have hb0 : 0 < bf := by
    by_contra hb
    rw [hbf] at hlg
    simp [plog, hb] at hlg
  have hlg' : lg = Real.log bf := by
    rw [hbf] at hlg
    simpa [plog, hb0, eq_comm] using hlg
  have e2 : Coil.bypass B.coil.ntu c = .ok bf := by
    simp only [Coil.bypass, Sys.at_, made_speed hc, pyGet, h6, bind_ok, pyNum, hm, pyAttr, DX.bypassFactor, pdiv_ok m0, pure_eq_ok]
    rw [← hn, hlg', neg_mul, neg_neg, mul_div_cancel_left₀ _ m0, Real.exp_log hb0]
  have z1 : m * (1 - bf) ≠ 0 := mul_ne_zero m0 (sub_ne_zero.2 hb1.symm)
  have z2 : q / (m * (1 - bf)) ≠ 0 := div_ne_zero hq0.ne' z1
  have hs : (B.unit units env tools brentq).sensible c = .ok q := by
    have e3 : (B.unit units env tools brentq).sensible c = Coil.sensibleFrom tools c ((B.unit units env tools brentq).grossTotalCoolingCapacity (some c)) (Coil.bypass B.coil.ntu c) := rfl
    rw [e3, hq, e2]
    simp only [Coil.sensibleFrom, bind_ok, e1, hm, pyAttr, pdiv_ok z1]
    show (pdiv (q * (1000 * c.indoor.dbC + 2500000 * 0.01 - (h0 - q / (m * (1 - bf))))) (h0 - (h0 - q / (m * (1 - bf))))) = .ok q
    rw [hdbC, ← hh0, sub_sub_cancel, pdiv_ok z2, mul_div_cancel_right₀ _ z2]
  have hS : (B.unit units env tools brentq).grossSensibleCoolingCapacity (some c) = .ok q := DX.Performance.grossSensible_eq_ok.2 ⟨hs, hq0.le⟩
  simp only [DX.Performance.grossSHR, hS, hq, bind_ok, pdiv_ok hq0.ne', div_self hq0.ne']
  exact DX.Performance.limitCheck_both_eq_ok.2 ⟨by norm_num, by norm_num, rfl⟩

/-- The table speeds. -/
def speedsQ : Staging → List ℚ
  | .single => [1]
  | .two => [2, 1]
  | .varSpeed => [3, 2, 3 / 2, 1]

/-- `FileMap` -/
def fileB (st : Staging) (d : Perf ℚ) (qc qh : List ℚ) (off : ℚ) : Bool :=
  (List.range (speedCount st)).all fun i =>
    ([55, 60, 82, 95, 125].all fun t =>
      match d.coolingCapacity ((speedsQ st).getD i 0) (frF t), d.coolingPower ((speedsQ st).getD i 0) (frF t) with
      | .ok Q, .ok P => decide (0 < Q) && decide (337.2 / unitsQ.ton * qc.getD i 0 < P)
      | _, _ => false) &&
    [off, 5, 17, 47, 60].all fun t =>
      match d.heatingCapacity ((speedsQ st).getD i 0) (frF t), d.heatingPower ((speedsQ st).getD i 0) (frF t) with
      | .ok Q, .ok P => decide (337.2 / unitsQ.ton * qh.getD i 0 < Q) && decide (337.2 / unitsQ.ton * qh.getD i 0 < P)
      | _, _ => false

theorem speedsQ_of {st : Staging} {i : Nat} {σ : ℝ} (h : TableSpeed st i σ) : φ ((speedsQ st).getD i 0) = σ := by
  cases st with
  | single => obtain ⟨rfl, rfl⟩ := h; simp [speedsQ]
  | two => rcases h with ⟨rfl, rfl⟩ | ⟨rfl, rfl⟩ <;> simp [speedsQ]
  | varSpeed => rcases h with ⟨rfl, rfl⟩ | ⟨rfl, rfl⟩ | ⟨rfl, rfl⟩ | ⟨rfl, rfl⟩ <;> simp [speedsQ]

theorem file_of {st : Staging} {d : Perf ℚ} {qc qh : List ℚ} {off : ℚ} (h : fileB st d qc qh off = true) : FileMap units st (pT φ d) (qc.map φ) (qh.map φ) (frF (φ off)) := by
  have hton : φ (337.2 / unitsQ.ton) = 337.2 / units.ton := by simp [unitsQ, units]
  simp only [fileB, List.all_eq_true, Bool.and_eq_true, List.mem_range] at h
  have cast : ∀ (l : List ℚ) (t : ℝ), t ∈ l.map φ → ∃ t' ∈ l, φ t' = t := fun l t ht => List.mem_map.1 ht
  constructor
  · intro i σ hσ t ht
    have hi := tableSpeed_lt hσ
    obtain ⟨t', ht', rfl⟩ := cast [55, 60, 82, 95, 125] t (by simpa using ht)
    have h1 := (h i hi).1 t' ht'
    rw [← frF_map, ← speedsQ_of hσ]
    generalize (speedsQ st).getD i 0 = σ' at h1 ⊢
    simp only [Perf.coolingCapacity, Perf.coolingPower, pT] at h1 ⊢
    rw [calculate_map φ_mono, calculate_map φ_mono]
    cases hQ : d.coolingCapacities.calculate σ' (frF t') with
    | error e => rw [hQ] at h1; simp at h1
    | ok Q =>
      cases hP : d.coolingPowers.calculate σ' (frF t') with
      | error e => rw [hQ, hP] at h1; simp at h1
      | ok P =>
        rw [hQ, hP] at h1
        simp only [Bool.and_eq_true, decide_eq_true_eq] at h1
        refine ⟨φ Q, φ P, rfl, by rw [← map_zero φ]; exact φ_mono h1.1, rfl, fun q hq => ?_⟩
        obtain ⟨rfl, -⟩ := getD_cast hq
        rw [← hton, ← map_mul]
        exact φ_mono h1.2
  · intro i σ hσ t ht
    have hi := tableSpeed_lt hσ
    obtain ⟨t', ht', rfl⟩ := cast [off, 5, 17, 47, 60] t (by simpa [toF_frF] using ht)
    have h1 := (h i hi).2 t' ht'
    rw [← frF_map, ← speedsQ_of hσ]
    generalize (speedsQ st).getD i 0 = σ' at h1 ⊢
    simp only [Perf.heatingCapacity, Perf.heatingPower, pT] at h1 ⊢
    rw [calculate_map φ_mono, calculate_map φ_mono]
    cases hQ : d.heatingCapacities.calculate σ' (frF t') with
    | error e => rw [hQ] at h1; simp at h1
    | ok Q =>
      cases hP : d.heatingPowers.calculate σ' (frF t') with
      | error e => rw [hQ, hP] at h1; simp at h1
      | ok P =>
        rw [hQ, hP] at h1
        simp only [Bool.and_eq_true, decide_eq_true_eq] at h1
        refine ⟨φ Q, φ P, rfl, rfl, fun q hq => ?_⟩
        obtain ⟨rfl, -⟩ := getD_cast hq
        rw [← hton, ← map_mul]
        exact ⟨φ_mono h1.1, φ_mono h1.2⟩

/-- C114 on a sample unit: the file is written, for any name, type and options, after any calls. -/
theorem sample_written {brentq : Brentq} (hbr : BrentqSpec brentq) {X : FileContext} (harg : ∀ l, IsArgsort l (X.argsort l)) (hX : ∀ c, ∃ x, X.timeFraction c = .ok x) {a : Args} {B : Built}
    {net : Perf ℝ} {qc qh : List ℝ} {st : Staging} (h : build units env tools brentq a = .ok B) (hB : Made units env a st net qc qh B) (h0 : a.tables = none) (h1 : a.coolingPerCap = none)
    (h2 : a.heatingPerCap = none) (h3 : a.chargeDeviation = 0) (h4 : a.heatingOn = none)
    (hs : ∃ x y, qc[fullIndex st]? = some x ∧ qh[fullIndex st]? = some y ∧ RatedSizes (max x y) qc ∧ RatedSizes (max x y) qh) (hM : FileMap units st net qc qh B.heatingOff)
    (fmt : ℝ → Nat → String) (calls : List FileCall) (o : FileOptions) : ∃ s, (B.writeIdf units env tools brentq X fmt o (after units env tools brentq B calls)).1 = .ok s := by
  obtain rfl := hB.staging
  obtain rfl := hB.tables
  have ht : ∀ d, a.tables = some d → RatedTables (tableSpeeds B.core.st) d := fun d hd => by rw [h0] at hd; cases hd
  refine C114_written hbr harg h ht h1 h2 h3 h4 hB hs ⟨1.2, by norm_num, rfl⟩ (fileAir _) hM ?_ (fun _ => hX _) calls o
  intro i hi c hc
  obtain ⟨fc, fh, F⟩ := built_facts h ht
  obtain ⟨_, _, _, _, _, _, -, -, -, -, -, -, -, -, hS, -⟩ := build_ok h
  obtain ⟨-, c2, c3, c4, c5, -⟩ := fileCooling_rated hc
  have hR := built_rated h ht
  obtain ⟨⟨q, hq, hq0⟩, -⟩ := cooling_returns F hR hS hB h3 (fileAir _) hM hi c2 c3 c4 (by simp) c5 (by simp)
  exact ⟨1, sample_shr h hi hc hq hq0⟩

theorem heating_off {brentq : Brentq} {a : Args} {B : Built} {st0 : Staging} (h : build units env tools brentq a = .ok B)
    (h0 : stagingOf (numberOfSpeeds (a.heating.map NumArg.num) a.staging) a.staging = .ok st0) : B.heatingOff = DX.offTemperature a.heatingOff st0 := by
  obtain ⟨_, _, _, _, _, _, h1, -, -, -, h2, -⟩ := build_ok h
  rw [h0] at h1; cases h1
  exact h2

/-- Other inputs of the writer. -/
theorem context : ∃ X : FileContext, (∀ l, IsArgsort l (X.argsort l)) ∧ ∀ c, ∃ x, X.timeFraction c = .ok x := by
  obtain ⟨argsort, harg⟩ := isArgsort_satisfiable
  exact ⟨{ argsort, timeFraction := fun _ => .ok 0.06, setpoint := frF 50 }, harg, fun _ => ⟨_, rfl⟩⟩

/-- C114: the file of the single-stage unit. -/
theorem one_file {brentq : Brentq} (hbr : BrentqSpec brentq) {X : FileContext} (harg : ∀ l, IsArgsort l (X.argsort l)) (hX : ∀ c, ∃ x, X.timeFraction c = .ok x) :
    ∃ B net, build units env tools brentq oneArgs = .ok B ∧ Made units env oneArgs .single net [10000] [10000] B ∧
      ∀ fmt calls o, ∃ s, (B.writeIdf units env tools brentq X fmt o (after units env tools brentq B calls)).1 = .ok s := by
  obtain ⟨d, hd, hs⟩ := of_check (x := makeSingleSpeed unitsQ 10000 14 12 10000 (some 6500) 8 (frF 125) (frF 0) (some 3.2) 0.15)
    (p := fun d => soundB .single d [10000] [10000] && fileB .single d [10000] [10000] 0) (by decide +kernel)
  rw [Bool.and_eq_true] at hs
  have hm : makeSingleSpeed units 10000 14 12 10000 (some 6500) 8 (frF 125) (frF 0) (some 3.2) 0.15 = .ok (pT φ d) := by
    have := makeSingleSpeed_map φ_mono units_btuh 10000 14 12 10000 (some 6500) 8 (frF 125) (frF 0) (some 3.2) 0.15
    rw [hd] at this
    refine Eq.trans ?_ this
    congr 1 <;> norm_num [frF_cast]
  have hS := sound_of (st := .single) (single_rated hm) hs.1
  have hF := file_of (st := .single) hs.2
  simp only [List.map, Rat.coe_castHom, Rat.cast_ofNat, Rat.cast_zero] at hS hF
  obtain ⟨B, h, hB⟩ := C90_ratings (a := oneArgs) (brentq := brentq) rfl rfl (q47 := 10000) rfl (by simpa [netTables, oneArgs, number, pyNum, inputEer, hspfFor, bind_ok, cd, DX.offTemperature] using hm) hS
    (surroundings hbr rfl rfl rfl rfl rfl (by simp))
  have hoff : B.heatingOff = frF 0 := heating_off (st0 := .single) h rfl
  exact ⟨B, _, h, hB, sample_written hbr harg hX h hB rfl rfl rfl rfl rfl hS.sizes (hoff ▸ hF)⟩

/-- C114: the file of the variable-speed unit. -/
theorem var_file {brentq : Brentq} (hbr : BrentqSpec brentq) {X : FileContext} (harg : ∀ l, IsArgsort l (X.argsort l)) (hX : ∀ c, ∃ x, X.timeFraction c = .ok x) :
    ∃ B, build units env tools brentq varArgs = .ok B ∧ ∀ fmt calls o, ∃ s, (B.writeIdf units env tools brentq X fmt o (after units env tools brentq B calls)).1 = .ok s := by
  obtain ⟨d, hd, hs⟩ := of_check (x := makeNeepStatistical unitsQ 10000 18 12 10000 (some 6890) 9 (frF 125) (frF (-20)) (some 0.3) (some 4) (some 3.2))
    (p := fun d => soundB .varSpeed d [5000000 / 467, 10000, 3085000 / 467, 1500000 / 467] [2500000 / 227, 10000, 1475000 / 227, 680000 / 227] &&
      fileB .varSpeed d [5000000 / 467, 10000, 3085000 / 467, 1500000 / 467] [2500000 / 227, 10000, 1475000 / 227, 680000 / 227] (-20)) (by decide +kernel)
  rw [Bool.and_eq_true] at hs
  have hm : makeNeepStatistical units 10000 18 12 10000 (some 6890) 9 (frF 125) (frF (-20)) (some 0.3) (some 4) (some 3.2) = .ok (pT φ d) := by
    have := makeNeepStatistical_map φ_mono units_btuh 10000 18 12 10000 (some 6890) 9 (frF 125) (frF (-20)) (some 0.3) (some 4) (some 3.2)
    rw [hd] at this
    refine Eq.trans ?_ this
    congr 1 <;> norm_num [frF_cast]
  have hS := sound_of (st := .varSpeed) (variable_rated hm) hs.1
  have hF := file_of (st := .varSpeed) hs.2
  simp only [List.map, Rat.coe_castHom, Rat.cast_ofNat, Rat.cast_div, Rat.cast_neg] at hS hF
  obtain ⟨B, h, hB⟩ := C90_ratings (a := varArgs) (brentq := brentq) rfl rfl (q47 := 10000) rfl
    (by simpa [netTables, varArgs, number, pyNum, inputEer, hspfFor, bind_ok, seerFor, cd, DX.offTemperature] using hm) hS (surroundings hbr rfl rfl rfl rfl rfl (by simp))
  have hoff : B.heatingOff = frF (-20) := heating_off (st0 := .varSpeed) h rfl
  exact ⟨B, h, sample_written hbr harg hX h hB rfl rfl rfl rfl rfl hS.sizes (hoff ▸ hF)⟩

example : ∃ brentq X B, build units env tools brentq oneArgs = .ok B ∧ ∀ fmt calls o, ∃ s, (B.writeIdf units env tools brentq X fmt o (after units env tools brentq B calls)).1 = .ok s := by
  obtain ⟨brentq, hbr⟩ := brentqSpec_satisfiable
  obtain ⟨X, harg, hX⟩ := context
  obtain ⟨B, _, h, -, hw⟩ := one_file hbr harg hX
  exact ⟨brentq, X, B, h, hw⟩

example : ∃ brentq X B, build units env tools brentq varArgs = .ok B ∧ ∀ fmt calls o, ∃ s, (B.writeIdf units env tools brentq X fmt o (after units env tools brentq B calls)).1 = .ok s := by
  obtain ⟨brentq, hbr⟩ := brentqSpec_satisfiable
  obtain ⟨X, harg, hX⟩ := context
  obtain ⟨B, h, hw⟩ := var_file hbr harg hX
  exact ⟨brentq, X, B, h, hw⟩

/-- C113: the single-stage unit's file has one cooling and one heating group with the rated 10 kW, before and after the fan power. -/
example (fmt : ℝ → Nat → String) (name : Option String) (type : SystemType) (autosize normalize : Bool) : ∃ brentq X B objs, build units env tools brentq oneArgs = .ok B ∧
    idfObjects fmt name type autosize normalize (B.idf units env tools brentq X none) = .ok objs ∧
    ∃ coil ∈ objs, ∃ groups, coil.cls = "Coil:Cooling:DX:VariableSpeed" ∧ speedGroups coil 21 groups ∧ groups.length = 1 := by
  obtain ⟨brentq, hbr⟩ := brentqSpec_satisfiable
  obtain ⟨X, harg, hX⟩ := context
  obtain ⟨B, _, h, hB, hw⟩ := one_file hbr harg hX
  obtain ⟨s, hs⟩ := hw fmt [] ⟨name, type, autosize, normalize⟩
  have hs' : Idf.writeIdf fmt name type autosize normalize (B.idf units env tools brentq X none) = .ok s := by rw [← hs]; exact (fresh_file ⟨name, type, autosize, normalize⟩).symm
  simp only [Idf.writeIdf, bind_eq_ok] at hs'
  obtain ⟨objs, ho, -⟩ := hs'
  obtain ⟨_, coil, groups, g1, g2, g3, g4, -⟩ := C113_cooling h (fun d hd => by cases hd) rfl (fun i hi => by
    have hi' : i < 1 := by rw [hB.staging] at hi; exact hi
    obtain rfl : i = 0 := by omega
    obtain ⟨w, hw, w0, -⟩ := hB.grossCool 0 10000 rfl
    exact ⟨_, hw, by linarith⟩) ho
  exact ⟨brentq, X, B, objs, h, ho, coil, g1, groups, g2, g3, by rw [g4, hB.staging]; rfl⟩

end Resdx.Sample
