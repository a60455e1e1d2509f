import Verif.Model.Psychrometrics

set_option linter.unusedSectionVars false
set_option linter.unusedSimpArgs false

/-! # Helper lemmas for `psychrometrics.py` -/

namespace Resdx.Psych

variable {K : Type} [Field K]

/-- States in which a wet bulb is known. -/
def WF (s : PsychState K) : Prop := s.wb.isSome ∧ s.wbC.isSome

def valHr (lib : PsychLib K) (s : PsychState K) : Py K :=
  match s.hr, s.wbC with
  | some v, _ => .ok v
  | none, some w => lib.humRatioFromTWetBulb s.dbC w s.p
  | none, none => .error .runtime

/-- The value a read returns, without the cache effects. -/
def val (lib : PsychLib K) (s : PsychState K) : Read → Py K
  | .db => .ok s.db
  | .dbC => .ok s.dbC
  | .p => .ok s.p
  | .wb => match s.wb with | some v => .ok v | none => .error .runtime
  | .wbC => match s.wbC with | some v => .ok v | none => .error .runtime
  | .hr => valHr lib s
  | .rh => match s.rh, s.wbC with
    | some v, _ => .ok v
    | none, some w => lib.humRatioFromTWetBulb s.dbC w s.p
    | none, none => .error .runtime
  | .h => match s.h with
    | some v => .ok v
    | none => valHr lib s >>= fun w => lib.moistAirEnthalpy s.dbC w
  | .rho => match s.rho with
    | some v => .ok v
    | none => valHr lib s >>= fun w => lib.moistAirDensity s.dbC w s.p

theorem getHr_run (lib : PsychLib K) (s : PsychState K) (hs : WF s) :
    getHr lib s = (valHr lib s, match valHr lib s with
      | .ok v => { s with hr := some v }
      | .error _ => s) := by
  obtain ⟨db, dbC, p, wb, wbC, hr, rh, h, rho⟩ := s
  obtain ⟨h1, h2⟩ := hs
  cases wb with
  | none => simp at h1
  | some wb =>
  cases wbC with
  | none => simp at h2
  | some wbC =>
  cases hr with
  | some v => simp [getHr, valHr, PyM.bind_run, PyM.get_run, PyM.pure_run]
  | none =>
    cases e : lib.humRatioFromTWetBulb dbC wbC p <;>
      simp [getHr, valHr, PyM.bind_run, PyM.get_run, PyM.pure_run, getWbC, PyM.liftM_run, e, setHr,
        PyM.modify_run, PyM.monadLift_run]

theorem val_hr_cached (lib : PsychLib K) (s : PsychState K) (w : K) (h : valHr lib s = .ok w)
    (r : Read) : val lib { s with hr := some w } r = val lib s r := by
  have h1 : valHr lib { s with hr := some w } = .ok w := rfl
  cases r <;> simp only [val, h, h1]

theorem val_h_cached (lib : PsychLib K) (s : PsychState K) (v : K) (h : val lib s .h = .ok v)
    (r : Read) : val lib { s with h := some v } r = val lib s r := by
  cases r <;> try rfl
  rw [h]; rfl

theorem val_rho_cached (lib : PsychLib K) (s : PsychState K) (v : K) (h : val lib s .rho = .ok v)
    (r : Read) : val lib { s with rho := some v } r = val lib s r := by
  cases r <;> try rfl
  rw [h]; rfl

theorem read_spec (lib : PsychLib K) (s : PsychState K) (hs : WF s) (r : Read) :
    (read lib r s).1 = val lib s r ∧ WF (read lib r s).2 ∧
      ∀ r', val lib (read lib r s).2 r' = val lib s r' := by
  cases r
  case db => exact ⟨rfl, hs, fun _ => rfl⟩
  case dbC => exact ⟨rfl, hs, fun _ => rfl⟩
  case p => exact ⟨rfl, hs, fun _ => rfl⟩
  case wb =>
    obtain ⟨h1, h2⟩ := hs
    obtain ⟨w, hw⟩ := Option.isSome_iff_exists.1 h1
    simp [read, getWb, PyM.bind_run, PyM.get_run, hw, PyM.pure_run, val, WF, h2]
  case wbC =>
    obtain ⟨h1, h2⟩ := hs
    obtain ⟨w, hw⟩ := Option.isSome_iff_exists.1 h2
    simp [read, getWbC, PyM.bind_run, PyM.get_run, hw, PyM.pure_run, val, WF, h1]
  case hr =>
    simp only [read, getHr_run lib s hs]
    refine ⟨rfl, ?_, ?_⟩
    · split <;> exact hs
    · intro r'
      split
      · rename_i v hv
        cases r' <;> simp [val] <;> (rw [hv]; simp [valHr])
      · rfl
  case rh =>
    obtain ⟨db, dbC, p, wb, wbC, hr, rh, h, rho⟩ := s
    obtain ⟨h1, h2⟩ := hs
    cases wb with
    | none => simp at h1
    | some wb =>
    cases wbC with
    | none => simp at h2
    | some wbC =>
    cases rh with
    | some v =>
      simp [read, getRh, PyM.bind_run, PyM.get_run, PyM.pure_run, val, WF]
    | none =>
      cases e : lib.humRatioFromTWetBulb dbC wbC p
      · simp [read, getRh, PyM.bind_run, PyM.get_run, PyM.pure_run, val, WF, getWbC, PyM.liftM_run, e,
          setRh, PyM.modify_run]
      · simp only [read, getRh, PyM.bind_run, PyM.get_run, PyM.pure_run, val, WF, getWbC,
          PyM.liftM_run, e, setRh, PyM.modify_run, Option.isNone_some, if_neg, Bool.false_eq_true]
        refine ⟨rfl, ⟨rfl, rfl⟩, ?_⟩
        intro r'
        cases r' <;> simp [val, e, valHr, PyM.modify_run]
  case h =>
    cases hh : s.h with
    | some v =>
      have e : read lib .h s = (.ok v, s) := by
        simp [read, getH, PyM.bind_run, PyM.get_run, PyM.pure_run, hh]
      rw [e]
      exact ⟨by simp [val, hh], hs, fun _ => rfl⟩
    | none =>
      cases hv : valHr lib s with
      | error x =>
        have e : read lib .h s = (.error x, s) := by
          simp [read, getH, PyM.bind_run, PyM.get_run, hh, getHr_run lib s hs, hv]
        rw [e]
        exact ⟨by simp [val, hh, hv, bind_error], hs, fun _ => rfl⟩
      | ok w =>
        cases he : lib.moistAirEnthalpy s.dbC w with
        | error x =>
          have e : read lib .h s = (.error x, { s with hr := some w }) := by
            simp [read, getH, PyM.bind_run, PyM.get_run, hh, getHr_run lib s hs, hv, PyM.liftM_run, he]
          rw [e]
          exact ⟨by simp [val, hh, hv, bind_ok, he], hs, val_hr_cached lib s w hv⟩
        | ok v =>
          have e : read lib .h s = (.ok v, { s with hr := some w, h := some v }) := by
            simp [read, getH, PyM.bind_run, PyM.get_run, hh, getHr_run lib s hs, hv, PyM.liftM_run, he,
              setH, PyM.modify_run, PyM.pure_run]
          have hval : val lib s .h = .ok v := by simp [val, hh, hv, bind_ok, he]
          rw [e]
          refine ⟨hval.symm, hs, fun r' => ?_⟩
          have := val_h_cached lib { s with hr := some w } v
            ((val_hr_cached lib s w hv .h).trans hval) r'
          exact this.trans (val_hr_cached lib s w hv r')
  case rho =>
    cases hh : s.rho with
    | some v =>
      have e : read lib .rho s = (.ok v, s) := by
        simp [read, getRho, PyM.bind_run, PyM.get_run, PyM.pure_run, hh]
      rw [e]
      exact ⟨by simp [val, hh], hs, fun _ => rfl⟩
    | none =>
      cases hv : valHr lib s with
      | error x =>
        have e : read lib .rho s = (.error x, s) := by
          simp [read, getRho, PyM.bind_run, PyM.get_run, hh, getHr_run lib s hs, hv]
        rw [e]
        exact ⟨by simp [val, hh, hv, bind_error], hs, fun _ => rfl⟩
      | ok w =>
        cases he : lib.moistAirDensity s.dbC w s.p with
        | error x =>
          have e : read lib .rho s = (.error x, { s with hr := some w }) := by
            simp [read, getRho, PyM.bind_run, PyM.get_run, hh, getHr_run lib s hs, hv, PyM.liftM_run, he]
          rw [e]
          exact ⟨by simp [val, hh, hv, bind_ok, he], hs, val_hr_cached lib s w hv⟩
        | ok v =>
          have e : read lib .rho s = (.ok v, { s with hr := some w, rho := some v }) := by
            simp [read, getRho, PyM.bind_run, PyM.get_run, hh, getHr_run lib s hs, hv, PyM.liftM_run, he,
              setRho, PyM.modify_run, PyM.pure_run]
          have hval : val lib s .rho = .ok v := by simp [val, hh, hv, bind_ok, he]
          rw [e]
          refine ⟨hval.symm, hs, fun r' => ?_⟩
          have := val_rho_cached lib { s with hr := some w } v
            ((val_hr_cached lib s w hv .rho).trans hval) r'
          exact this.trans (val_hr_cached lib s w hv r')

theorem afterReads_spec (lib : PsychLib K) (rs : List Read) (s : PsychState K) (hs : WF s) :
    WF (afterReads lib rs s) ∧ ∀ r, val lib (afterReads lib rs s) r = val lib s r := by
  induction rs generalizing s with
  | nil => exact ⟨hs, fun _ => rfl⟩
  | cons r rs ih =>
    obtain ⟨_, h2, h3⟩ := read_spec lib s hs r
    obtain ⟨i1, i2⟩ := ih _ h2
    exact ⟨i1, fun r' => (i2 r').trans (h3 r')⟩

theorem init_nil (lib : PsychLib K) (db p : K) : init lib db p [] = .error .runtime := rfl

theorem init_many (lib : PsychLib K) (db p : K) (kw : List (String × K)) (h : 1 < kw.length) :
    init lib db p kw = .error .runtime := by
  simp [init, h]

theorem init_wetbulb (lib : PsychLib K) (db p v : K) :
    init lib db p [("wetbulb", v)] =
      .ok { blank db p with wb := some v, wbC := some (toC v) } := rfl

theorem init_humRat (lib : PsychLib K) (db p v : K) :
    init lib db p [("hum_rat", v)] =
      (lib.tWetBulbFromHumRatio (toC db) v p >>= fun w =>
        .ok { blank db p with wb := some (frC w), wbC := some (toC (frC w)), hr := some v }) := by
  simp only [init, List.lookup, String.reduceBEq, beq_self_eq_true, setHr, PyM.bind_run, PyM.get_run, blank,
    Option.isNone_none, if_true, PyM.liftM_run, List.length_cons, List.length_nil, gt_iff_lt,
    zero_add, lt_self_iff_false, if_false]
  cases lib.tWetBulbFromHumRatio (toC db) v p <;> rfl

theorem init_relHum (lib : PsychLib K) (db p v : K) :
    init lib db p [("rel_hum", v)] =
      (lib.tWetBulbFromRelHum (toC db) v p >>= fun w =>
        .ok { blank db p with wb := some (frC w), wbC := some (toC (frC w)), rh := some v }) := by
  simp only [init, List.lookup, String.reduceBEq, beq_self_eq_true, setRh, PyM.bind_run, PyM.get_run, blank,
    Option.isNone_none, if_true, PyM.liftM_run, List.length_cons, List.length_nil, gt_iff_lt,
    zero_add, lt_self_iff_false, if_false]
  cases lib.tWetBulbFromRelHum (toC db) v p <;> rfl

theorem init_enthalpy (lib : PsychLib K) (db p v : K) :
    init lib db p [("enthalpy", v)] =
      (lib.humRatioFromEnthalpyAndTDryBulb v (toC db) >>= fun x =>
        lib.tWetBulbFromHumRatio (toC db) x p >>= fun w =>
        .ok { blank db p with
          wb := some (frC w), wbC := some (toC (frC w)), hr := some x, h := some v }) := by
  simp only [init, List.lookup, String.reduceBEq, beq_self_eq_true, setH, PyM.bind_run, PyM.get_run, blank,
    Option.isNone_none, if_true, PyM.liftM_run, List.length_cons, List.length_nil, gt_iff_lt,
    zero_add, lt_self_iff_false, if_false]
  cases lib.humRatioFromEnthalpyAndTDryBulb v (toC db) with
  | error e => rfl
  | ok x =>
    simp only [bind_ok, setHr, PyM.bind_run, PyM.get_run, Option.isNone_none, if_true, PyM.liftM_run]
    cases lib.tWetBulbFromHumRatio (toC db) x p <;> rfl

theorem init_other (lib : PsychLib K) (db p v : K) (k : String)
    (h : k ∉ ["wetbulb", "hum_rat", "rel_hum", "enthalpy"]) :
    init lib db p [(k, v)] = .error .runtime := by
  simp only [List.mem_cons, List.not_mem_nil, or_false, not_or] at h
  obtain ⟨h1, h2, h3, h4⟩ := h
  have e1 : ("wetbulb" == k) = false := by simpa using Ne.symm h1
  have e2 : ("hum_rat" == k) = false := by simpa using Ne.symm h2
  have e3 : ("rel_hum" == k) = false := by simpa using Ne.symm h3
  have e4 : ("enthalpy" == k) = false := by simpa using Ne.symm h4
  simp [init, List.lookup, e1, e2, e3, e4, PyM.raise_run]

theorem init_cases (lib : PsychLib K) (db p : K) (kw : List (String × K)) (s : PsychState K)
    (h : init lib db p kw = .ok s) :
    ∃ k v, kw = [(k, v)] ∧ k ∈ ["wetbulb", "hum_rat", "rel_hum", "enthalpy"] := by
  match kw, h with
  | [], h => rw [init_nil] at h; cases h
  | [(k, v)], h =>
    refine ⟨k, v, rfl, ?_⟩
    by_contra hk
    rw [init_other lib db p v k hk] at h
    cases h
  | _ :: _ :: _, h => rw [init_many _ _ _ _ (by simp)] at h; cases h

theorem init_WF (lib : PsychLib K) (db p : K) (kw : List (String × K)) (s : PsychState K)
    (h : init lib db p kw = .ok s) : WF s := by
  obtain ⟨k, v, rfl, hk⟩ := init_cases lib db p kw s h
  simp only [List.mem_cons, List.not_mem_nil, or_false] at hk
  rcases hk with rfl | rfl | rfl | rfl
  · rw [init_wetbulb] at h; cases h; simp [WF]
  · rw [init_humRat] at h
    obtain ⟨w, _, h⟩ := (bind_eq_ok _ _ _).1 h
    cases h; simp [WF]
  · rw [init_relHum] at h
    obtain ⟨w, _, h⟩ := (bind_eq_ok _ _ _).1 h
    cases h; simp [WF]
  · rw [init_enthalpy] at h
    obtain ⟨w, _, h⟩ := (bind_eq_ok _ _ _).1 h
    obtain ⟨x, _, h⟩ := (bind_eq_ok _ _ _).1 h
    cases h; simp [WF]

end Resdx.Psych
