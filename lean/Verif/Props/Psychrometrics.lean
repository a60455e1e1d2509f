import Verif.Lemmas.Psychrometrics
import Mathlib.Algebra.Order.Ring.Rat

/-! # Properties C05–C08: `PsychState` -/

set_option linter.unusedSectionVars false

namespace Resdx.Props

open Psych

variable {K : Type} [Field K]

/-- A concrete set of correlations for examples: humidity ratio and relative humidity differ. -/
def demoLib : PsychLib ℚ where
  humRatioFromTWetBulb db wb _ := .ok ((wb - db / 2) / 1000)
  tWetBulbFromHumRatio db w _ := .ok (w * 1000 + db / 2)
  tWetBulbFromRelHum db rh _ := .ok (db * rh)
  moistAirEnthalpy db w := .ok (1006 * db + 2501000 * w)
  humRatioFromEnthalpyAndTDryBulb h db := .ok ((h - 1006 * db) / 2501000)
  moistAirDensity db w p := .ok (p / (db + 300) * (1 - w))
  relHumFromTWetBulb db wb _ := .ok (wb / db)

/-! ## C05 -/

/-- C05: what a read returns (value or exception) is the same before and after any sequence of reads. -/
theorem C05_reads_are_pure (lib : PsychLib K) (db p : K) (kw : List (String × K)) (s : PsychState K)
    (h : init lib db p kw = .ok s) (history : List Read) (r : Read) :
    (read lib r (afterReads lib history s)).1 = (read lib r s).1 := by
  have hs := init_WF lib db p kw s h
  obtain ⟨h1, h2⟩ := afterReads_spec lib history s hs
  rw [(read_spec lib _ h1 r).1, (read_spec lib _ hs r).1, h2 r]

/-- C05: for a state built from a wet bulb, after any read history, each read returns the correlation applied to the
constructor's inputs. -/
theorem C05_reads_from_wetbulb (lib : PsychLib K) (db p wb : K) (s : PsychState K)
    (h : init lib db p [("wetbulb", wb)] = .ok s) (history : List Read) :
    let s' := afterReads lib history s
    (read lib .db s').1 = .ok db ∧ (read lib .dbC s').1 = .ok (toC db) ∧ (read lib .p s').1 = .ok p ∧
    (read lib .wb s').1 = .ok wb ∧ (read lib .wbC s').1 = .ok (toC wb) ∧
    (read lib .hr s').1 = lib.humRatioFromTWetBulb (toC db) (toC wb) p ∧
    (read lib .h s').1 = (do
      let w ← lib.humRatioFromTWetBulb (toC db) (toC wb) p
      lib.moistAirEnthalpy (toC db) w) ∧
    (read lib .rho s').1 = (do
      let w ← lib.humRatioFromTWetBulb (toC db) (toC wb) p
      lib.moistAirDensity (toC db) w p) := by
  have hs := init_WF lib db p _ s h
  obtain ⟨h1, h2⟩ := afterReads_spec lib history s hs
  have key : ∀ r, (read lib r (afterReads lib history s)).1 = val lib s r := fun r => by
    rw [(read_spec lib _ h1 r).1, h2 r]
  rw [init_wetbulb] at h
  cases h
  simp only [key]
  exact ⟨rfl, rfl, rfl, rfl, rfl, rfl, rfl, rfl⟩

/-- C05: for a state built from a humidity ratio, a relative humidity or an enthalpy the derived reads are determined by
the constructor's inputs as well. -/
theorem C05_reads_from_others (lib : PsychLib K) (db p v : K) (s : PsychState K) (history : List Read) :
    let s' := afterReads lib history s
    (init lib db p [("hum_rat", v)] = .ok s →
      (read lib .wb s').1 = (do return frC (← lib.tWetBulbFromHumRatio (toC db) v p)) ∧
      (read lib .hr s').1 = .ok v ∧
      (read lib .h s').1 = lib.moistAirEnthalpy (toC db) v ∧
      (read lib .rho s').1 = lib.moistAirDensity (toC db) v p) ∧
    (init lib db p [("rel_hum", v)] = .ok s →
      (read lib .wb s').1 = (do return frC (← lib.tWetBulbFromRelHum (toC db) v p)) ∧
      (read lib .hr s').1 = (do
        let w ← lib.tWetBulbFromRelHum (toC db) v p
        lib.humRatioFromTWetBulb (toC db) (toC (frC w)) p)) ∧
    (init lib db p [("enthalpy", v)] = .ok s →
      (read lib .hr s').1 = lib.humRatioFromEnthalpyAndTDryBulb v (toC db) ∧
      (read lib .wb s').1 = (do
        let w ← lib.humRatioFromEnthalpyAndTDryBulb v (toC db)
        return frC (← lib.tWetBulbFromHumRatio (toC db) w p))) := by
  have key : ∀ kw, init lib db p kw = .ok s →
      ∀ r, (read lib r (afterReads lib history s)).1 = val lib s r := fun kw h r => by
    obtain ⟨h1, h2⟩ := afterReads_spec lib history s (init_WF lib db p kw s h)
    rw [(read_spec lib _ h1 r).1, h2 r]
  refine ⟨fun h => ?_, fun h => ?_, fun h => ?_⟩
  · simp only [key _ h]
    rw [init_humRat] at h
    obtain ⟨w, hw, h⟩ := (bind_eq_ok _ _ _).1 h
    cases h
    simp [val, valHr, hw, bind_ok, pure_eq_ok, blank]
  · simp only [key _ h]
    rw [init_relHum] at h
    obtain ⟨w, hw, h⟩ := (bind_eq_ok _ _ _).1 h
    cases h
    simp [val, valHr, hw, bind_ok, pure_eq_ok, blank]
  · simp only [key _ h]
    rw [init_enthalpy] at h
    obtain ⟨x, hx, h⟩ := (bind_eq_ok _ _ _).1 h
    obtain ⟨w, hw, h⟩ := (bind_eq_ok _ _ _).1 h
    cases h
    simp [val, valHr, hw, hx, bind_ok, pure_eq_ok]

example : ∃ s, init demoLib 300 101325 [("wetbulb", 290)] = .ok s := ⟨_, rfl⟩
example : ∃ s, init demoLib 300 101325 [("hum_rat", 1 / 100)] = .ok s := ⟨_, rfl⟩
example : ∃ s, init demoLib 300 101325 [("rel_hum", 1 / 2)] = .ok s := ⟨_, rfl⟩
example : ∃ s, init demoLib 300 101325 [("enthalpy", 50000)] = .ok s := ⟨_, rfl⟩

/-! ## C06 -/

/-- C06: construction succeeds only with exactly one keyword, one of the four humidity inputs; every other
keyword dictionary raises `RuntimeError`. -/
theorem C06_constructor_rejects (lib : PsychLib K) (db p : K) (kw : List (String × K))
    (h : ¬ ∃ k v, kw = [(k, v)] ∧ k ∈ ["wetbulb", "hum_rat", "rel_hum", "enthalpy"]) :
    init lib db p kw = .error .runtime := by
  match kw, h with
  | [], _ => rfl
  | [(k, v)], h =>
    refine init_other lib db p v k fun hk => h ⟨k, v, rfl, hk⟩
  | _ :: _ :: _, _ => exact init_many _ _ _ _ (by simp)

/-- C06: with one known keyword construction succeeds whenever the correlation it needs does. -/
theorem C06_constructor_accepts (lib : PsychLib K) (db p v : K) :
    (∃ s, init lib db p [("wetbulb", v)] = .ok s) ∧
    ((∃ s, init lib db p [("hum_rat", v)] = .ok s) ↔
      ∃ w, lib.tWetBulbFromHumRatio (toC db) v p = .ok w) ∧
    ((∃ s, init lib db p [("rel_hum", v)] = .ok s) ↔
      ∃ w, lib.tWetBulbFromRelHum (toC db) v p = .ok w) ∧
    ((∃ s, init lib db p [("enthalpy", v)] = .ok s) ↔
      ∃ x w, lib.humRatioFromEnthalpyAndTDryBulb v (toC db) = .ok x ∧
        lib.tWetBulbFromHumRatio (toC db) x p = .ok w) := by
  refine ⟨⟨_, rfl⟩, ?_, ?_, ?_⟩
  · simp [init_humRat, bind_eq_ok]
  · simp [init_relHum, bind_eq_ok]
  · simp [init_enthalpy, bind_eq_ok]

/-- The read corresponding to a constructor keyword. -/
def readOf : String → Read
  | "wetbulb" => .wb
  | "hum_rat" => .hr
  | "rel_hum" => .rh
  | _ => .h

/-- C06: reading the supplied quantity returns the supplied value, whatever was read before. -/
theorem C06_supplied_value_is_read_back (lib : PsychLib K) (db p v : K) (k : String) (s : PsychState K)
    (h : init lib db p [(k, v)] = .ok s) (history : List Read) :
    (read lib (readOf k) (afterReads lib history s)).1 = .ok v := by
  rw [C05_reads_are_pure lib db p _ s h]
  have hs := init_WF lib db p _ s h
  rw [(read_spec lib _ hs _).1]
  obtain ⟨k', v', hkw, hk⟩ := init_cases lib db p _ s h
  cases hkw
  simp only [List.mem_cons, List.not_mem_nil, or_false] at hk
  rcases hk with rfl | rfl | rfl | rfl
  · rw [init_wetbulb] at h; cases h; rfl
  · rw [init_humRat] at h
    obtain ⟨w, _, h⟩ := (bind_eq_ok _ _ _).1 h
    cases h; rfl
  · rw [init_relHum] at h
    obtain ⟨w, _, h⟩ := (bind_eq_ok _ _ _).1 h
    cases h; rfl
  · rw [init_enthalpy] at h
    obtain ⟨w, _, h⟩ := (bind_eq_ok _ _ _).1 h
    obtain ⟨x, _, h⟩ := (bind_eq_ok _ _ _).1 h
    cases h; rfl

example : ¬ ∃ k v, [("wetbulb", (1 : ℚ)), ("rel_hum", 2)] = [(k, v)] ∧
    k ∈ ["wetbulb", "hum_rat", "rel_hum", "enthalpy"] := by simp

/-! ## C07 -/

/-- C07 (what the code does): on a state built from a wet bulb, a humidity ratio or an enthalpy, reading `rh` returns the
*humidity ratio* correlation at the state's wet bulb, never the relative humidity. -/
theorem C07_rh_reads_humidity_ratio (lib : PsychLib K) (db p v : K) (k : String) (s : PsychState K)
    (hk : k ≠ "rel_hum") (h : init lib db p [(k, v)] = .ok s) (history : List Read) :
    (read lib .rh (afterReads lib history s)).1 = (do
      let wbC ← (read lib .wbC s).1
      lib.humRatioFromTWetBulb (toC db) wbC p) := by
  rw [C05_reads_are_pure lib db p _ s h]
  have hs := init_WF lib db p _ s h
  rw [(read_spec lib _ hs _).1, (read_spec lib _ hs _).1]
  obtain ⟨k', v', hkw, hk'⟩ := init_cases lib db p _ s h
  cases hkw
  simp only [List.mem_cons, List.not_mem_nil, or_false] at hk'
  rcases hk' with rfl | rfl | rfl | rfl
  · rw [init_wetbulb] at h; cases h; rfl
  · rw [init_humRat] at h
    obtain ⟨w, _, h⟩ := (bind_eq_ok _ _ _).1 h
    cases h; rfl
  · exact absurd rfl hk
  · rw [init_enthalpy] at h
    obtain ⟨w, _, h⟩ := (bind_eq_ok _ _ _).1 h
    obtain ⟨x, _, h⟩ := (bind_eq_ok _ _ _).1 h
    cases h; rfl

/-- C07 (the claim is false of the code): some state reads something other than its relative humidity. -/
theorem C07_refuted :
    ¬ ∀ (lib : PsychLib ℚ) (db p wb : ℚ) (s : PsychState ℚ), init lib db p [("wetbulb", wb)] = .ok s →
      (read lib .rh s).1 = lib.relHumFromTWetBulb (toC db) (toC wb) p := by
  intro h
  have := h demoLib 300 101325 290 _ rfl
  revert this
  decide +kernel

/-- C07 (the part that holds): a state built from a relative humidity reads it back. The missing part is `rh` of a state
built from any other humidity input. -/
theorem C07_rh_partial (lib : PsychLib K) (db p rh : K) (s : PsychState K)
    (h : init lib db p [("rel_hum", rh)] = .ok s) (history : List Read) :
    (read lib .rh (afterReads lib history s)).1 = .ok rh :=
  C06_supplied_value_is_read_back lib db p rh "rel_hum" s h history

/-! ## C08 -/

/-- C08 (what the code does): once the humidity ratio has been read or assigned, assigning a new wet bulb leaves humidity
ratio, enthalpy and density reads at the old air state. -/
theorem C08_stale_after_setWb (lib : PsychLib K) (s : PsychState K) (hr wb : K) (hc : s.hr = some hr) :
    let s' := (setWb wb s).2
    (read lib .wb s').1 = .ok wb ∧
    (read lib .hr s').1 = .ok hr ∧
    (read lib .h s').1 = (read lib .h s).1 ∧ (read lib .rho s').1 = (read lib .rho s).1 := by
  obtain ⟨db, dbC, p, wb0, wbC, hr', rh, h, rho⟩ := s
  simp only at hc
  subst hc
  refine ⟨rfl, rfl, ?_, ?_⟩
  · cases h with
    | some v => rfl
    | none =>
      simp only [Psych.read, getH, PyM.bind_run, PyM.get_run, setWb, PyM.modify_run, getHr, PyM.pure_run,
        PyM.liftM_run]
      cases lib.moistAirEnthalpy dbC hr <;> rfl
  · cases rho with
    | some v => rfl
    | none =>
      simp only [Psych.read, getRho, PyM.bind_run, PyM.get_run, setWb, PyM.modify_run, getHr, PyM.pure_run,
        PyM.liftM_run]
      cases lib.moistAirDensity dbC hr p <;> rfl

/-- C08 (the claim is false of the code): build from a wet bulb, read the humidity ratio, assign another wet bulb; the next
read still returns the old humidity ratio. -/
theorem C08_refuted :
    ¬ ∀ (lib : PsychLib ℚ) (db p wb wb' : ℚ) (s : PsychState ℚ) (history : List Read),
      init lib db p [("wetbulb", wb)] = .ok s →
      (read lib .hr (setWb wb' (afterReads lib history s)).2).1
        = lib.humRatioFromTWetBulb (toC db) (toC wb') p := by
  intro h
  have := h demoLib 300 101325 290 280 _ [.hr] rfl
  revert this
  decide +kernel

/-- C08 (the part that holds): as long as humidity ratio, enthalpy and density have not been read, an assigned wet bulb is
what all later reads use. The missing part is any history that has already filled a cache. -/
theorem C08_fresh_setWb_partial (lib : PsychLib K) (s : PsychState K) (wb : K)
    (h1 : s.hr = none) (h2 : s.h = none) (h3 : s.rho = none) (history : List Read) :
    let s' := afterReads lib history (setWb wb s).2
    (read lib .wb s').1 = .ok wb ∧
    (read lib .hr s').1 = lib.humRatioFromTWetBulb s.dbC (toC wb) s.p ∧
    (read lib .h s').1 = (do
      let w ← lib.humRatioFromTWetBulb s.dbC (toC wb) s.p
      lib.moistAirEnthalpy s.dbC w) ∧
    (read lib .rho s').1 = (do
      let w ← lib.humRatioFromTWetBulb s.dbC (toC wb) s.p
      lib.moistAirDensity s.dbC w s.p) := by
  obtain ⟨db, dbC, p, wb0, wbC, hr, rh, h, rho⟩ := s
  simp only at h1 h2 h3
  subst h1 h2 h3
  have hs : WF (setWb wb ⟨db, dbC, p, wb0, wbC, none, rh, none, none⟩).2 := ⟨rfl, rfl⟩
  obtain ⟨i1, i2⟩ := afterReads_spec lib history _ hs
  have key : ∀ r, (read lib r (afterReads lib history
        (setWb wb ⟨db, dbC, p, wb0, wbC, none, rh, none, none⟩).2)).1
      = val lib (setWb wb ⟨db, dbC, p, wb0, wbC, none, rh, none, none⟩).2 r := fun r => by
    rw [(read_spec lib _ i1 r).1, i2 r]
  simp only [key]
  exact ⟨rfl, rfl, rfl, rfl⟩

example : ∃ s, init demoLib 300 101325 [("wetbulb", 290)] = .ok s ∧ s.hr = none ∧ s.h = none ∧
    s.rho = none := ⟨_, rfl, rfl, rfl, rfl⟩

end Resdx.Props
