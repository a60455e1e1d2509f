import Verif.Model.Metadata
import Mathlib.Algebra.Order.Ring.Rat

/-!
# C118: what the metadata of an ASHRAE 205 representation say
-/

set_option linter.unusedSectionVars false
set_option linter.unusedSimpArgs false

namespace Resdx.Props

open Resdx.Rep205

variable {K : Type} (fmt : Formats K) (H : Hashes)

/-- A description made by the code is not empty. -/
theorem fanText_length (kind : FanClass) (a e p : K) : (fanText fmt kind a e p).length ≠ 0 := by
  have : " cfm ".length = 5 := by decide
  simp only [fanText, String.length_append, this]
  omega

/-- What generating a representation of a fan leaves behind and returns. -/
theorem fanParts_run (now : String) (before after : Py Unit) (F : Described K) (m : FanMetadata) :
    (fanParts fmt H now before after F m).2.uuidSeed = some (m.uuidSeed.getD H.fan) ∧
    (fanParts fmt H now before after F m).2.dataSource = m.dataSource ∧
    (fanParts fmt H now before after F m).2.notes = m.notes ∧
    (fanParts fmt H now before after F m).2.dataVersion = m.dataVersion ∧
    (m.description.length ≠ 0 → (fanParts fmt H now before after F m).2.description = m.description) ∧
    ∀ r, (fanParts fmt H now before after F m).1 = .ok r →
      r.1 = ⟨"RS0003", (fanParts fmt H now before after F m).2.description, H.uuidOfInt (m.uuidSeed.getD H.fan), now ++ "Z", m.dataVersion, m.dataSource, notesKey m.notes⟩ ∧
      r.2 = ⟨"RS0005", "Placeholder motor representation (performance characterized in parent RS0003 fan assembly)",
        H.uuidOfStr (H.uuidOfInt (m.uuidSeed.getD H.fan)), now ++ "Z", m.dataVersion, m.dataSource, none⟩ ∧
      (m.description.length = 0 → ∃ a e p, F.airflow.head? = some a ∧ firstOrScalar F.efficacy = .ok e ∧ firstOrScalar F.pressure = .ok p ∧
        r.1.description = fanText fmt F.kind a e p) := by
  obtain ⟨d, src, notes, seed, ver⟩ := m
  obtain ⟨kind, air, eff, pr⟩ := F
  cases hair : air with
  | nil =>
    cases seed <;> cases before <;>
      simp [fanParts, PyM.bind_run, PyM.get_run, PyM.modify_run, PyM.lift_run, PyM.pure_run, PyM.liftM_run, PyM.monadLift_run, pyNum, pyGet]
  | cons a as =>
    cases seed <;> cases before <;> cases he : firstOrScalar eff <;> cases hp : firstOrScalar pr <;> by_cases hd : d = "" <;> cases after <;>
      simp [fanParts, PyM.bind_run, PyM.get_run, PyM.modify_run, PyM.lift_run, PyM.pure_run, PyM.liftM_run, PyM.monadLift_run, pyNum, pyGet, he, hp, hd]

/-- The events of a history keep the given fields, and a description that is not empty. -/
theorem fanHistory_state (es : List (FanEvent K)) (F : Described K) (m : FanMetadata) :
    (fanHistory fmt H es (F, m)).2.2.dataSource = m.dataSource ∧ (fanHistory fmt H es (F, m)).2.2.notes = m.notes ∧
    (fanHistory fmt H es (F, m)).2.2.dataVersion = m.dataVersion ∧
    (m.description.length ≠ 0 → (fanHistory fmt H es (F, m)).2.2.description = m.description) ∧
    (∀ v, m.uuidSeed = some v → (fanHistory fmt H es (F, m)).2.2.uuidSeed = some v) ∧
    ∀ p ∈ (fanHistory fmt H es (F, m)).1, p.schema = "RS0003" ∧ p.dataSource = m.dataSource ∧ p.notes = notesKey m.notes ∧ p.dataVersion = m.dataVersion ∧
      p.id = H.uuidOfInt (m.uuidSeed.getD H.fan) ∧ (m.description.length ≠ 0 → p.description = m.description) := by
  induction es generalizing F m with
  | nil => simp [fanHistory]
  | cons e es ih =>
    cases e with
    | change f =>
      have := ih (f F) m
      simpa [fanHistory, fanEvent] using this
    | represent now before after =>
      obtain ⟨h1, h2, h3, h4, h5, h6⟩ := fanParts_run fmt H now before after F m
      rcases hr : fanParts fmt H now before after F m with ⟨r, m'⟩
      rw [hr] at h1 h2 h3 h4 h5 h6
      simp only at h1 h2 h3 h4 h5 h6
      obtain ⟨i1, i2, i3, i4, i5, i6⟩ := ih F m'
      obtain ⟨o, ho, heq⟩ : ∃ o : List Part, (∀ p ∈ o, p.schema = "RS0003" ∧ p.dataSource = m.dataSource ∧ p.notes = notesKey m.notes ∧
          p.dataVersion = m.dataVersion ∧ p.id = H.uuidOfInt (m.uuidSeed.getD H.fan) ∧ (m.description.length ≠ 0 → p.description = m.description)) ∧
          fanHistory fmt H (.represent now before after :: es) (F, m) = (o ++ (fanHistory fmt H es (F, m')).1, (fanHistory fmt H es (F, m')).2) := by
        cases r with
        | error e => exact ⟨[], by simp, by simp [fanHistory, fanEvent, hr]⟩
        | ok r =>
          refine ⟨[r.1], fun p hp => ?_, by simp [fanHistory, fanEvent, hr]⟩
          rw [List.mem_singleton.mp hp, (h6 r rfl).1]
          exact ⟨rfl, rfl, rfl, rfl, rfl, h5⟩
      rw [heq]
      refine ⟨i1.trans h2, i2.trans h3, i3.trans h4, fun hd => (i4 (by rw [h5 hd]; exact hd)).trans (h5 hd),
        fun v hv => i5 v (by rw [h1, hv]; rfl), fun p hp => ?_⟩
      rcases List.mem_append.mp hp with hp | hp
      · exact ho p hp
      · obtain ⟨j0, j1, j2, j3, j4, j5⟩ := i6 p hp
        refine ⟨j0, j1.trans h2, by rw [j2, h3], j3.trans h4, by rw [j4, h1]; rfl, fun hd => (j5 (by rw [h5 hd]; exact hd)).trans (h5 hd)⟩

/-- C118: whatever happens to a fan, every representation generated of it names the data source and version of its metadata, has notes exactly if they are not empty, carries
the same identifier, and has the description that was given, if one was. -/
theorem C118_given (es : List (FanEvent K)) (F : Described K) (m : FanMetadata) (p : Part) (hp : p ∈ (fanHistory fmt H es (F, m)).1) :
    p.dataSource = m.dataSource ∧ p.dataVersion = m.dataVersion ∧ (p.notes = none ↔ m.notes = "") ∧ (∀ t, p.notes = some t → t = m.notes) ∧
    p.id = H.uuidOfInt (m.uuidSeed.getD H.fan) ∧ (m.description ≠ "" → p.description = m.description) := by
  obtain ⟨-, h1, h2, h3, h4, h5⟩ := (fanHistory_state fmt H es F m).2.2.2.2.2 p hp
  have hl : ∀ s : String, s.length = 0 ↔ s = "" := fun s => by simp
  refine ⟨h1, h3, ?_, ?_, h4, fun hd => h5 (fun h => hd ((hl _).mp h))⟩
  · rw [h2]; unfold notesKey
    split <;> rename_i h
    · simp only [reduceCtorEq, false_iff]; intro h0; rw [h0] at h; exact absurd h (by decide)
    · simp only [true_iff]; exact (hl _).mp (by omega)
  · intro t ht; rw [h2] at ht; unfold notesKey at ht
    split at ht <;> simp_all

/-- C118: the first representation of a fan without a description describes the fan as it is then: the design airflow of its first speed, its class and its design efficacy and
pressure. -/
theorem C118_described (now : String) (before after : Py Unit) (F : Described K) (m : FanMetadata) (hm : m.description = "") (r : Part × Part)
    (hr : (fanParts fmt H now before after F m).1 = .ok r) :
    ∃ a e p, F.airflow.head? = some a ∧ firstOrScalar F.efficacy = .ok e ∧ firstOrScalar F.pressure = .ok p ∧
      r.1.description = fmt.airflow a ++ " cfm " ++ className F.kind ++ " (" ++ fmt.efficacy e ++ " W/cfm @ " ++ fmt.pressure p ++ " in. H2O)" := by
  obtain ⟨-, -, -, -, -, h⟩ := fanParts_run fmt H now before after F m
  exact (h r hr).2.2 (by rw [hm]; decide)

/-- C118: once a representation of a fan has been generated, every later one has the same description and identifier, whatever happens to the fan in between. -/
theorem C118_frozen (now : String) (before after : Py Unit) (F F' : Described K) (m : FanMetadata) (r : Part × Part) (es : List (FanEvent K)) (p : Part)
    (hr : (fanParts fmt H now before after F m).1 = .ok r) (hp : p ∈ (fanHistory fmt H es (F', (fanParts fmt H now before after F m).2)).1) :
    p.description = r.1.description ∧ p.id = r.1.id := by
  obtain ⟨h1, -, -, -, h5, h6⟩ := fanParts_run fmt H now before after F m
  obtain ⟨k1, -, k3⟩ := h6 r hr
  obtain ⟨-, -, -, -, j4, j5⟩ := (fanHistory_state fmt H es F' _).2.2.2.2.2 p hp
  have hne : (fanParts fmt H now before after F m).2.description.length ≠ 0 := by
    by_cases hd : m.description.length = 0
    · obtain ⟨a, e, p, -, -, -, ht⟩ := k3 hd
      rw [k1] at ht
      simp only at ht
      rw [ht]; exact fanText_length fmt F.kind a e p
    · rw [h5 hd]; exact hd
  refine ⟨by rw [j5 hne, k1], by rw [j4, h1, k1]; rfl⟩

/-- C118: the four parts of a representation of a unit: the whole and the coil carry the source and version of the unit, the description given for the unit is used even if it is empty,
only the whole and the fan have notes. -/
theorem C118_unit (now coilText : String) (m : UnitMetadata) (coil fan : String) :
    (unitParts H now coilText m coil fan).1.description = m.description ∧ (unitParts H now coilText m coil fan).2.description = coilText ∧
    (∀ p ∈ [(unitParts H now coilText m coil fan).1, (unitParts H now coilText m coil fan).2], p.dataSource = m.dataSource ∧ p.dataVersion = m.dataVersion) ∧
    ((unitParts H now coilText m coil fan).1.notes = none ↔ m.notes = "") ∧ (unitParts H now coilText m coil fan).2.notes = none := by
  refine ⟨rfl, rfl, by simp [unitParts], ?_, rfl⟩
  have hl : m.notes.length = 0 ↔ m.notes = "" := by simp
  simp only [unitParts, notesKey]
  split <;> rename_i h
  · simp only [reduceCtorEq, false_iff]; intro h0; rw [h0] at h; exact absurd h (by decide)
  · simp only [true_iff]; exact hl.mp (by omega)

/-! ### A fan whose first speed is removed -/

/-- Number formats for the example. -/
def plainFormats : Formats ℚ := ⟨fun q => toString q.num, fun q => toString q.num, fun q => toString q.num⟩

/-- Identifiers for the example. -/
def plainHashes : Hashes := { uuidOfInt := fun i => toString i, uuidOfStr := fun s => "m" ++ s, unit := 7, fan := 8, pair := fun _ _ => 9 }

/-- A fan with two speeds. -/
def twoSpeedFan : Described ℚ := ⟨.psc, [1200, 800], .num 1, .num 2⟩

/-- C118 (false of the code: a description made by the code is not updated): the description of a generated representation need not be that of the fan at that time. Generate a
representation, remove the first speed, generate another: it still names the airflow of the removed speed. -/
theorem C118_refuted :
    ¬ ∀ (es : List (FanEvent ℚ)) (F : Described ℚ) (now : String) (F' : Described ℚ) (m' : FanMetadata) (r : Part × Part),
      (fanHistory plainFormats plainHashes es (F, {})).2 = (F', m') → (fanParts plainFormats plainHashes now (.ok ()) (.ok ()) F' m').1 = .ok r →
      ∃ a e p, F'.airflow.head? = some a ∧ firstOrScalar F'.efficacy = .ok e ∧ firstOrScalar F'.pressure = .ok p ∧
        r.1.description = fanText plainFormats F'.kind a e p := by
  intro h
  obtain ⟨a, e, p, h1, h2, h3, h4⟩ := h [.represent "t" (.ok ()) (.ok ()), .change fun F => { F with airflow := F.airflow.eraseIdx 0 }] twoSpeedFan "t"
    ⟨.psc, [800], .num 1, .num 2⟩ { description := "1200 cfm Permanent Split Capacitor (PSC) fan (1 W/cfm @ 2 in. H2O)", uuidSeed := some 8 } _ (by rfl) (by rfl)
  simp only [List.head?_cons, Option.some.injEq, firstOrScalar, Except.ok.injEq] at h1 h2 h3
  subst h1 h2 h3
  revert h4
  decide +kernel

/-- The hypotheses of `C118_given`, `C118_described` and `C118_frozen` are met by this fan: three events, two parts with the same text. -/
example : ((fanHistory plainFormats plainHashes [.represent "t" (.ok ()) (.ok ()), .change fun F => { F with airflow := F.airflow.eraseIdx 0 },
    .represent "u" (.ok ()) (.ok ())] (twoSpeedFan, {})).1.map fun p => (p.description, p.timestamp, p.notes)) =
    [("1200 cfm Permanent Split Capacitor (PSC) fan (1 W/cfm @ 2 in. H2O)", "tZ", none),
     ("1200 cfm Permanent Split Capacitor (PSC) fan (1 W/cfm @ 2 in. H2O)", "uZ", none)] := by decide +kernel

end Resdx.Props
