import Verif.Props.ListStaged
import Verif.Props.RatedAir

/-!
# C110, C112, C116 with air as published

The theorems on units made from lists of capacities assume that the coil calculation returns. With the published properties of moist air (`Published`) it does.
-/

set_option linter.unusedSectionVars false
set_option linter.unusedSimpArgs false

namespace Resdx.Props

open Spec BaseModel Tabular ResnetFan Fan ListBuild DX
open Build (Published CoilReturns)

variable {u : Units ℝ} {E : Env ℝ} {T : Coil.Tools} {brentq : Brentq} {a : ListBuild.Args} {sat : ℝ → ℝ}

theorem published_coils (h : Published u E T sat) {q : ℝ} (hq : 0 < q) : ∀ t, 0 < t → t ≤ 1.2 * q → CoilReturns u E T q t :=
  fun _ t0 t1 => Build.coil_returns h.air h.newton h.flow hq t0 t1

/-- C110, with air as published: a unit with any number of speeds described by lists of capacities and COPs can be made, with either motor; the ratings of every speed are those of the arguments, with a
fan power of at most 337.2 W per ton. -/
theorem C110_published {st : Staging} {q h : List ℝ} {xc xh : ManyCop} {L : ℝ} (hP : Published u E T sat) (hbr : BrentqSpec brentq) (o : ManySpeeds a st q h xc xh) (f : ManyOwnFan a q h L) :
    ∃ B, ListBuild.build u E T brentq a = .ok B ∧ B.st = st ∧
      (∀ (i : Nat) (c : ℝ), q[i]? = some c → ∃ w, 0 < w ∧ w ≤ 337.2 / u.ton * c ∧ ManyRatings xc B.cool i c (c + w) w) ∧
      (∀ (i : Nat) (c : ℝ), h[i]? = some c → ∃ w, 0 < w ∧ w ≤ 337.2 / u.ton * c ∧ ManyRatings xh B.heat i c (c - w) w) :=
  C110_made o f hP.ton hP.indoor (fun _ => hbr) fun c hc => published_coils hP (f.sizes.1.pos c hc)

/-- C116, with air as published: a single-speed unit can be made from its capacities and COPs, and its EER, SEER and HSPF2 in every region exist. -/
theorem C116_published {q h : ℝ} {xc xh : OneCop} (hP : Published u E T sat) (hbr : BrentqSpec brentq) (o : OneSpeed a q h xc xh) (f : OwnFan a q h) (hon : a.heatingOn = none)
    (hcd : 0 ≤ Build.cd a.cdHeating) (hcd1 : Build.cd a.cdHeating < 1) {credit : ℝ} (hf : a.defrost.demandCredit u = .ok credit) :
    ∃ B x y, ListBuild.build u E T brentq a = .ok B ∧ B.eer u E T = .ok x ∧ B.seer u E T = .ok y ∧
      (a.standard = .ahri2023 → ∀ (n : Nat) (design cx cv z : ℝ) (hours : List ℝ), regionData .ahri2023 n = some (design, hours, some (cx, cv, z)) → ∃ r, B.hspf u E T n = .ok r) := by
  obtain ⟨B, hb, -, -, -, h1, h2, h3⟩ := C116_single (T := T) o f hP.ton hP.indoor (fun _ => hbr) (published_coils hP o.pos.1) rfl rfl rfl rfl rfl
  exact ⟨B, _, _, hb, h1, h2, fun hstd n design cx cv z hours hr => ⟨_, (h3 hon hcd hcd1 n design credit hours hf).1 hstd cx cv z hr⟩⟩

/-- C116, with air as published: given a net cooling COP `k`, the EER is `k` to within 10⁻⁵ if the fan motor is a PSC motor, or the cooling capacity is the larger one, or the unit has no ducts. -/
theorem C116_published_eer {q h k : ℝ} {xh : OneCop} (hP : Published u E T sat) (hbr : BrentqSpec brentq) (o : OneSpeed a q h (.net k) xh) (f : OwnFan a q h)
    (hm : a.motorPSC ≠ some false ∨ h ≤ q ∨ a.ducted = false) : ∃ B x, ListBuild.build u E T brentq a = .ok B ∧ B.eer u E T = .ok (x / u.btuh) ∧ |x - k| ≤ 1 / 10 ^ 5 * k :=
  C116_net_cop o f hm hP.ton hP.indoor (fun _ => hbr) (published_coils hP o.pos.1)

/-- The sample air and a two-stage unit meet these requirements. -/
example {brentq : Brentq} (hbr : BrentqSpec brentq) : ∃ B, ListBuild.build Sample.units Sample.moistEnv Sample.moistTools brentq stageArgs = .ok B ∧ B.st = .two := by
  obtain ⟨B, hb, hst, -⟩ := C110_published Sample.moist_published hbr stage_many stage_own
  exact ⟨B, hb, hst⟩

/-- So does a single-speed unit with a net COP of 3.5. -/
example {brentq : Brentq} (hbr : BrentqSpec brentq) : ∃ B x, ListBuild.build Sample.units Sample.moistEnv Sample.moistTools brentq pthpArgs = .ok B ∧
    B.eer Sample.units Sample.moistEnv Sample.moistTools = .ok (x / Sample.units.btuh) ∧ |x - 3.5| ≤ 1 / 10 ^ 5 * 3.5 :=
  C116_published_eer Sample.moist_published hbr pthp_one pthp_own (.inr (.inl (by norm_num)))

end Resdx.Props
