import Verif.Model.Conditions

/-! # Specification of a consistent operating condition -/

namespace Resdx.Spec

variable {K : Type} [Field K]

/-- The physical relations between the airflow attributes of a condition, given its densities:
mass flow = volumetric flow × density in both the actual and the standard description, the ratio and the per-capacity flow are
relative to the rated values, and external static pressure follows the square of the ratio. -/
structure Airflows (rhoIn rhoStd : K) (ratedESP : Option K)
    (ratedStd ratedVol ratedMass capacity vol mass std ratio perCap : K) (esp : Option K) : Prop where
  rated_std : ratedMass = ratedStd * rhoStd
  rated_vol : ratedMass = ratedVol * rhoIn
  mass_vol : mass = vol * rhoIn
  mass_std : mass = std * rhoStd
  mass_ratio : mass = ratio * ratedMass
  std_cap : std = perCap * capacity
  pressure : ∀ p, ratedESP = some p → esp = some (p * ratio * ratio)

/-- A condition object all of whose airflow attributes exist and satisfy the relations. -/
def Consistent (s : Cond.OpCond K) : Prop :=
  ∃ q rv rm cap v m std r c,
    s.ratedStdVol = some q ∧ s.ratedVol = some rv ∧ s.ratedMass = some rm ∧
    s.ratedNetCapacity = some cap ∧ s.vol = some v ∧ s.mass = some m ∧ s.stdVol = some std ∧
    s.ratio = some r ∧ s.stdVolPerCap = some c ∧
    Airflows s.rhoIn s.rhoStd s.ratedESP q rv rm cap v m std r c s.esp

end Resdx.Spec
