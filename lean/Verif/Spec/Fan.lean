import Verif.Model.Fan

/-! # Specification vocabulary for fans (C13–C24, C68, C69) -/

namespace Resdx.Spec

open Fan

/-- The objects reachable from `start` by calls of `add_speed` that return and arbitrary calls of `remove_speed` (returning or
raising) on allowed settings; `ι` is the argument type of `add_speed`. -/
inductive FanReach {σ ι : Type} (add : ι → PyM σ Unit) (remove : Int → PyM σ Unit)
    (allowed : σ → Int → Prop) (start : σ) : σ → Prop
  | start : FanReach add remove allowed start start
  | add {s s' : σ} (a : ι) (h : FanReach add remove allowed start s)
      (hret : add a s = (.ok (), s')) : FanReach add remove allowed start s'
  | remove {s s' : σ} (i : Int) (h : FanReach add remove allowed start s) (ha : allowed s i)
      (hrun : (remove i s).2 = s') : FanReach add remove allowed start s'

/-- Any setting may be removed. -/
def anySetting {σ : Type} (_ : σ) (_ : Int) : Prop := True

/-- Any setting but the first (Python index `0` or `-n`) may be removed. -/
def notFirst {σ : Type} (base : σ → Base) (s : σ) (i : Int) : Prop := i ≠ 0 ∧ i ≠ -((base s).airflow.length : Int)

/-- The base-class records are aligned. -/
def AlignedBase (b : Base) : Prop := b.n = b.airflow.length ∧ b.ratio.length = b.airflow.length

/-- All per-speed records of a PSC fan are aligned. -/
def AlignedPSC (s : PSC) : Prop :=
  AlignedBase s.base ∧ s.freeAirflow.length = s.base.airflow.length ∧ s.freeRatio.length = s.base.airflow.length ∧
  s.speedEfficacy.length = s.base.airflow.length ∧ s.blockPressure.length = s.base.airflow.length ∧
  s.freeSpeed.length = s.base.airflow.length

/-- All per-speed records of an ECM fan are aligned. -/
def AlignedECM (s : ECM) : Prop := AlignedBase s.base ∧ s.freeEfficacy.length = s.base.airflow.length

/-- All per-speed records of an EERE fan are aligned. -/
def AlignedEERE (s : EERE) : Prop := AlignedBase s.base ∧ s.freeAirflow.length = s.base.airflow.length

/-- All per-speed records of a constant-efficacy fan are aligned. -/
def AlignedConstEff (s : ConstEff) : Prop :=
  AlignedBase s.base ∧ ∃ l, s.designEfficacy = .list l ∧ l.length = s.base.airflow.length

/-- Every design airflow ratio is the design airflow over that of the first setting. -/
def RatiosRelativeToFirst (b : Base) : Prop :=
  b.ratio.length = b.airflow.length ∧
  ∀ (i : Nat) (a0 a : ℝ), b.airflow[0]? = some a0 → b.airflow[i]? = some a → b.ratio[i]? = some (a / a0)

/-- `m` sorts the positions of `l`: `numpy.argsort` (the order of equal elements is not specified). -/
def IsArgsort (l : List ℝ) (m : List Nat) : Prop :=
  m.Perm (List.range l.length) ∧ m.Pairwise fun i j => ∀ x y, l[i]? = some x → l[j]? = some y → x ≤ y

/-- What is assumed of `scipy.optimize.newton(f, guess)`: it only calls `f`, lets its exceptions through, and a returned value is a root.
`f` may act on the fan; if every returning call at state `s` restores `s`, the search as a whole does, and the root is one of `f` at `s`.
The convergence tolerance is idealised to an exact root. -/
def NewtonSpec {σ : Type} (newton : (ℝ → PyM σ ℝ) → ℝ → PyM σ ℝ) : Prop :=
  ∀ (f : ℝ → PyM σ ℝ) (guess : ℝ) (s s' : σ) (r : ℝ), (∀ x y s1, f x s = (.ok y, s1) → s1 = s) →
    newton f guess s = (.ok r, s') → s' = s ∧ f r s = (.ok 0, s)

/-- The external static pressure at which a trial airflow is rated: the system curve through the full-flow rating point. -/
noncomputable def ratedPressure (full : Option (ℝ × ℝ)) (a : ℝ) : Option ℝ := full.map fun pf => pf.1 * (a / pf.2) ^ 2

end Resdx.Spec
