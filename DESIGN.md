# Formal model of resdx: design

`/repo` (bigladder/resdx, Python) is read as text. This directory holds a Lean 4 model of it and theorems about the model.

* `properties.jsonl` – the claims, one per line.
* `MANIFEST.json` – claim → status, theorems, note (rebuilt by `tools/manifest.py`).
* `AXIOMS.md` – the axioms every theorem depends on (`tools/axioms.py`).
* `COVERAGE.md` – for every Python function the definitions that model it, or `not modelled` (`tools/coverage.py`).
* `seeded/LOG.jsonl` – the mutation tests.

## 1. Layout

* `lean/Verif/Model/*.lean`  – the model, about one file per Python module, one definition per function. Every definition cites file and
  lines; simplifications are stated in its comment or in the header of the file.
* `lean/Verif/Spec/*.lean`   – specifications written without the model's helpers (where a claim is not already expressible with ordinary
  mathematics).
* `lean/Verif/Lemmas/*.lean` – helper lemmas.
* `lean/Verif/Props/*.lean`  – the property theorems `Cnn_…`, with `example`s showing that concrete cases meet their hypotheses. A claim the
  code does not satisfy has a theorem `Cnn_…refuted` with a witness, and theorems (`_partial` or named after what the code does instead)
  for what does hold.

## 2. How Python is represented

* **Numbers.** Python floats are elements of an arbitrary linearly ordered field `K` (so a theorem holds in ℚ and in ℝ). Code using
  `exp`, `log`, `**0.5`, `**1.75`, and everything built on the fans, is modelled over ℝ. Rounding, overflow, NaN and infinities are
  not modelled: a theorem that says "equal" is about exact arithmetic.
* **Exceptions** are values: `Py α = Except PyErr α`. Division is `pdiv`, which raises `ZeroDivisionError`; list indexing raises
  `IndexError` (with Python's negative indices where an index can be negative); missing attributes, `None` in arithmetic, unbound locals
  and `math` domain errors are errors too. No theorem relies on Lean's `x / 0 = 0`. Where numpy divides (table interpolation, `argsort` input)
  a division by zero gives a non-finite value instead; those places are excluded by hypotheses or unreachable.
* **Mutable objects** are state machines `PyM σ α = σ → Py α × σ`: the state survives an exception exactly as in Python. Objects that only
  exist while a constructor runs are plain values, because an exception leaves no object.
* **Object identity** is modelled where it matters: the caller's lists in the table builders (C33), the cached `model_data` (C59),
  everything else is by value.
* **Units.** `koozie.fr_u/to_u` is a record of conversion factors `Units K` of which only positivity is assumed (temperatures: the exact
  affine °F/°C/K maps). A theorem that needs the size of a factor says so (`UsualUnits`).
* **psychrolib** (`PsychLib`, `CoilLib`) and **scipy** are parameters, i.e. arbitrary functions. What a theorem needs from them is a hypothesis:
  * `BrentqSpec brentq` – `brentq` returns a root in the bracket when the signs differ and raises `ValueError` otherwise.
  * `NewtonSpec`, `SolvesWithin ε newton` – what `newton` returns has residual zero, respectively at most `ε`, when it returns.
  * `Search` – for searches with side effects: which point is evaluated next is an arbitrary function of the values seen so far.
  * `RatedAir T p sat` – at the rated conditions psychrolib computes enthalpy, humidity ratio and relative humidity by the published moist-air
    formulas, with a saturation curve `sat` that is continuous, increasing, convex and passes published points (`Spec/RatedAir`).
  * `FindsConvexRoots newton` – `newton` returns a root of a convex function when started where it is positive, with a negative value to the left (`Spec/RatedAir`). With `RatedAir`
    this gives that the coil calculation of a rated unit returns (`C90_published`).
  * `FourDigits` – what `f"{x:.4g}"` is assumed to do: the text has no operators and reads back as a number within 1/2000 of `x` (`Spec/Formulas`).
  * `IsArgsort` – `numpy.argsort` returns a permutation that sorts.
  * `RegularGridInterpolator` is modelled itself (`Interp`), as piecewise bilinear interpolation with linear extrapolation.
  Every contract is shown to be satisfiable (`brentqSpec_satisfiable`, `Sample.exactNewton_solves`, …).

## 3. What is modelled

`COVERAGE.md` lists every function. In short:

| Python | model | left out |
|---|---|---|
| `util.py` | `Util`, `Formulas` | how one number is formatted |
| `psychrometrics.py` | `Psychrometrics` | `C_p` is a constant, `dp` unused |
| `conditions.py` | `Conditions`, `System` | – |
| `defrost.py` | `Defrost` | the `time_fraction` field is the EPRI function (`Nrel`) |
| `fan.py` | `Fan`, `FanEfficiency`, `Metadata` | the clock and the random identifier are parameters |
| `tabular_data.py` | `Tabular`, `TabularBuild` | – |
| `models/base_model.py` | `BaseModel` | – |
| `models/constant_model.py`, `carrier_defrost_model.py` | `Resnet` | – |
| `models/nrel.py` | `Nrel`, `Sensible`, `ResnetLists` | see `COVERAGE.md` |
| `models/title24.py` | `Title24` | – |
| `models/unified_resnet.py` | `Resnet`, `ResnetFan`, `ResnetBuild`, `ResnetLists` | see `COVERAGE.md` |
| `dx_unit.py` | `DXUnit`, `System`, `Ratings`, `Sensible`, `Seer`, `Hspf`, `Rep205`, `ResnetBuild`, `UnitBuild`, `CoilStates`, `Reports`, `ReportsResnet`, `Metadata` | – |
| `idf.py` | `Idf`, `IdfResnet` | number formatting is a parameter |
| `rating_solver.py` | `RatingSolver` | – |

## 4. Plan per property

| id | modelled | proof |
|----|----------|-------|
| C01–C04 | `util.py` | case analysis, list induction, algebra |
| C05–C08 | `PsychState` as a state machine with cache flags | invariant over read sequences; C07, C08 refuted |
| C09–C10 | `OperatingConditions` as a state machine with optional attributes | invariant by induction over call histories; C10 refuted |
| C11–C12 | `Defrost` | decision logic, order reasoning; C12 outside its region refuted |
| C13–C15 | `Fan` bookkeeping and every subclass's add/remove | invariant by induction over histories; `ConstantEfficacyFan` refuted |
| C16–C19 | system curve, PSC, ECM over ℝ | real analysis |
| C20–C21 | `EEREFan` | finite table and algebra; exactly 2 tons refuted |
| C22–C23 | RESNET fans over ℝ | real powers, inequality chain; bracket condition of `brentq` |
| C24, C69 | `get_speed_order_map`, fan 205 representation | permutation/sortedness, maxima |
| C25–C31 | `tabular_data.py` table class and interpolator | list induction, algebra; C29 refuted |
| C32–C33, C70, C95 | table builders | symbolic execution of the update sequence, then a closed form at every temperature |
| C34–C36, C71 | base-model COP and fan bookkeeping | list induction, algebra; C35 refuted |
| C37 | constructor index logic, array checks | decision logic |
| C38–C39 | net/gross accessors over an arbitrary model and fan | algebra |
| C40–C42 | RESNET frost model, charge factors | bounds; C41 refuted |
| C43 | bypass factor over ℝ | exp/log algebra |
| C44 | `interpolate` | algebra |
| C45, C88–C90 | whole chain from constructor arguments to ratings, RESNET units | composition, real bounds |
| C46–C49 | `seer` | per-bin refinement to a load/energy specification, then sums |
| C50–C54 | `hspf` | per-bin refinement, loop-state invariant; two-stage parts refuted |
| C55 | `HeatingDistribution`, region tables | algebra, finite tables |
| C56 | Carrier defrost | piecewise-linear bounds |
| C57–C60, C75–C80 | Title-24 defaults, caches, searches; EPRI defrost | piecewise monotonicity, cache histories; refutations |
| C61–C64, C84–C87 | `idf.py` text printer and object structure | print/parse round trip, reference closure, ordering |
| C65, C91–C93 | 205 map loops, axes, identifiers | counting, index arithmetic; C91, C93 refuted |
| C66, C81–C83, C94 | rating conditions, re-rating, `reset_rated_flow_rates` | symbolic execution; C66, C82 refuted |
| C67 | `make_rating_unit` with solver contracts | composition, intermediate values, monotonicity |
| C68, C72 | rated fan speed search, rating pressure | algebra with a solver contract |
| C73, C74 | RESNET and NREL performance functions | algebra, polynomial bounds |
| C96–C98 | SEER2/HSPF2 of units made from ratings | closed forms from C95, C46, C50; sums over the bins; C98 refuted |
| C99–C101 | constructor with the other models, shared model objects, keyword arguments | composition, induction over histories of constructor calls; refutations |
| C102–C104 | cooling coil, outlet and heating output states | algebra over the laws of moist air (`Spec/Coil.MoistAirLaws`, satisfiable: `sampleTools_laws`); refutations |
| C105, C106 | fan efficiency, fan of the EnergyPlus file | algebra over the methods of each fan; refutations |
| C107–C109 | `write_validation_tables`, `print_*_info`, `plot` as lists of columns, lines and curves | list induction over columns, lines and curves; refutations |
| C110–C112 | RESNET units made from lists of capacities; NREL COP setters | symbolic execution, composition with the curves; refutations |
| C113–C115 | `write_idf` of constructed RESNET units | composition of C64/C86 with the performance map; induction over call histories |
| C116 | SEER and HSPF of units made from lists | composition of C111 with the season sums of C46, C50 and C96; refutation |
| C117 | the texts of the curves (`quadratic_string` etc.) | refinement to a reader of formulas: the text reads back as a function close to the curve |
| C118 | metadata of 205 representations | induction over histories of calls; refutation |
| C119 | 205 representations of constructed RESNET units and fans | values of every grid point from the curves; refutation |
| C120 | impeller speeds of fan representations | inequalities for each class of fan, over histories; refutation |
| C121 | EER, SEER and HSPF of two units that differ in power only | simulation of the season of one unit by that of the other, induction over the bins; refutations |
| C122 | HSPF of one unit with two settings (degradation, cut-out, cut-in, defrost credit) | relation between two runs of the season, carried through the bins by induction; refutations |
| C123 | upper bound of the HSPF by the best COP | invariant of the season (load at most M times energy in every bin); refutations |
| C124 | HSPF of units that differ in heat delivered | relation between two runs of the season; refutations |
| C125 | SEER of units that differ in cooling delivered | monotonicity of the rate of a bin in the capacities; exact law for factors; refutations |
| C126 | Units whose stages are alike | equality of the two programs bin by bin, with exceptions; refutations |
| C127 | ECM fans at their power limit | closed form for every history, monotonicity; refutation of continuity |
| C128 | Settings of the coils in EnergyPlus files | the written objects for every unit; exactness of the rounded line; refutation of one part |
| C129 | efficiency under charge faults | exact criterion for either sign, deviation and temperature; comparison of EER and SEER; refutation |
| C130 | performance at other airflows | exact law for every unit and charge, comparison; refutation beyond 1.28 times the rated airflow |
| C131 | constructed units with a charge fault | unfolding the construction, existence of the grading factor from positivity of the airflow curves on the rescaled range, C42 and C129 |
| C132 | making units with a charge fault | the fault factor at 80/95 °F is at most 1.032, so the capacity stays in the range where the coil calculation returns (C90) |
| C133 | ratios of integrated to steady-state heating | quotients of the values of C40, with the charge factor of the steady-state power left over |
| C134 | system and schedules of EnergyPlus files | names are unique (C62), so each reference leads to the object whose fields are read |
| C135 | default fan and capacities of the NREL model | piecewise line, algebra of net and gross capacity |
| C136 | Title-24 cooling capacity and the air | slopes of both regressions, monotone sensible heat ratio; refutation at the transition |
| C137 | Title-24 sensible share and the air | joint monotonicity of the regression, exact slope in a wet coil |
| C138 | Title-24 capacity and airflow | slopes of both regressions with the reciprocal term; product of monotone factors |

The theorems `*_ratings` of C109, C114 and C119 start from ranges of the ratings and laws of the published air properties and show that plots, EnergyPlus files
and 205 representations are produced: the sizing margins of C111–C116 give positive capacities over the whole performance map, and the coil calculation returns there.

## 5. Claims the code does not satisfy

Each has a `_refuted` theorem (or a theorem stating that the call never returns) and is explained in its `MANIFEST.json` note:
C07, C08, C10, C12, C13, C15, C18, C20, C29, C33, C34, C35, C39, C41, C50–C54, C57–C60, C66, C68, C69, C74, C75, C79, C80, C82, C84, C86,
C88, C89, C91, C93, C98–C107, C109, C110, C116, C118–C130, C133, C136.

C131_integrated and C133_refuted show the same defect: the integrated heating power of a unit with a charge fault lacks the fault factor its
steady power and its integrated capacity carry.

## 6. Trusted base

* Lean's kernel and the axioms `propext`, `Classical.choice`, `Quot.sound` (per theorem in `AXIOMS.md`); no other axiom, no `sorry`, no
  `native_decide`.
* The reading of the Python text recorded in the comments of `Verif/Model`, and the representation choices of section 2.
* Not modelled: floating-point rounding, the drawing of plots and the formatting of a single number, the clock, CSV/YAML/JSON serialisation by third-party
  libraries, the inside of psychrolib and scipy.
