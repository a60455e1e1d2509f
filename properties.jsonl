{"id": "C01", "title": "Clamping helper keeps values inside the requested range", "statement": "bracket(value, min, max) returns a value that is not below min and not above max whenever min <= max; it returns the input unchanged exactly when the input is already in range; applying it twice is the same as once; an omitted bound does not constrain; and it is monotone in the value.", "quantifier": "all values and all combinations of present/absent bounds", "why_tests_cant": "A unit test samples a handful of values; the range, fixpoint and monotonicity laws are statements about every value and every pair of bounds.", "anchors": ["resdx/util.py:bracket"]}
{"id": "C02", "title": "Limit check accepts exactly the in-range values and never alters them", "statement": "limit_check(value, min, max) returns the value unchanged if it lies in [min, max] (absent bounds do not constrain) and raises otherwise; it never returns a modified value.", "quantifier": "all values and bounds, including crossed bounds (for which every value is rejected)", "why_tests_cant": "Exactness of an acceptance region is a statement about both sides of the boundary at every point.", "anchors": ["resdx/util.py:limit_check"]}
{"id": "C03", "title": "find_nearest returns the earliest closest element", "statement": "find_nearest(array, value) returns an element of the array, no other element is strictly closer to value, and every element before the first occurrence of the returned one is strictly farther; an empty array raises IndexError.", "quantifier": "all finite lists of numbers and all target values", "why_tests_cant": "Minimality and tie-breaking must hold for lists of every length and content.", "anchors": ["resdx/util.py:find_nearest"]}
{"id": "C04", "title": "Regression helper curves and coefficient of determination", "statement": "calc_quad, calc_biquad, linear, quadratic, cubic and quartic evaluate the advertised polynomial for every coefficient vector; calculate_r_squared is at most 1, equals 1 exactly when the regression reproduces every source value, equals 0 for the constant mean predictor, and is undefined exactly when all source values are equal.", "quantifier": "all coefficient vectors, abscissae and paired data series of any length", "why_tests_cant": "Identities between polynomials and optimality statements over arbitrary series cannot be enumerated.", "anchors": ["resdx/util.py:calc_quad", "resdx/util.py:calc_biquad", "resdx/util.py:quartic", "resdx/util.py:calculate_r_squared"]}
{"id": "C05", "title": "Reading a psychrometric state is observationally pure", "statement": "For a PsychState built from any one humidity input, the value returned by reading wb, hr, h, rho, db, p or C_p does not depend on which properties were read before, in which order, or how often.", "quantifier": "all construction inputs, all psychrometric correlations, and all finite sequences of property reads", "why_tests_cant": "The lazily filled caches make the result depend on the read history; tests exercise one or two orders, the claim is about every order.", "anchors": ["resdx/psychrometrics.py:PsychState"]}
{"id": "C06", "title": "Psychrometric constructor accepts exactly one humidity input", "statement": "PsychState(drybulb, pressure, **kw) raises RuntimeError unless exactly one keyword is supplied and that keyword is wetbulb, hum_rat, rel_hum or enthalpy; when it succeeds, reading the supplied quantity returns the supplied value.", "quantifier": "all keyword lists", "why_tests_cant": "Keyword dictionaries form an unbounded input space.", "anchors": ["resdx/psychrometrics.py:PsychState.__init__"]}
{"id": "C07", "title": "Relative humidity read returns relative humidity", "statement": "Reading rh from a PsychState returns the relative humidity of the air state, whichever humidity input it was built from.", "quantifier": "all states and all psychrometric correlations in which relative humidity and humidity ratio differ", "why_tests_cant": "No test reads rh from a wet-bulb state; the value must be right at every state.", "anchors": ["resdx/psychrometrics.py:PsychState.rh", "resdx/psychrometrics.py:PsychState.get_rh"]}
{"id": "C08", "title": "Re-assigning humidity is reflected by later reads", "statement": "After assigning a new wet bulb (or humidity ratio) to a PsychState every later read of a derived property reflects the new value.", "quantifier": "all histories of reads and assignments", "why_tests_cant": "Whether a stale cached value survives depends on the whole preceding history.", "anchors": ["resdx/psychrometrics.py:PsychState.wb", "resdx/psychrometrics.py:PsychState.hr", "resdx/psychrometrics.py:PsychState.set_wb"]}
{"id": "C09", "title": "Airflow descriptions of an operating condition stay mutually consistent", "statement": "After set_rated_volumetric_airflow and any later history of set_volumetric_airflow, set_standard_volumetric_airflow, set_mass_airflow_ratio, set_new_fan_speed and further rated-airflow settings, mass flow = volumetric flow x density, standard flow = mass flow / standard density, the mass airflow ratio = mass flow / rated mass flow, and external static pressure = rated pressure x ratio^2.", "quantifier": "all finite histories of the listed calls, all densities and all capacities", "why_tests_cant": "It is an invariant of an unbounded call history.", "anchors": ["resdx/conditions.py:OperatingConditions.set_rated_volumetric_airflow", "resdx/conditions.py:OperatingConditions.set_volumetric_airflow", "resdx/conditions.py:OperatingConditions.set_standard_volumetric_airflow", "resdx/conditions.py:OperatingConditions.set_mass_airflow_ratio", "resdx/conditions.py:OperatingConditions.set_new_fan_speed"]}
{"id": "C10", "title": "Setting mass flow keeps the airflow ratio consistent", "statement": "set_mass_airflow(m) leaves the condition in the same state as setting the corresponding volumetric airflow m/density: ratio = m / rated mass flow and static pressure = rated pressure x ratio^2.", "quantifier": "all mass flows, conditions and prior histories", "why_tests_cant": "The claim is an equation between two setters at every flow, and a failure is visible only away from the rated flow.", "anchors": ["resdx/conditions.py:OperatingConditions.set_mass_airflow", "resdx/dx_unit.py:DXUnit.generate_205_representation"]}
{"id": "C11", "title": "Defrost activation window", "statement": "A defrost with strategy NONE is never active; otherwise it is active exactly when the outdoor dry bulb is strictly below the high limit and, if a low limit was given, strictly above it. A RESISTIVE defrost without positive heater power is rejected at construction.", "quantifier": "all strategies, temperatures and limits", "why_tests_cant": "Strict/non-strict boundary behaviour and its absence of other triggers is a statement for all temperatures.", "anchors": ["resdx/defrost.py:Defrost.in_defrost", "resdx/defrost.py:Defrost.__init__"]}
{"id": "C12", "title": "Demand-defrost credit stays between 1.00 and 1.03", "statement": "demand_credit() is 1 for any control other than DEMAND; for DEMAND it lies in [1, 1.03], equals 1.03 when the defrost period is at most 90 minutes, is 1 when the period reaches the (capped) maximum time, and does not increase with the period.", "quantifier": "all periods and maximum times with period <= max_time and max_time > 90 minutes (and the complementary region, where it is refuted)", "why_tests_cant": "Range and monotonicity over a two-dimensional continuous domain with a singular line.", "anchors": ["resdx/defrost.py:Defrost.demand_credit"]}
{"id": "C13", "title": "Per-speed fan records stay aligned", "statement": "After constructing any fan and performing any history of add_speed and remove_speed calls, number_of_speeds equals the length of every per-speed record, and every setting below number_of_speeds can be queried.", "quantifier": "all finite histories of add/remove operations (including negative indices and failing removals), all fan classes", "why_tests_cant": "It is an invariant of mutable parallel lists over unbounded histories.", "anchors": ["resdx/fan.py:Fan.add_speed", "resdx/fan.py:Fan.remove_speed", "resdx/fan.py:ConstantEfficacyFan.add_speed"]}
{"id": "C14", "title": "Design airflow ratios are relative to the first speed", "statement": "After any history of adding speeds and removing speeds other than the first, the design airflow ratio of every setting equals its design airflow divided by that of setting 0.", "quantifier": "all histories; the unrestricted claim (including removal of setting 0) is refuted", "why_tests_cant": "Depends on the order of insertions and removals in an unbounded history.", "anchors": ["resdx/fan.py:Fan.add_speed", "resdx/fan.py:Fan.remove_speed"]}
{"id": "C15", "title": "check_power leaves the fan as it found it", "statement": "check_power(airflow, pressure) returns the power a new speed with that airflow would draw, and afterwards the fan has exactly the speeds it had before, whether or not the query succeeds.", "quantifier": "all fan states, airflows, pressures and all fan classes", "why_tests_cant": "Temporary mutation must be undone from every state and on every exit path.", "anchors": ["resdx/fan.py:Fan.check_power"]}
{"id": "C16", "title": "System curve and its inverse agree", "statement": "system_flow(system_pressure(q)) = q for every non-negative flow q, system_pressure(system_flow(p)) = p for every non-negative pressure p, the design airflow of setting 0 sits exactly at the design pressure, and system_pressure is increasing in flow.", "quantifier": "all design points with positive flow and pressure, all flows and pressures", "why_tests_cant": "An inverse-function law over the reals.", "anchors": ["resdx/fan.py:Fan.system_pressure", "resdx/fan.py:Fan.system_flow", "resdx/fan.py:Fan.__init__"]}
{"id": "C17", "title": "PSC fan airflow curve", "statement": "For every setting of a PSC fan the delivered airflow is never negative, never increases with static pressure, is zero exactly from the block pressure upward, and at the pressure the setting was added at equals the requested airflow.", "quantifier": "all settings added in any order, all static pressures", "why_tests_cant": "Monotonicity and the block-pressure threshold are statements about a continuum of pressures.", "anchors": ["resdx/fan.py:PSCFan.airflow", "resdx/fan.py:PSCFan.add_speed", "resdx/fan.py:PSCFan.block_pressure"]}
{"id": "C18", "title": "PSC fan rotational speed stays between free speed and the speed limit", "statement": "The rotational speed of a PSC fan never exceeds the limit reached at block pressure, is non-decreasing in static pressure, and joins the limit continuously at the block pressure.", "quantifier": "all settings and pressures", "why_tests_cant": "Continuity/monotonicity over a continuum.", "anchors": ["resdx/fan.py:PSCFan.rotational_speed"]}
{"id": "C19", "title": "ECM flow-controlled fan respects its power limit", "statement": "The power of an ECM constant-flow fan never exceeds the maximum power; delivered airflow never exceeds the design airflow of the setting and equals it whenever the unconstrained power is within the limit; power = airflow x efficacy.", "quantifier": "all settings, static pressures and maximum powers", "why_tests_cant": "Bounds over a continuum of pressures and configurations.", "anchors": ["resdx/fan.py:ECMFlowFan.power", "resdx/fan.py:ECMFlowFan.airflow", "resdx/fan.py:ECMFlowFan.efficacy"]}
{"id": "C20", "title": "EERE fan size interpolation works for every supported capacity", "statement": "For every nominal capacity in [2, 5] tons an EERE fan can be constructed, its bracketing table entries satisfy lower capacity < nominal <= upper capacity, the interpolation weight lies in (0, 1], and table coefficients are reproduced exactly at the table capacities.", "quantifier": "all nominal capacities", "why_tests_cant": "A boundary case of a continuum; no test uses the smallest table size.", "anchors": ["resdx/fan.py:EEREFan.__init__"]}
{"id": "C21", "title": "EERE fan delivers the requested airflow at the requested pressure", "statement": "After add_speed(airflow, pressure) on an EERE fan the airflow of the new setting at that pressure equals the requested airflow, for each control variant.", "quantifier": "all airflows, pressures and fan states", "why_tests_cant": "An algebraic round trip over a continuum.", "anchors": ["resdx/fan.py:EEREFan.add_speed", "resdx/fan.py:EEREFan.airflow"]}
{"id": "C22", "title": "RESNET blower-motor efficacy curves", "statement": "RESNET PSC efficacy lies between 70% and 100% of the design efficacy for airflow ratios in [0, 1]; the RESNET BPM efficacy equals the ductless curve at zero pressure, the ducted curve at the system operating pressure, varies linearly between and never exceeds the PSC curve there; power does not decrease when the airflow ratio grows.", "quantifier": "all airflow ratios in [0,1], all pressures between zero and the operating pressure", "why_tests_cant": "Inequalities between real power functions over a continuum.", "anchors": ["resdx/fan.py:RESNETPSCFan.efficacy", "resdx/fan.py:RESNETBPMFan.efficacy"]}
{"id": "C23", "title": "Operating point search of a RESNET fan is well posed exactly below 173% airflow", "statement": "For a RESNET fan the operating pressure of a setting is design pressure x ratio^2, and the bracketing root search succeeds exactly when that pressure is within three times the design pressure.", "quantifier": "all settings and design points", "why_tests_cant": "A threshold on a continuous parameter.", "anchors": ["resdx/fan.py:Fan.operating_pressure", "resdx/fan.py:RESNETFan"]}
{"id": "C24", "title": "Fan speed ordering is a sorted permutation", "statement": "The speed order map used when writing a fan representation is a permutation of all settings in ascending order of the airflow at zero static pressure (which is the order of the design airflows for RESNET and PSC fans); the representation contains one entry per setting and pressure, each describing that setting at that pressure.", "quantifier": "all fans with any number of speeds in any order", "why_tests_cant": "Permutation/sortedness over lists of unbounded length.", "anchors": ["resdx/fan.py:Fan.get_speed_order_map", "resdx/fan.py:Fan.generate_205_representation"]}
{"id": "C25", "title": "Performance table cells are independent", "statement": "After storing a value in a temperature/speed performance table, reading that cell returns it and every other cell is unchanged; reading or writing a temperature that is not a row raises ValueError and changes nothing.", "quantifier": "all tables, temperatures, speeds and values", "why_tests_cant": "Frame conditions quantify over every other cell of a table of any size.", "anchors": ["resdx/models/tabular_data.py:TemperatureSpeedPerformanceTable.set", "resdx/models/tabular_data.py:TemperatureSpeedPerformanceTable.get"]}
{"id": "C26", "title": "Ratio and maintenance setters invert the corresponding getters", "statement": "set_by_ratio followed by get_ratio returns the ratio; set_by_maintenance followed by get_maintenance in the direction away from the reference returns the maintenance, for both the cooling and the heating convention; set_by_interpolation reproduces the requested relative position.", "quantifier": "all tables with non-zero reference cells, all ratios, temperatures and speeds", "why_tests_cant": "Round-trip laws over continuous data with direction-dependent conventions.", "anchors": ["resdx/models/tabular_data.py:TemperatureSpeedPerformanceTable.set_by_ratio", "resdx/models/tabular_data.py:TemperatureSpeedPerformanceTable.get_ratio", "resdx/models/tabular_data.py:TemperatureSpeedPerformanceTable.set_by_interpolation", "resdx/models/tabular_data.py:TemperatureSpeedCoolingPerformanceTable.set_by_maintenance", "resdx/models/tabular_data.py:TemperatureSpeedHeatingPerformanceTable.set_by_maintenance"]}
{"id": "C27", "title": "Adding a temperature keeps the table well formed", "statement": "add_temperature keeps temperatures strictly increasing and one data row per temperature, leaves every existing cell value unchanged, and rejects a temperature already present without changing the table.", "quantifier": "all well-formed tables and temperatures, over any sequence of additions", "why_tests_cant": "Invariant over unbounded sequences of insertions into tables of any size.", "anchors": ["resdx/models/tabular_data.py:TemperatureSpeedPerformanceTable.add_temperature"]}
{"id": "C28", "title": "Adding a temperature outside the range extrapolates linearly with the requested limit", "statement": "A temperature added below (above) the tabulated range gets, for every speed, the value on the straight line through the two nearest rows, limited from below (above) by the stated multiple of the nearest row.", "quantifier": "all tables with at least two rows, all temperatures outside the range, all limits", "why_tests_cant": "Linear extrapolation identity for every table content.", "anchors": ["resdx/models/tabular_data.py:TemperatureSpeedPerformanceTable.add_temperature"]}
{"id": "C29", "title": "Adding a temperature inside the range interpolates linearly", "statement": "A temperature added strictly inside the tabulated range gets, for every speed, the value on the straight line between its two neighbouring rows.", "quantifier": "all tables and interior temperatures", "why_tests_cant": "Correctness must hold at every insertion position; a test at a single position (or none) cannot show it.", "anchors": ["resdx/models/tabular_data.py:TemperatureSpeedPerformanceTable.add_temperature"]}
{"id": "C30", "title": "Table interpolation reproduces tabulated points and never overshoots", "statement": "Looking up a tabulated (speed, temperature) point returns the stored value; between rows the result lies between the surrounding values; outside the range it continues the outermost segment linearly.", "quantifier": "all tables and lookup points", "why_tests_cant": "Quantifies over a continuum of lookup points and all tables.", "anchors": ["resdx/models/tabular_data.py:TemperatureSpeedPerformanceTable.calculate"]}
{"id": "C31", "title": "Gross tables differ from net tables by exactly the fan power at every lookup point", "statement": "After make_gross, at every speed and temperature (tabulated or not) gross cooling capacity = net + fan power, gross heating capacity = net - fan power and gross powers = net power - fan power, where fan power is interpolated over speed; the correction succeeds exactly when the number of fan powers matches and every corrected cell is positive, otherwise AssertionError is raised.", "quantifier": "all tables, fan-power vectors, and lookup points", "why_tests_cant": "An identity between two interpolants over a continuum.", "anchors": ["resdx/models/tabular_data.py:TemperatureSpeedPerformance.make_gross", "resdx/models/tabular_data.py:TemperatureSpeedPerformanceTable.apply_fan_power_correction"]}
{"id": "C32", "title": "Rating inputs are reproduced by the generated performance tables", "statement": "The tables built from ratings reproduce the rated cooling capacity and EER2 at 95 F, the rated heating capacity and COP at 47 F and (where given) the 17 F heating capacity, for the single-speed, two-speed and variable-speed builders.", "quantifier": "all rating inputs accepted by the builders", "why_tests_cant": "Anchoring must hold for all real inputs after a long sequence of cell updates that could overwrite each other.", "anchors": ["resdx/models/tabular_data.py:make_neep_statistical_model_data", "resdx/models/tabular_data.py:make_single_speed_model_data", "resdx/models/tabular_data.py:make_two_speed_model_data"]}
{"id": "C33", "title": "Building tables from measured data does not modify the caller's data", "statement": "make_neep_model_data leaves the lists passed by the caller unchanged, so that calling it twice with the same lists yields equal tables.", "quantifier": "all input data sets", "why_tests_cant": "Aliasing effects appear only across calls and on all inputs.", "anchors": ["resdx/models/tabular_data.py:make_neep_model_data"]}
{"id": "C34", "title": "Net and gross rated COP bookkeeping is consistent", "statement": "Setting a rated net COP produces gross power = net power - fan power and a gross COP such that setting that gross COP reproduces the net COP, and vice versa, for every speed in heating and cooling.", "quantifier": "all capacities, fan powers and COPs, any number of speeds", "why_tests_cant": "Round trip over real vectors of any length.", "anchors": ["resdx/models/base_model.py:DXModel.set_rated_net_cooling_cop", "resdx/models/base_model.py:DXModel.set_rated_gross_cooling_cop", "resdx/models/base_model.py:DXModel.set_rated_net_heating_cop", "resdx/models/base_model.py:DXModel.set_rated_gross_heating_cop"]}
{"id": "C35", "title": "A user-supplied net COP is the unit's net COP", "statement": "If a unit is constructed with rated_net_cooling_cop (or rated_net_heating_cop) and no gross COP, the unit's rated net COP equals the supplied value.", "quantifier": "all supplied COPs and capacities", "why_tests_cant": "The interaction between defaults and overrides must be right for every value.", "anchors": ["resdx/dx_unit.py:DXUnit.__init__", "resdx/models/base_model.py:DXModel.set_rated_net_cooling_cop"]}
{"id": "C36", "title": "Default fan assignment matches each rated airflow", "statement": "When no fan is supplied, every cooling and heating speed is assigned an existing fan setting whose design airflow is that speed's rated airflow and whose power is that speed's rated fan power.", "quantifier": "all capacity vectors with any number of speeds", "why_tests_cant": "Index bookkeeping over vectors of any length.", "anchors": ["resdx/models/base_model.py:DXModel.set_fan", "resdx/models/unified_resnet.py:RESNETDXModel.set_fan"]}
{"id": "C37", "title": "Speed roles and staging are derived consistently", "statement": "Each speed index that the unit's staging type uses (full; low and intermediate; boost) is within range exactly when the unit has enough speeds for the given full-load index, and with the default index and a derived staging type it always is and the roles are ordered boost <= full <= intermediate <= low; capacity arrays of wrong length or in increasing order are rejected, and all other arrays are accepted.", "quantifier": "all capacity vectors, staging types", "why_tests_cant": "Quantifies over vectors of any length.", "anchors": ["resdx/dx_unit.py:DXUnit.__init__", "resdx/dx_unit.py:DXUnit.check_array_order", "resdx/dx_unit.py:DXUnit.check_array_lengths", "resdx/dx_unit.py:DXUnit.check_array_length"]}
{"id": "C38", "title": "Net performance accounts for fan power exactly once and never improves cooling COP", "statement": "Net cooling capacity + fan power = gross capacity, net power - fan power = gross power, heating capacity - fan power = gross, so net cooling COP <= gross cooling COP, and net heating COP lies between 1 and the gross heating COP when the latter is at least 1.", "quantifier": "all models, conditions and non-negative fan powers", "why_tests_cant": "Inequalities over every model and operating condition.", "anchors": ["resdx/dx_unit.py:DXUnit.net_total_cooling_capacity", "resdx/dx_unit.py:DXUnit.net_cooling_power", "resdx/dx_unit.py:DXUnit.net_cooling_cop", "resdx/dx_unit.py:DXUnit.net_integrated_heating_cop"]}
{"id": "C39", "title": "Reported gross quantities are physically bounded or rejected", "statement": "Gross capacities and powers returned by a unit are never negative and the gross sensible heat ratio is in [0, 1]; otherwise the call raises.", "quantifier": "all models and conditions", "why_tests_cant": "Holds for every condition including extrapolated ones.", "anchors": ["resdx/dx_unit.py:DXUnit.gross_total_cooling_capacity", "resdx/dx_unit.py:DXUnit.gross_shr", "resdx/dx_unit.py:DXUnit.gross_cooling_power"]}
{"id": "C40", "title": "RESNET frost model bounds", "statement": "In the RESNET model integrated heating capacity is at most the steady-state capacity and at least 85.6% of it, integrated power at most steady-state power and at least 97.6%, integrated COP never exceeds steady-state COP, and outside the defrost window they are equal.", "quantifier": "all conditions, defrost settings, capacities", "why_tests_cant": "Bounds over a continuum of temperatures.", "anchors": ["resdx/models/unified_resnet.py:RESNETDXModel.gross_integrated_heating_capacity", "resdx/models/unified_resnet.py:RESNETDXModel.gross_integrated_heating_power"]}
{"id": "C41", "title": "Outside defrost, integrated and steady-state heating agree even with a charge fault", "statement": "For every unit, refrigerant charge deviation and condition outside the defrost window, the integrated heating power reported by the unit equals its steady-state heating power and likewise for capacity.", "quantifier": "all charge deviations, units and conditions", "why_tests_cant": "The fault factor is applied in one of two call paths only; visible only off nominal.", "anchors": ["resdx/dx_unit.py:DXUnit.gross_integrated_heating_power", "resdx/dx_unit.py:DXUnit.gross_steady_state_heating_power", "resdx/models/unified_resnet.py:RESNETDXModel.gross_integrated_heating_power"]}
{"id": "C42", "title": "Charge-fault factor is neutral at nominal charge and reduces to the fault curve at rated airflow", "statement": "With zero charge deviation every charge factor is exactly 1 for every condition; at rated airflow the grading factor equals the charge-deviation polynomial itself.", "quantifier": "all coefficient sets, conditions and charge deviations", "why_tests_cant": "Quantifies over deviations, temperatures and airflow.", "anchors": ["resdx/models/nrel.py:NRELDXModel.resnet_grading_model", "resdx/models/nrel.py:NRELDXModel.domonski_charge_factor"]}
{"id": "C43", "title": "Coil bypass factor law", "statement": "At the rated mass flow the bypass factor equals the rated bypass factor, it stays in (0, 1), and it increases strictly with mass flow.", "quantifier": "all rated bypass factors in (0,1) and positive mass flows", "why_tests_cant": "Exponential law over a continuum.", "anchors": ["resdx/dx_unit.py:DXUnit.calculate_rated_bypass_factor", "resdx/dx_unit.py:DXUnit.bypass_factor"]}
{"id": "C44", "title": "Interpolation between test points is exact at the points and affine between", "statement": "interpolate(f, c1, c2, t) returns f(c1) at the outdoor temperature of c1, f(c2) at that of c2, and is affine in t; if both conditions have the same outdoor temperature the call raises.", "quantifier": "all functions, conditions and temperatures", "why_tests_cant": "Law over a continuum.", "anchors": ["resdx/dx_unit.py:interpolate", "resdx/dx_unit.py:interpolate_separate"]}
{"id": "C45", "title": "Single-speed RESNET unit returns the EER2 and SEER2 it was built from", "statement": "For a single-stage unit built from ratings with the RESNET tabular model and PSC fan, eer() and seer() evaluate exactly to the input EER2 and SEER2 and the net capacities at the A and H1 rating conditions equal the rated capacities.", "quantifier": "all capacities, EER2, SEER2 and cooling degradation coefficients accepted by the constructor", "why_tests_cant": "An end-to-end identity through table construction, gross/net conversion, interpolation and the rating procedure; tests check one or two units to a tolerance.", "anchors": ["resdx/dx_unit.py:DXUnit.seer", "resdx/dx_unit.py:DXUnit.eer", "resdx/models/tabular_data.py:make_single_speed_model_data", "resdx/models/unified_resnet.py:RESNETDXModel"]}
{"id": "C46", "title": "SEER bin calculation meets the load", "statement": "In every temperature bin the cooling credited by seer() is the smaller of the building load and the full-speed capacity times the bin fraction, for two-stage and variable-speed units.", "quantifier": "all test-point capacities and powers, all bins", "why_tests_cant": "Case split over load/capacity relations that no finite set of units covers.", "anchors": ["resdx/dx_unit.py:DXUnit.seer"]}
{"id": "C47", "title": "SEER bin energy is the cycling/modulating power law and is continuous across regimes", "statement": "In each bin the energy is: low-speed cycling with part-load degradation below low-speed capacity, the straight line between the low and full operating points between the capacities (two-stage), the interpolated-COP law (variable speed), and full power above; values agree at regime boundaries.", "quantifier": "all capacities, powers and loads", "why_tests_cant": "Continuity and exactness at boundaries determined by the unit's own data.", "anchors": ["resdx/dx_unit.py:DXUnit.seer"]}
{"id": "C48", "title": "SEER does not depend on unit size", "statement": "Scaling every capacity and every power of a unit by the same positive factor leaves seer() unchanged.", "quantifier": "all units of every staging type, all positive factors", "why_tests_cant": "A symmetry statement relating two executions.", "anchors": ["resdx/dx_unit.py:DXUnit.seer"]}
{"id": "C49", "title": "SEER never improves with more cycling degradation and is bounded by the best bin COP", "statement": "Raising the cooling degradation coefficient never raises seer(), and seer() never exceeds the largest operating COP that occurs in the bins.", "quantifier": "all units and coefficients in [0, 1)", "why_tests_cant": "Monotonicity compares all pairs of coefficients.", "anchors": ["resdx/dx_unit.py:DXUnit.seer"]}
{"id": "C50", "title": "HSPF bin energy balance", "statement": "In every temperature bin, heat delivered by the heat pump plus resistance heat equals the building load, and resistance heat is non-negative.", "quantifier": "all units, staging types, climates and bins", "why_tests_cant": "Must hold for every relation of load, capacities and cut-out temperatures, including the history of earlier bins.", "anchors": ["resdx/dx_unit.py:DXUnit.hspf"]}
{"id": "C51", "title": "No compressor heating below the cut-out temperature", "statement": "In every bin at or below the heating cut-out temperature the compressor uses no energy and the whole load is met by resistance heat.", "quantifier": "all units, staging types, climates, cut-out temperatures", "why_tests_cant": "Depends on state carried from earlier bins of the loop.", "anchors": ["resdx/dx_unit.py:DXUnit.hspf"]}
{"id": "C52", "title": "HSPF does not depend on unit size", "statement": "Scaling every capacity and power of a unit (and hence its design heating requirement) by a common positive factor leaves hspf() unchanged, for both rating standards.", "quantifier": "all units and positive factors", "why_tests_cant": "A symmetry statement relating two executions.", "anchors": ["resdx/dx_unit.py:DXUnit.hspf", "resdx/dx_unit.py:DXUnit.calc_design_heating_requirement"]}
{"id": "C53", "title": "HSPF lower bound", "statement": "For every unit hspf() is at least (1 - heating degradation coefficient) x demand-defrost credit (in COP units): the cut-out logic never lets the heat pump be worse than resistance heat beyond cycling losses.", "quantifier": "all units, staging types, climates", "why_tests_cant": "Quantifies over all performance data.", "anchors": ["resdx/dx_unit.py:DXUnit.hspf"]}
{"id": "C54", "title": "A supplied cut-in temperature is honoured", "statement": "If heating_on_temperature is supplied to the constructor, hspf() evaluates with that temperature.", "quantifier": "all supplied temperatures", "why_tests_cant": "No test supplies the argument; it must work for every value.", "anchors": ["resdx/dx_unit.py:DXUnit.__init__", "resdx/dx_unit.py:DXUnit.hspf"]}
{"id": "C55", "title": "Climate bin distributions are normalised", "statement": "Any heating distribution accepted by the constructor has exactly 18 fractions whose sum lies in [0.98, 1.02] (re-normalised to 1 otherwise) with relative sizes preserved; every built-in region satisfies this.", "quantifier": "all lists of fractions; all built-in tables", "why_tests_cant": "Quantifies over all user-supplied distributions.", "anchors": ["resdx/dx_unit.py:HeatingDistribution", "resdx/dx_unit.py:CoolingDistribution"]}
{"id": "C56", "title": "Carrier defrost penalty is bounded", "statement": "The Carrier defrost fraction is between 7.5% and 11% at every temperature, equals the tabulated values at the tabulated temperatures, is constant outside, and so integrated capacity and power never exceed steady state.", "quantifier": "all outdoor temperatures", "why_tests_cant": "Piecewise-linear bounds over a continuum.", "anchors": ["resdx/models/carrier_defrost_model.py:CarrierDefrostModel"]}
{"id": "C57", "title": "Title-24 default EER is non-decreasing in SEER", "statement": "The default EER derived from SEER by the Title-24 model never decreases as SEER increases.", "quantifier": "all SEER values", "why_tests_cant": "Monotonicity across piece boundaries.", "anchors": ["resdx/models/title24.py:Title24DXModel.eer_rated"]}
{"id": "C58", "title": "Title-24 default heating data are in range", "statement": "The default heating degradation coefficient lies in [0.05, 0.25] and never increases with HSPF; the default 17 F capacity ratio is monotone in HSPF.", "quantifier": "all HSPF values", "why_tests_cant": "Piecewise definitions over a continuum.", "anchors": ["resdx/models/title24.py:Title24DXModel.c_d_heating", "resdx/models/title24.py:Title24DXModel.cap17_ratio_rated"]}
{"id": "C59", "title": "Title-24 derived COPs are available for every speed", "statement": "get_cop17 and get_cop35 return a COP for every heating speed in any query order, and repeated queries return the same value.", "quantifier": "all query sequences over the unit's speeds", "why_tests_cant": "Memoisation correctness depends on the query history.", "anchors": ["resdx/models/title24.py:Title24DXModel.get_cop35", "resdx/models/title24.py:Title24DXModel.get_cop17"]}
{"id": "C60", "title": "EPRI defrost model is usable for every strategy", "statement": "The EPRI/NREL defrost time fraction is in (0, 1), multipliers stay within range, and integrated heating power can be evaluated in defrost for every defrost strategy.", "quantifier": "all temperatures, humidities and strategies", "why_tests_cant": "Bounds on a continuum, and every strategy must be executable.", "anchors": ["resdx/models/nrel.py:NRELDXModel.epri_defrost_time_fraction", "resdx/models/nrel.py:NRELDXModel.gross_integrated_heating_power"]}
{"id": "C61", "title": "Written EnergyPlus objects can be read back", "statement": "Reading back the text produced for any list of EnergyPlus objects yields the same object types, field values and field names in the same order.", "quantifier": "all lists of objects whose texts contain no separator, comment or newline characters", "why_tests_cant": "A parse/print round trip over unbounded texts.", "anchors": ["resdx/idf.py:write_idf_objects", "resdx/idf.py:IDFField"]}
{"id": "C62", "title": "EnergyPlus references resolve", "statement": "Every curve, table, fan and coil name referenced by an object written by write_idf is the name of exactly one object in the same file.", "quantifier": "all units, numbers of speeds, system names and system types", "why_tests_cant": "Referential integrity for every number of speeds and naming.", "anchors": ["resdx/idf.py:write_idf"]}
{"id": "C63", "title": "EnergyPlus air path is connected", "statement": "In the written file the air leaves each component at the node where the next component receives it, from the system inlet to the system outlet, for every system type.", "quantifier": "all units and system types", "why_tests_cant": "Structural property of all generated files.", "anchors": ["resdx/idf.py:write_idf"]}
{"id": "C64", "title": "EnergyPlus speed order is reversed consistently", "statement": "EnergyPlus speed k of a unit with n speeds describes resdx speed n-k, each speed appears exactly once, and every lookup table has as many values as the product of its axes, in the order of the axes.", "quantifier": "all numbers of speeds", "why_tests_cant": "Index arithmetic for every n.", "anchors": ["resdx/idf.py:write_idf", "resdx/idf.py:make_lookup_table"]}
{"id": "C65", "title": "ASHRAE 205 map has one value per grid point in grid order", "statement": "Every lookup variable of the generated representation has as many entries as the product of the grid axis lengths, in row-major order of the axes, and compressor sequence number k corresponds to speed n-k.", "quantifier": "all units and numbers of speeds", "why_tests_cant": "Counting property for every number of speeds.", "anchors": ["resdx/dx_unit.py:DXUnit.generate_205_representation"]}
{"id": "C66", "title": "Re-rating a two-stage unit", "statement": "reset_rated_flow_rates can be called on a unit of any staging type.", "quantifier": "all units of each staging type", "why_tests_cant": "No test calls it for two-stage units.", "anchors": ["resdx/dx_unit.py:DXUnit.reset_rated_flow_rates"]}
{"id": "C67", "title": "Rating solver returns a unit meeting the requested ratings", "statement": "If its root searches converge, make_rating_unit returns a unit whose SEER2 and HSPF2 equal the targets and whose 17 F capacity is the requested fraction of the 47 F capacity.", "quantifier": "all targets, staging types and solvers that return roots", "why_tests_cant": "Contract of a nested search over all inputs.", "anchors": ["resdx/rating_solver.py:make_rating_unit"]}
{"id": "C68", "title": "Rated fan speed search is self-consistent", "statement": "When find_rated_fan_speed returns an airflow, exactly one speed with that airflow was added, and the gross capacity less (cooling) or plus (heating) the power of that new speed at its rating pressure equals airflow / (flow per net capacity).", "quantifier": "all fan classes, capacities, pressures, histories and root finders that return roots", "why_tests_cant": "Contract of a search that mutates the fan while it runs, over all inputs.", "anchors": ["resdx/fan.py:Fan.find_rated_fan_speed", "resdx/fan.py:Fan.check_power"]}
{"id": "C69", "title": "Motor power in a fan representation covers every listed operating point", "statement": "The motor maximum power written in the fan representation is at least the shaft power of every operating point listed in it.", "quantifier": "all fan classes, sets of speeds and histories", "why_tests_cant": "Inequality over all fans and grid points.", "anchors": ["resdx/fan.py:Fan.generate_205_representation"]}
{"id": "C70", "title": "Measured data are reproduced by the generated performance tables", "statement": "The tables built from measured data return every measured value, converted to SI units, at its temperature and speed, for capacities and powers, cooling and heating; only the rated-speed cells the builder fills itself (82 F cooling, cut-out row) differ.", "quantifier": "all measured data sets and range arguments accepted by the builder", "why_tests_cant": "Later row insertions and interpolations could overwrite or shift measured cells for some inputs only.", "anchors": ["resdx/models/tabular_data.py:make_neep_model_data"]}
{"id": "C71", "title": "One number stands for every speed", "statement": "A per-speed constructor argument given as one number applies to every speed, given as a list is used as it is, and omitted takes its default at every speed; this holds for net capacities, cycling coefficients and airflow per capacity.", "quantifier": "all inputs and numbers of speeds", "why_tests_cant": "Tests construct a few units; the law is for every argument form and every number of speeds.", "anchors": ["resdx/models/base_model.py:DXModel.set_default", "resdx/models/base_model.py:DXModel.set_rated_net_total_cooling_capacity", "resdx/models/base_model.py:DXModel.set_rated_net_heating_capacity", "resdx/models/unified_resnet.py:RESNETDXModel.set_fan"]}
{"id": "C72", "title": "Rating static pressure", "statement": "The external static pressure of a rating condition is zero for a ductless unit; for a ducted unit it is 0.5 in H2O under the 2023 standard and 0.10, 0.15 or 0.20 in H2O under the 2017 standard for rated cooling capacities up to 29000, up to 43000 and above 43000 Btu/h; at every other airflow it varies with the square of the airflow.", "quantifier": "all capacities, airflows, standards", "why_tests_cant": "Bracket boundaries and square law for all values.", "anchors": ["resdx/dx_unit.py:DXUnit.get_rated_full_flow_rated_pressure", "resdx/dx_unit.py:DXUnit.calculate_rated_pressure", "resdx/dx_unit.py:DXUnit.make_condition"]}
{"id": "C73", "title": "A RESNET unit reproduces its performance tables", "statement": "At rated indoor conditions and rated airflow a RESNET unit built on performance tables reports exactly the table values at every outdoor temperature and speed; at other indoor conditions or airflows the table value is multiplied by the ratio of the NREL curve at these conditions to the NREL curve at rated indoor conditions, airflow and the same outdoor temperature.", "quantifier": "all tables, speeds and conditions", "why_tests_cant": "Equality of functions over all conditions.", "anchors": ["resdx/models/unified_resnet.py:RESNETDXModel.get_cooling_correction_factor", "resdx/models/unified_resnet.py:RESNETDXModel.get_heating_correction_factor", "resdx/models/unified_resnet.py:RESNETDXModel.gross_total_cooling_capacity"]}
{"id": "C74", "title": "NREL performance curves", "statement": "Capacities and powers of an NREL unit are its rated values times curves of temperatures and airflow ratio that are 1 (within 2 parts per million) at rating conditions; cooling capacity falls and power per unit of capacity rises with outdoor temperature above 75 F, neither changes below 75 F or when the indoor wet bulb moves outside 57-72 F; heating capacity rises and power per capacity falls with outdoor temperature; cooling capacity rises with the indoor wet bulb.", "quantifier": "all temperatures, airflows, ratings", "why_tests_cant": "Monotonicity and positivity over continuous ranges.", "anchors": ["resdx/models/nrel.py:NRELDXModel.gross_total_cooling_capacity", "resdx/models/nrel.py:NRELDXModel.gross_cooling_power", "resdx/models/nrel.py:NRELDXModel.gross_steady_state_heating_capacity", "resdx/models/nrel.py:NRELDXModel.gross_steady_state_heating_power"]}
{"id": "C75", "title": "Title-24 COPs at 17 F and 35 F describe one unit", "statement": "After the COPs of a heating speed have been solved for, the COP at 35 F is the one that goes with the COP at 17 F, and together with the rated values they reproduce the HSPF the unit was built with.", "quantifier": "all units, query histories and root searches", "why_tests_cant": "The two COPs are written at different moments of a search whose course depends on the input.", "anchors": ["resdx/models/title24.py:Title24DXModel.calculate_cops", "resdx/models/title24.py:Title24DXModel.check_hspf"]}
{"id": "C76", "title": "Title-24 built-in HSPF is the region IV rating", "statement": "The HSPF the Title-24 model solves against is the AHRI 210/240-2017 region IV rating of a single-speed unit with minimum design heating requirement equal to its 47 F capacity: total load over compressor plus resistance energy, summed over the region IV bins, and equal to what DXUnit.hspf computes for the same test points.", "quantifier": "all capacities, inputs and degradation coefficients with positive values in every bin", "why_tests_cant": "Equality of two independently written bin calculations for all inputs.", "anchors": ["resdx/models/title24.py:Title24DXModel.check_hspf", "resdx/dx_unit.py:DXUnit.hspf"]}
{"id": "C77", "title": "Title-24 heating performance passes through the rated points", "statement": "At any time in the life of a unit, net heating capacity and power lie on the straight line through 17 F and 47 F, except that integrated values follow the line through 17 F and 35 F while the unit defrosts between 17 F and 45 F; default frost never raises capacity.", "quantifier": "all units, conditions and query histories", "why_tests_cant": "Values are cached lazily, so each answer depends on the history of calls.", "anchors": ["resdx/models/title24.py:Title24DXModel.gross_steady_state_heating_capacity", "resdx/models/title24.py:Title24DXModel.gross_integrated_heating_capacity", "resdx/models/title24.py:Title24DXModel.gross_steady_state_heating_power", "resdx/models/title24.py:Title24DXModel.gross_integrated_heating_power"]}
{"id": "C78", "title": "Title-24 sensible capacity", "statement": "The sensible heat ratio is at most 1, the sensible capacity at most the total capacity, and the ratio is positive whenever the indoor wet bulb is at most the dry bulb and at most 99 F, outdoor air is at 7 F or more and there is airflow.", "quantifier": "all conditions", "why_tests_cant": "Bounds of a regression over a continuum.", "anchors": ["resdx/models/title24.py:Title24DXModel.gross_shr", "resdx/models/title24.py:Title24DXModel.gross_sensible_cooling_capacity"]}
{"id": "C79", "title": "Title-24 cooling power", "statement": "Cooling power is capacity over an efficiency taken from the seasonal rating up to 82 F, from the rated COP from 95 F and interpolated linearly in between; an efficiency multiplier divides the power; at the rating condition the rated COP is reproduced.", "quantifier": "all units and conditions", "why_tests_cant": "Piecewise regression over a continuum of conditions and ratings.", "anchors": ["resdx/models/title24.py:Title24DXModel.gross_cooling_power"]}
{"id": "C80", "title": "Title-24 default fan", "statement": "A Title-24 unit built without a fan gets one with 350 cfm per ton and 500 Btu/h per ton, for every number of speeds and whether or not fan speeds are supplied.", "quantifier": "all capacities, numbers of speeds and supplied fan speed maps", "why_tests_cant": "Tests build one-speed units with no fan speed map.", "anchors": ["resdx/models/title24.py:Title24DXModel.set_fan", "resdx/models/title24.py:Title24DXModel.set_rated_fan_characteristics"]}
{"id": "C81", "title": "Rating conditions are the standard's tests", "statement": "Every unit's rating conditions are exactly the AHRI 210/240 tests for its staging type: mode, outdoor and indoor dry and wet bulb, compressor speed, and the rated airflow, fan speed and static pressure of that speed; tests that do not apply have no condition.", "quantifier": "all units of every staging type and every assignment of speeds", "why_tests_cant": "Tests check a few ratings of a few units, not the conditions behind them.", "anchors": ["resdx/dx_unit.py:DXUnit.set_rating_conditions", "resdx/dx_unit.py:DXUnit.make_condition"]}
{"id": "C82", "title": "Conditions and fan agree after re-rating", "statement": "After reset_rated_flow_rates every rating condition uses a fan speed added for its compressor speed, and its airflow and static pressure are those of that fan speed; the fan keeps its efficacy.", "quantifier": "all units, fans and airflows", "why_tests_cant": "The relation has to hold for every condition, fan class and airflow.", "anchors": ["resdx/dx_unit.py:DXUnit.reset_rated_flow_rates", "resdx/fan.py:ConstantEfficacyFan.add_speed", "resdx/conditions.py:OperatingConditions.set_new_fan_speed"]}
{"id": "C83", "title": "Changing the rating standard", "statement": "After any sequence of set_rating_standard calls the unit's rating conditions are those of the last standard; standards differ in the static pressure of the conditions only, and no rated value is changed.", "quantifier": "all units and all sequences of standards", "why_tests_cant": "Quantifies over call histories.", "anchors": ["resdx/dx_unit.py:DXUnit.set_rating_standard", "resdx/dx_unit.py:DXUnit.get_rated_full_flow_rated_pressure"]}
{"id": "C84", "title": "EnergyPlus table axes are increasing", "statement": "The values of every independent variable written to the EnergyPlus input are strictly increasing, as EnergyPlus requires.", "quantifier": "all units, including every cut-out temperature", "why_tests_cant": "The outdoor heating axis starts at the unit's cut-out temperature, which ranges over a continuum.", "anchors": ["resdx/idf.py:write_idf"]}
{"id": "C85", "title": "EnergyPlus tables are one at the rating point", "statement": "With normalisation, the capacity and EIR tables of every speed hold 1 at the grid point that is the rating condition (67 F / 95 F cooling, 70 F / 47 F heating).", "quantifier": "all units and speeds", "why_tests_cant": "Row-major position and divisor must match for every number of speeds.", "anchors": ["resdx/idf.py:write_idf"]}
{"id": "C86", "title": "Every unit can be written as EnergyPlus input", "statement": "Every unit whose performance can be evaluated can be written, for every system type and all options, whatever constructor arguments were used.", "quantifier": "all units and options", "why_tests_cant": "An attribute that only some constructor paths set is not found by tests of the other paths.", "anchors": ["resdx/idf.py:write_idf", "resdx/dx_unit.py:DXUnit.__init__"]}
{"id": "C87", "title": "EnergyPlus fan speeds", "statement": "The EnergyPlus fan lists one flow and power fraction for each fan speed of the unit, relative to the fastest, in the order of the fan's speeds; the last pair is one; if the order ascends in airflow so do the fractions.", "quantifier": "all fans and numbers of speeds", "why_tests_cant": "Ratio and order must be consistent for any set of speeds in any order.", "anchors": ["resdx/idf.py:write_idf", "resdx/fan.py:Fan.get_speed_order_map"]}
{"id": "C88", "title": "Net performance of a constructed RESNET unit is that of its net tables", "statement": "For every unit the RESNET constructor builds, from ratings or from supplied tables, the net capacity and net power at rated indoor conditions and airflow, at any outdoor temperature up to the 125 F cooling limit (any temperature in heating), are the interpolated values of the net tables at the table speed of that compressor speed, although the unit stores only gross tables and adds and subtracts fan power on the way.", "quantifier": "all constructor arguments, staging types, speeds and outdoor temperatures", "why_tests_cant": "Rated fan power, the gross correction and the fan power of a condition come from three code paths that must cancel for every airflow, motor and pressure.", "anchors": ["resdx/models/unified_resnet.py:RESNETDXModel.set_net_capacities_and_fan", "resdx/models/tabular_data.py:TemperatureSpeedPerformance.make_gross", "resdx/dx_unit.py:DXUnit.net_total_cooling_capacity", "resdx/dx_unit.py:DXUnit.net_steady_state_heating_capacity"]}
{"id": "C89", "title": "Units of every staging type return their full-speed ratings", "statement": "A unit of any staging type that the RESNET constructor makes from ratings evaluates to the rated EER2 and net cooling capacity at the A test, to the rated (or default) net heating capacity and COP at the H1 test and to the given capacity at 17 F.", "quantifier": "all ratings, airflows, motor types and rating pressures accepted by the constructor", "why_tests_cant": "An end-to-end identity through tables, fan selection and conditions; it depends on which of two reference airflows each of two code paths uses for the static pressure, so it holds for some units and fails slightly for others.", "anchors": ["resdx/models/unified_resnet.py:RESNETDXModel.set_fan", "resdx/dx_unit.py:DXUnit.make_condition", "resdx/dx_unit.py:DXUnit.eer"]}
{"id": "C90", "title": "A RESNET unit can be constructed from all sound tables", "statement": "Given net tables with positive cooling capacities, with heating capacities and powers above the largest possible fan power (0.843 W/cfm at 400 cfm/ton) and with rated capacities that do not increase from faster to slower speeds, the RESNET constructor returns a unit for every staging type, motor type and staging argument; its staging, rated capacities and airflows are those of the tables. In particular every unit with ratings in the usual ranges (EER2, SEER2, COP, capacities at 17 and 47 \u00b0F) can be constructed.", "quantifier": "all sound tables, supplied or made from ratings, all motor types, rating standards and ducted or ductless units with default airflows", "why_tests_cant": "A crash depends on the joint values of tables, fan power at the speed-dependent pressure, gross corrections, and the rating conditions of all speeds.", "anchors": ["resdx/dx_unit.py:DXUnit.__init__", "resdx/models/unified_resnet.py:RESNETDXModel.set_net_capacities_and_fan", "resdx/models/tabular_data.py:TemperatureSpeedPerformance.make_gross"]}
{"id": "C91", "title": "The mass-flow axis of the ASHRAE 205 map is the mass flow its values were computed for", "statement": "In a generated representation, the capacity stored at a grid point with mass flow m is the capacity the unit reports when its indoor mass flow is m, that is at airflow ratio m over the rated mass flow of that speed.", "quantifier": "all units, speeds and grid points", "why_tests_cant": "A wrong ratio gives plausible numbers; only comparing with the intended condition at every grid point shows it.", "anchors": ["resdx/dx_unit.py:DXUnit.generate_205_representation", "resdx/conditions.py:OperatingConditions.set_mass_airflow"]}
{"id": "C92", "title": "ASHRAE 205 axes rise and scalar entries are those of the unit", "statement": "Every axis of the generated cooling map is strictly increasing and evenly spaced over its documented range for every unit accepted by the constructor; the description values, control type, cycling degradation coefficient and standby map are those of the unit.", "quantifier": "all units with positive capacities in descending order", "why_tests_cant": "The mass-flow axis depends on the capacities of the unit, so monotonicity is a statement about all of them.", "anchors": ["resdx/dx_unit.py:DXUnit.generate_205_representation"]}
{"id": "C93", "title": "ASHRAE 205 identifiers are stable and reproducible from seeds", "statement": "Generating the representation again does not change any identifier or stored seed, and with seeds for unit and fan every identifier is the same in every Python process.", "quantifier": "all histories of calls, seeds and interpreter hash functions", "why_tests_cant": "The interpreter's string hashes are salted per process; a test in one process cannot see that.", "anchors": ["resdx/dx_unit.py:DXUnit.generate_205_representation", "resdx/fan.py:Fan.generate_205_representation"]}
{"id": "C94", "title": "Heating ratings do not touch the cooling side", "statement": "Two units constructed from arguments that differ only in the heating COP and the HSPF2 have the same cooling capacity, power and sensible capacity in every cooling condition, the same SEER2, EER2, sensible heat ratios and rated airflows, and the same heating capacities with and without defrost.", "quantifier": "all constructor arguments, both values of COP and HSPF2, all conditions and refrigerant charges", "why_tests_cant": "It relates two constructions for every pair of ratings; the rating solver relies on it.", "anchors": ["resdx/rating_solver.py:make_rating_unit", "resdx/models/unified_resnet.py:RESNETDXModel.set_net_capacities_and_fan"]}
{"id": "C95", "title": "Performance tables made from ratings follow the published curves at every temperature", "statement": "For all ratings, the net tables made for a single-stage, two-stage or variable-speed unit return at every outdoor temperature, between and beyond the rating points, the capacity and power given by a piecewise-linear curve whose nodes are explicit formulas of the ratings (rated capacities, SEER2, EER2, HSPF2, heating COP, capacity at 17 \u00b0F, cycling coefficient). The builders return for all nonzero ratings with a lowest temperature below 5 \u00b0F and a highest above 95 \u00b0F; the variable-speed builder has one critical lowest temperature, -78 1/3 \u00b0F, at which it divides by zero.", "quantifier": "all ratings, all stagings, all cut-off and maximum temperatures, all outdoor temperatures", "why_tests_cant": "The tables are filled by some forty order-dependent writes with interpolations and extrapolations between them; a test samples a few cells of a few units.", "anchors": ["resdx/models/tabular_data.py:make_single_speed_model_data", "resdx/models/tabular_data.py:make_two_speed_model_data", "resdx/models/tabular_data.py:make_neep_statistical_model_data"]}
{"id": "C96", "title": "The HSPF2 of a unit follows from its ratings", "statement": "A unit made from ratings passes its heating tests with the values of its curves at 47, 35 and 17 \u00b0F (at 35 \u00b0F reduced by frost except for the fan power), at full and low speed. A single-stage unit in the usual ranges has, in every climate region and for both editions of AHRI 210/240, the HSPF (HSPF2) that the bins of the standard give for those values, whatever its fan motor, ducts and sizes. For equal other ratings its reciprocal is an affine, increasing function of the reciprocal of the rated COP at 47 \u00b0F between 2.1 and 5: a larger COP gives a larger HSPF2.", "quantifier": "all capacities, COPs, degradation coefficients, cut-off temperatures, defrost data and climate regions in the usual ranges", "why_tests_cant": "It relates the seasonal rating to the constructor arguments through tables, gross corrections, fan, conditions and bin sums; monotonicity concerns all pairs of COPs.", "anchors": ["resdx/dx_unit.py:DXUnit.hspf", "resdx/models/unified_resnet.py:RESNETDXModel.gross_integrated_heating_capacity", "resdx/models/tabular_data.py:make_single_speed_model_data"]}
{"id": "C97", "title": "The SEER2 of staged units follows from their ratings", "statement": "A two-stage or variable-speed unit made from ratings passes its cooling tests at full and low speed with the values of its curves at 95, 82 and 67 \u00b0F. A two-stage unit in the usual ranges can be made. If its heating capacity is at most that of cooling, the reciprocal of its SEER2 is a weight divided by the COP of the low stage at 82 \u00b0F plus a weight divided by the EER2; the weights depend only on the cycling degradation coefficient, so that the SEER2 depends neither on the capacities nor on the heating ratings. If its heating capacity is larger, the SEER2 is that of a unit whose fan draws more at full speed than rated, by an amount given by the two capacities. The SEER2 of variable-speed units likewise follows from their ratings.", "quantifier": "all capacities, EER2, low-stage COPs, heating ratings and cooling degradation coefficients in the usual ranges", "why_tests_cant": "It relates the seasonal rating to the constructor arguments through tables, gross corrections, fan, conditions and bin sums, for a continuum of arguments.", "anchors": ["resdx/dx_unit.py:DXUnit.seer", "resdx/models/tabular_data.py:make_two_speed_model_data"]}
{"id": "C98", "title": "A two-stage unit made from a rated SEER2 has that SEER2", "statement": "A two-stage unit constructed from its SEER2 and EER2, without a COP of the low stage, evaluates to the SEER2 it was given, as a single-stage unit does. A larger COP of the low stage gives a larger SEER2.", "quantifier": "all sizes, SEER2, EER2 and heating ratings", "why_tests_cant": "The default COP is a placeholder formula of the rating; whether it reproduces the rating is a statement about all ratings, and the evaluated number looks plausible for any single unit.", "anchors": ["resdx/models/tabular_data.py:make_two_speed_model_data", "resdx/dx_unit.py:DXUnit.seer"]}
{"id": "C99", "title": "Units can be constructed with every performance model", "statement": "A unit constructed from positive, non-increasing rated capacities (one number, or one per speed) and rated COPs, with the default fan or one supplied by the caller and with any of the performance models, is returned without an exception, has the rated capacities it was given and delivers its rated net capacity and net COP at its rating condition.", "quantifier": "all models, capacities, numbers of speeds, stagings, COPs and fans", "why_tests_cant": "Which combinations of arguments get through the forty steps of the constructor is a statement about all arguments; tests construct a few.", "anchors": ["resdx/dx_unit.py:DXUnit.__init__", "resdx/models/base_model.py:DXModel.set_fan", "resdx/models/constant_model.py:ConstantDXModel", "resdx/models/title24.py:Title24DXModel.set_fan", "resdx/models/nrel.py:NRELDXModel.set_fan", "resdx/models/carrier_defrost_model.py:CarrierDefrostModel"]}
{"id": "C100", "title": "A unit keeps its own rated data whatever other units are constructed", "statement": "After any sequence of constructor calls, whether they return, raise or reject a keyword argument, every unit constructed so far answers with the rated data it was constructed with, also if model or base model objects are passed to several constructors.", "quantifier": "all sequences of constructor calls, all assignments of model objects to them, all crash points", "why_tests_cant": "It is a property of histories with aliasing; tests construct one unit per model object.", "anchors": ["resdx/models/base_model.py:DXModel.set_system", "resdx/dx_unit.py:DXUnit.__init__"]}
{"id": "C101", "title": "Keyword arguments of the constructor are recognised exactly if the model documents them", "statement": "A constructor call with a keyword argument the model does not recognise raises an exception whatever the other arguments are; one with recognised keyword arguments only passes the check, each value is used for the quantity it names, and each documented keyword argument can be given.", "quantifier": "all lists of keyword arguments, all values, all models", "why_tests_cant": "The names are strings looked up in two places that can disagree; tests never pass names that are not there.", "anchors": ["resdx/models/base_model.py:DXModel.set_system", "resdx/models/unified_resnet.py:RESNETDXModel.process_kwargs", "resdx/models/title24.py:Title24DXModel.process_kwargs"]}
{"id": "C102", "title": "The sensible capacity at the rating condition is the rated sensible heat ratio times the total capacity", "statement": "A unit whose cooling coil is characterised by a rated gross sensible heat ratio reports, at the condition it was rated at, that ratio: gross sensible capacity over gross total capacity.", "quantifier": "all rated sensible heat ratios, capacities, airflows and indoor conditions for which the constructor returns", "why_tests_cant": "The ratio goes through an outlet state, an apparatus dew point found by a root search, a bypass factor and back; a test with a tolerance of a few per cent hides a systematic offset.", "anchors": ["resdx/dx_unit.py:DXUnit.calculate_rated_bypass_factor", "resdx/dx_unit.py:DXUnit.gross_sensible_cooling_capacity", "resdx/models/unified_resnet.py:RESNETDXModel.gross_sensible_cooling_capacity"]}
{"id": "C103", "title": "The sensible capacity never exceeds the total capacity", "statement": "For every indoor condition the total cooling capacity of a unit splits into a sensible part and a latent part that is not negative, so that the sensible heat ratio is at most one.", "quantifier": "all indoor temperatures and humidities, airflows, bypass factors and capacities", "why_tests_cant": "The inequality must hold for all air states, including dry ones that no test visits.", "anchors": ["resdx/dx_unit.py:DXUnit.gross_sensible_cooling_capacity", "resdx/dx_unit.py:DXUnit.gross_shr"]}
{"id": "C104", "title": "The reported air states satisfy the energy balance", "statement": "The cooling outlet, apparatus dew point and heating outlet states a unit reports carry the capacity the unit reports: mass flow times the enthalpy difference to the indoor state is the total capacity, and the sensible part is the temperature difference at dry-air heat capacity; they can be asked for with and without conditions.", "quantifier": "all conditions, speeds and units", "why_tests_cant": "It is an identity between four methods for every state of the air.", "anchors": ["resdx/dx_unit.py:DXUnit.gross_cooling_outlet_state", "resdx/dx_unit.py:DXUnit.adp_state", "resdx/dx_unit.py:DXUnit.gross_heating_output_state"]}
{"id": "C105", "title": "The EnergyPlus file's fan uses the fan's power", "statement": "The fan object of an EnergyPlus file written for a unit describes the unit's fan: design flow times design pressure rise over total efficiency is the fan's power at its fastest setting, and the flow and power fractions of each speed, times these, are the airflow and the power of that setting.", "quantifier": "all fans, numbers of speeds, units and naming options for which a file is written", "why_tests_cant": "EnergyPlus recomputes the power from three numbers the file states separately; whether they agree with the fan must hold for every fan, and comparing a written file with an earlier one does not show it.", "anchors": ["resdx/idf.py:write_idf", "resdx/fan.py:Fan.efficiency", "resdx/fan.py:Fan.power_ratio", "resdx/fan.py:Fan.fluid_power"]}
{"id": "C106", "title": "A fan's efficiency is air power over electric power and at most one", "statement": "For every fan, speed and pressure the reported efficiency times the electric power is airflow times pressure, without a pressure it is the efficiency at the operating pressure, and no fan delivers more air power than the electric power it draws.", "quantifier": "all fan models, speeds, design values and external static pressures", "why_tests_cant": "The bound must hold for every pressure, also far from the operating point, and for every design efficacy.", "anchors": ["resdx/fan.py:Fan.efficiency", "resdx/fan.py:Fan.fluid_power", "resdx/fan.py:PSCFan", "resdx/fan.py:ECMFlowFan"]}
{"id": "C107", "title": "The validation table states the tests of the unit", "statement": "The table written for comparison with the rating organisation's spreadsheet states, in each column that names a test, the capacity, power and airflow the unit has in that test, and the settings the rating uses; together they determine the unit's HSPF. If the table cannot be written, an existing file is left alone.", "quantifier": "all units, test conditions, unit systems and existing files", "why_tests_cant": "Forty-nine columns are filled by forty-nine similar expressions; a wrong test in one of them yields a plausible number, and whether the columns suffice for the rating is a statement about all pairs of units.", "anchors": ["resdx/dx_unit.py:DXUnit.write_validation_tables"]}
{"id": "C108", "title": "The printed figures are those of the stages", "statement": "The cooling and heating summaries print the seasonal rating and then, for every stage in order, the figures of that stage at standard conditions in the requested units; nothing is skipped or repeated, and if a figure cannot be computed the lines before it, and no others, have been printed.", "quantifier": "all units, numbers of stages, unit names and regions, and all points at which a figure may raise", "why_tests_cant": "The number of stages is unbounded and a failure may occur at any line.", "anchors": ["resdx/dx_unit.py:DXUnit.print_cooling_info", "resdx/dx_unit.py:DXUnit.print_heating_info"]}
{"id": "C109", "title": "The performance plot shows every speed once, under its own name", "statement": "The plot of a unit has, for every quantity it shows, exactly one curve for each speed, labelled with that speed's name; the curve gives the quantity the label names at that speed and at each temperature of the axis, and the axis runs from the lowest to the highest operating temperature.", "quantifier": "all units, numbers of speeds, speed roles and operating limits", "why_tests_cant": "It quantifies over all numbers of speeds and all points of all curves; plots are looked at, not tested.", "anchors": ["resdx/dx_unit.py:DXUnit.plot"]}
{"id": "C110", "title": "Capacities given as lists are the unit's capacities, and the given COPs its COPs", "statement": "A unit made from lists of net capacities has one speed for each capacity, the given net capacities, gross capacities that differ by the fan power, and the given gross or net COP; capacities, powers and COPs of every speed agree with each other. A COP given for one speed of a two-speed unit fixes the other speed's.", "quantifier": "all capacity lists, numbers of speeds, COPs given as numbers or lists, and fans", "why_tests_cant": "The number of speeds is unbounded and net, gross and default COPs overwrite each other in sequence; tests construct a few one- and two-speed units.", "anchors": ["resdx/models/unified_resnet.py:RESNETDXModel.set_net_capacities_and_fan", "resdx/models/nrel.py:NRELDXModel.set_rated_net_cooling_cop", "resdx/models/nrel.py:NRELDXModel.set_rated_gross_cooling_cop", "resdx/models/nrel.py:NRELDXModel.set_rated_net_heating_cop", "resdx/models/nrel.py:NRELDXModel.set_rated_gross_heating_cop", "resdx/dx_unit.py:DXUnit.__init__"]}
{"id": "C111", "title": "A unit made from lists performs as its curves and ratings say", "statement": "A unit made from lists of capacities and COPs returns, at any outdoor temperature, its rated gross capacity and power times the published temperature curves, less or plus the fan's power; at the rating tests it returns the given net capacities and the rated net powers up to the rounding of the published curves.", "quantifier": "all units made from lists, all speeds and outdoor temperatures", "why_tests_cant": "It relates the given numbers to the computed performance for every unit and temperature.", "anchors": ["resdx/models/unified_resnet.py:RESNETDXModel.full_charge_gross_total_cooling_capacity", "resdx/models/nrel.py:NRELDXModel.full_charge_gross_steady_state_heating_capacity", "resdx/models/unified_resnet.py:RESNETDXModel.set_fan", "resdx/dx_unit.py:DXUnit.net_total_cooling_capacity"]}
{"id": "C112", "title": "EER and SEER of a unit made from lists follow from its arguments", "statement": "Every single-speed unit described by one capacity and one COP for each mode can be made, with its own or with a supplied fan; its EER and SEER are closed formulas in the capacity, the COP, the fan power and the degradation coefficient, and a given net cooling COP is the unit's EER.", "quantifier": "all capacities, COPs, fans and degradation coefficients", "why_tests_cant": "It needs the whole construction (fan, rating conditions, coil, COPs) to succeed for every capacity.", "anchors": ["resdx/dx_unit.py:DXUnit.__init__", "resdx/dx_unit.py:DXUnit.eer", "resdx/dx_unit.py:DXUnit.seer", "resdx/models/unified_resnet.py:RESNETDXModel.set_fan", "examples/pthp-equivalence.py"]}
{"id": "C113", "title": "The EnergyPlus file of a RESNET unit describes its performance map", "statement": "In the EnergyPlus file of a unit made from ratings or tables, the group of fields of each speed holds the gross capacity and COP of that speed of the unit's performance map at the rating condition and the airflow of that speed; the tables it refers to hold the map at the temperatures of the file times the published indoor and airflow curves, relative to the rated value if normalised. At the full speed, net capacity and COP of the file are the unit's rated ones.", "quantifier": "all units made from ratings or tables, speeds, table cells, names, system types and options", "why_tests_cant": "Each number of the file depends on the whole chain from the tables through fan, conditions and curves; tests compare a few files with stored text.", "anchors": ["resdx/idf.py:write_idf", "resdx/models/unified_resnet.py:RESNETDXModel.full_charge_gross_total_cooling_capacity", "resdx/models/unified_resnet.py:RESNETDXModel.full_charge_gross_steady_state_heating_capacity", "resdx/dx_unit.py:DXUnit.__init__"]}
{"id": "C114", "title": "The EnergyPlus file of a RESNET unit can always be written", "statement": "For every unit made from ratings or tables whose performance map is positive at the temperatures of the file, writing the EnergyPlus file returns, for every system type, option and name, whatever was asked of the unit before.", "quantifier": "all units made from ratings or tables, names, system types, options and earlier calls", "why_tests_cant": "Hundreds of performance evaluations, divisions and root searches must all succeed; tests write the files of a few units.", "anchors": ["resdx/idf.py:write_idf", "resdx/dx_unit.py:DXUnit.__init__", "resdx/fan.py:Fan.get_speed_order_map"]}
{"id": "C115", "title": "The EnergyPlus file does not depend on earlier calls", "statement": "What writing an EnergyPlus file of a unit returns or raises, and the COP at 60 F it reports for defrost, are the same on a fresh unit and after any sequence of earlier calls, including calls that raised; the COP is that of the unit itself.", "quantifier": "all units and all sequences of earlier calls", "why_tests_cant": "The value is stored on first use, so a stale or foreign value would only show after particular histories.", "anchors": ["resdx/idf.py:write_idf", "resdx/models/nrel.py:NRELDXModel.get_cooling_cop60"]}
{"id": "C116", "title": "SEER and HSPF of a unit made from lists follow from the ratings of its speeds", "statement": "In every test of the rating standard, a unit made from lists of capacities and COPs performs as the gross capacity and power of the speed, the published curves and the power the fan draws in the tests say. Every single-speed unit described by one capacity and one COP for each mode can be made, ducted or not, with either fan motor and in either edition of the standard, and its EER, SEER and HSPF in every region are closed formulas in its arguments; so can every two-stage unit with a capacity and a COP for each stage, and the same holds of its ratings; a given net cooling COP is the EER of a single-speed unit.", "quantifier": "all units made from lists, all climate regions, both editions, all capacities and COPs", "why_tests_cant": "The seasonal sums depend on the whole chain from fan through tests to loads; tests evaluate a few units.", "anchors": ["resdx/dx_unit.py:DXUnit.hspf", "resdx/dx_unit.py:DXUnit.seer", "resdx/dx_unit.py:DXUnit.set_rating_conditions", "resdx/models/unified_resnet.py:RESNETDXModel.set_fan"]}
{"id": "C117", "title": "The text of a fitted curve denotes the curve", "statement": "Read as a formula, the text written for a linear, quadratic, cubic or quartic curve has a value for every value of the variable that differs from the curve's by at most 0.05 % of the sizes of its terms; the text of an exponential curve is read as the exponential curve with the coefficients shown.", "quantifier": "all coefficients, variable names without operators, and values of the variable", "why_tests_cant": "Texts and formulas are compared for all coefficients and arguments; tests compare a few strings.", "anchors": ["resdx/util.py:linear_string", "resdx/util.py:quadratic_string", "resdx/util.py:cubic_string", "resdx/util.py:quartic_string", "resdx/util.py:exponential_string"]}
{"id": "C118", "title": "The metadata of a representation are those of the unit and its fan", "statement": "Every generated ASHRAE 205 representation carries the data source, version and description given for the unit and its fan, and notes exactly if there are any; without a description of the fan, the text describes the fan as it is.", "quantifier": "all metadata, fans and histories of changes and earlier representations, including ones that raised", "why_tests_cant": "The text is stored on first use, so what it says depends on the history of the fan.", "anchors": ["resdx/fan.py:FanMetadata", "resdx/dx_unit.py:DXUnitMetadata", "resdx/fan.py:Fan.generate_205_representation", "resdx/dx_unit.py:DXUnit.generate_205_representation"]}
{"id": "C119", "title": "An ASHRAE 205 representation can be generated for every RESNET unit", "statement": "For every unit made from ratings or tables whose performance map is positive at the temperatures of the representation, generating the ASHRAE 205 representation of the unit with its fan returns; each point of the map holds the gross capacity and power of the unit's tables, with the fan power, times the published modifiers of indoor wet bulb and airflow.", "quantifier": "all units made from ratings or tables, all points of the map", "why_tests_cant": "The map has 1024 points for each speed and every one of them must evaluate; whether they do depends on the ratio of the unit's capacities.", "anchors": ["resdx/dx_unit.py:DXUnit.generate_205_representation", "resdx/conditions.py:OperatingConditions.set_mass_airflow", "resdx/fan.py:Fan.generate_205_representation"]}
{"id": "C120", "title": "The rotational speeds of a fan representation lie within its declared range", "statement": "The ASHRAE 205 representation of a fan declares a largest rotational speed of 1500 rpm and a smallest one of zero; every impeller speed listed for a setting and a static pressure lies between them.", "quantifier": "all fans, settings and static pressures of the representation, and histories of changes of the fan", "why_tests_cant": "The speed of every setting at every pressure depends on the design point, the power limit and the order of the settings; tests look at a few fans.", "anchors": ["resdx/fan.py:Fan.generate_205_representation", "resdx/fan.py:Fan.rotational_speed", "resdx/fan.py:PSCFan.rotational_speed", "resdx/fan.py:ECMFlowFan.rotational_speed", "resdx/models/unified_resnet.py:RESNETDXModel.set_fan"]}
{"id": "C121", "title": "A unit that delivers the same and draws less power is never rated lower", "statement": "If two units deliver the same net capacity at every condition and the second draws less net power, the EER, SEER and HSPF of the second are not lower; if it draws k times the power at every condition, its EER and SEER are exactly 1/k times those of the first, and its HSPF lies between that of the first and 1/k times it.", "quantifier": "all units, staging types, cycling methods, bins, climate regions and editions of the standard, and all factors k", "why_tests_cant": "A rating sums bins whose operating point depends on loads, capacities and the cut-out logic; tests compare a few pairs of units.", "anchors": ["resdx/dx_unit.py:DXUnit.eer", "resdx/dx_unit.py:DXUnit.seer", "resdx/dx_unit.py:DXUnit.hspf"]}
{"id": "C122", "title": "Less favourable heating settings never raise the HSPF", "statement": "Raising the heating degradation coefficient, the cut-out temperature or the cut-in temperature of a unit, everything else being equal, never raises its HSPF; the HSPF is proportional to the demand-defrost credit and does not depend on the defrost otherwise than through the unit's performance.", "quantifier": "all units with powers that are not negative, staging types, cycling methods, climate regions and editions of the standard, and all pairs of settings", "why_tests_cant": "The settings act through a run fraction in each of eighteen bins, for two-stage units carried over from bin to bin; tests compare a few ratings.", "anchors": ["resdx/dx_unit.py:DXUnit.hspf", "resdx/defrost.py:Defrost.demand_credit"]}
{"id": "C123", "title": "The HSPF never exceeds the best COP", "statement": "If no speed of a unit has a COP above M (at least 1) at any temperature of the bins, its HSPF is not above M times the demand-defrost credit.", "quantifier": "all units with positive powers, staging types, cycling methods, climate regions and editions of the standard, and all bounds M", "why_tests_cant": "The rating divides a sum of loads by a sum of energies and resistance heat over eighteen bins; a term that is dropped or negative only shows for particular units and settings.", "anchors": ["resdx/dx_unit.py:DXUnit.hspf"]}
{"id": "C124", "title": "A unit that heats more from no more power is never rated lower", "statement": "If two units have the same cooling capacity and the second delivers at least as much heat from at most as much power at every temperature of the bins, the HSPF of the second is not lower.", "quantifier": "all pairs of units, staging types, cycling methods, climate regions and editions of the standard", "why_tests_cant": "More capacity moves bins between cycling, staged and full operation and changes run fractions and resistance heat; tests compare a few pairs of units.", "anchors": ["resdx/dx_unit.py:DXUnit.hspf", "resdx/util.py:find_nearest"]}
{"id": "C125", "title": "A unit that cools more from no more power is never rated lower", "statement": "If the second of two units delivers at least as much cooling from at most as much power in each of its tests, its SEER is not lower; multiplying all capacities by a and all powers by b multiplies the SEER by a/b.", "quantifier": "all pairs of units, staging types, cycling methods, degradation coefficients and bins", "why_tests_cant": "A better speed moves bins between cycling, staged and full operation and turns the lines through the tests; tests compare a few pairs of units.", "anchors": ["resdx/dx_unit.py:DXUnit.seer"]}
{"id": "C126", "title": "A unit whose stages are alike is rated as a single-stage unit", "statement": "If the low stage of a two-stage unit performs as its full stage, the staging type makes no difference: HSPF and SEER equal those of the same unit declared single-stage, and do not depend on the cycling method. A variable-speed unit whose speeds are alike is rated too.", "quantifier": "for all units, powers, capacities, cut-out and cut-in temperatures, degradation coefficients, regions, editions and cycling methods", "why_tests_cant": "The branch taken differs in every temperature bin with capacity and load; tests use units whose stages differ.", "anchors": ["resdx/dx_unit.py:DXUnit.hspf", "resdx/dx_unit.py:DXUnit.seer"]}
{"id": "C127", "title": "An ECM fan at its power limit delivers less air as the pressure rises", "statement": "After any history of adding and removing speeds, with rising static pressure no setting of an ECM constant-flow fan delivers more air, draws less power or draws less power for its air. At the limit the airflow falls as the square root of the ratio of the limit to the power an unlimited fan would draw; a higher limit never means less air. Airflow and power are continuous in the pressure. At a positive pressure the rotational speed is proportional to the air delivered, whatever the setting and the limit.", "quantifier": "for all airflows, design pressures and efficacies, limits, histories, settings and pressures", "why_tests_cant": "The limit takes effect at a pressure that differs for each fan and setting; tests evaluate fans without a limit.", "anchors": ["resdx/fan.py:ECMFlowFan.airflow", "resdx/fan.py:ECMFlowFan.power", "resdx/fan.py:ECMFlowFan.efficacy", "resdx/fan.py:ECMFlowFan.rotational_speed", "resdx/fan.py:ECMFlowFan.add_speed"]}
{"id": "C128", "title": "The coils of an EnergyPlus file carry the unit's settings", "statement": "In every EnergyPlus file written for a unit, the cooling and the heating coil refer to exactly one part-load curve each, which is the part-load fraction the seasonal ratings use for the unit's degradation coefficient and is one at full load; they carry the crankcase heater, cut-out and cut-in temperatures and the defrost strategy, control, time fraction and heater of the unit; the defrost energy curve is constant over a range that is not empty.", "quantifier": "for all units, degradation coefficients, temperatures, defrost settings, system types, options and names", "why_tests_cant": "The settings are independent of each other and the numbers are rounded one by one; tests compare a few files as text.", "anchors": ["resdx/idf.py:write_idf", "resdx/dx_unit.py:DXUnit.seer", "resdx/defrost.py:Defrost"]}
{"id": "C129", "title": "A refrigerant charge fault never makes a unit more efficient", "statement": "A unit with too little or too much refrigerant has no higher EER, SEER or heating COP than the same unit with the right charge, and with too little it cools no more.", "quantifier": "for all units with a model that knows charge faults, charge deviations, conditions at the rated airflow and fans", "why_tests_cant": "The effect of the fault depends on the temperatures and on the deviation through curves that cross; tests evaluate one deviation.", "anchors": ["resdx/models/nrel.py:NRELDXModel.resnet_grading_model", "resdx/models/nrel.py:NRELDXModel.domonski_charge_factor", "resdx/dx_unit.py:DXUnit.gross_total_cooling_capacity", "resdx/dx_unit.py:DXUnit.eer", "resdx/dx_unit.py:DXUnit.seer"]}
{"id": "C130", "title": "With less air a unit neither cools or heats more nor does so more efficiently", "statement": "When only the airflow of a condition changes, the capacity and the power of a unit change by the published airflow curves, whatever the temperatures, the speed, the tables and the refrigerant charge; with less air the unit never has a higher gross capacity or a higher gross COP.", "quantifier": "for all units with the NREL or the RESNET model, tables, charges, conditions and pairs of airflows", "why_tests_cant": "The airflow enters the charge correction three times at different conditions and the tables once more through a ratio of curves; tests use rated airflow.", "anchors": ["resdx/models/nrel.py:NRELDXModel.resnet_grading_model", "resdx/models/nrel.py:NRELDXModel.gross_total_cooling_capacity", "resdx/models/nrel.py:NRELDXModel.gross_cooling_power", "resdx/models/unified_resnet.py:RESNETDXModel.get_cooling_correction_factor", "resdx/conditions.py:OperatingConditions.set_mass_airflow_ratio"]}
{"id": "C131", "title": "Units made from ratings with a charge fault perform as their tables and the published fault factors say", "statement": "Take a unit with the RESNET model constructed from ratings or from supplied tables, with a refrigerant charge anywhere between half and one and a half times the nominal one. At rated indoor air and airflow its net cooling capacity and power, and its net steady-state heating capacity and power, are those of its net tables without the rated fan power, times the published fault factors, with the fan power of the condition put back. The charge changes nothing else of the unit: tables, fan, rated capacities and airflows and rating conditions are those of the unit with the nominal charge. So with too little charge the EER2 never exceeds that of the nominal unit, nor does the SEER2 of a single-stage unit. In integrated heating the capacity carries the fault factor, but the power does not: at 47 \u00b0F, where it does not defrost, an undercharged unit reports a higher integrated than steady-state power.", "quantifier": "for all ratings and tables, staging types, whole table speeds, charges within half of nominal, outdoor temperatures up to 125 \u00b0F in cooling and any in heating, and fans", "why_tests_cant": "The charge factor calls the performance functions at rescaled airflows and divides by them; tests fix one unit, one charge and one temperature and cannot show that the rescaling always cancels, that it is defined for every unit, or that no construction step reads the charge.", "anchors": ["resdx/models/nrel.py:NRELDXModel.resnet_grading_model", "resdx/models/unified_resnet.py:RESNETDXModel", "resdx/dx_unit.py:DXUnit.__init__"]}
{"id": "C132", "title": "In air as published every usual unit can be made with any charge within half of nominal", "statement": "Take a unit with the RESNET model made from its ratings within the usual ranges, and moist air with the published properties. Then the same arguments with a refrigerant charge anywhere between half and one and a half times the nominal one also give a unit: neither the charge factor nor the coil calculation fails. The rated gross sensible heat ratio stored at each speed does not depend on the charge, and the one the unit reports at the rating condition of that speed stays within 0.729 and 0.732, although the gross capacity has changed. If the unit with the nominal charge reports an EER2, so does the faulty one, and with too little charge it is not larger; the same holds of the SEER2 of single-stage units, and of the heating COP at the 47 \u00b0F rating condition of each speed where the nominal one is at least 1.", "quantifier": "for all ratings in the usual ranges of single-stage, two-stage and variable-speed units, all charges within half of nominal, all speeds, and all psychrometric libraries and root finders meeting the published laws", "why_tests_cant": "The coil calculation searches for an apparatus dew point from the faulty capacity; whether one exists for every size, staging and charge is a statement about a continuum of units that no set of test units settles.", "anchors": ["resdx/dx_unit.py:DXUnit.__init__", "resdx/dx_unit.py:DXUnit.set_sensible_cooling_variables", "resdx/dx_unit.py:DXUnit.calculate_rated_bypass_factor", "resdx/models/nrel.py:NRELDXModel.resnet_grading_model"]}
{"id": "C133", "title": "The heating ratios are what frost leaves, whatever the speed, the indoor air or the airflow", "statement": "The ratio of integrated to steady-state heating a unit reports, of capacity or power, gross or net, is returned exactly when both values are and the steady-state one is not zero, and the integrated COP is the steady-state COP times the capacity ratio over the power ratio. With the RESNET model the gross ratios are one when the unit does not defrost, and otherwise 1 - 1.8 f and 1 - 0.3 f, where f is the defrost fraction at the outdoor temperature: they do not depend on the speed, the indoor air, the airflow or the refrigerant charge. The net capacity ratio lies between the gross one and one, and is never below 0.856. The net power ratio lies between the gross one and one, and is never below 0.976, and frost never raises the net COP of a unit that heats at least as much as it draws.", "quantifier": "for all units, models, conditions, charges and fans with a non-negative power", "why_tests_cant": "The ratios compare two computations that share only part of their path; a factor that one of them misses changes the ratio at conditions a test does not visit, such as a faulty charge where the unit does not defrost.", "anchors": ["resdx/dx_unit.py:DXUnit.gross_heating_capacity_ratio", "resdx/dx_unit.py:DXUnit.net_heating_capacity_ratio", "resdx/dx_unit.py:DXUnit.gross_heating_power_ratio", "resdx/dx_unit.py:DXUnit.net_heating_power_ratio", "resdx/models/unified_resnet.py:RESNETDXModel.gross_integrated_heating_power"]}
{"id": "C134", "title": "The system of an EnergyPlus file runs the unit and nothing else", "statement": "In every EnergyPlus file written for a unit the first object is the system. It names the fan and the two coils of the file together with their classes, it and the fan are available all year, and its fan runs with the compressor. A packaged terminal unit takes no outdoor air and its supplemental heater has no capacity; a unitary system names no supplemental heater and sizes its heating coil by the ratio of the unit's integrated heating capacity to its cooling capacity.", "quantifier": "for all units, system types, options, names and number formats for which the file is written", "why_tests_cant": "A simulation silently uses whatever object a name leads to; a wrong schedule value or an unwanted heater shows only in annual results, for one system type or name.", "anchors": ["resdx/idf.py:write_idf"]}
{"id": "C135", "title": "The default fan and capacities of the NREL model", "statement": "Without a fan of its own, an NREL unit is given a fan efficacy that is 0.25 W/cfm up to SEER 14 or without a SEER, 0.18 from SEER 16 on and a straight line between, so never increasing with the SEER, the same at every speed; with one or two speeds it is given the published airflows per capacity. Two capacities made from one have the given one as the high speed and a gross low-speed capacity of 0.72 of the gross high-speed one; from a positive capacity both are positive and the low one is less.", "quantifier": "for all arguments, SEER ratings and capacities", "why_tests_cant": "A test checks one SEER and one capacity; continuity at both ends, the sign of the fan heat in each mode and the order of the capacities concern all of them.", "anchors": ["resdx/models/nrel.py:NRELDXModel.set_rated_fan_characteristics", "resdx/models/nrel.py:NRELDXModel.set_rated_net_total_cooling_capacity", "resdx/models/nrel.py:NRELDXModel.set_rated_net_heating_capacity"]}
{"id": "C136", "title": "A Title-24 unit cools no more when it is hotter outdoors and no less when the indoor air is more humid", "statement": "With the same indoor air and airflow the gross cooling capacity of a Title-24 unit does not rise with the outdoor temperature; with the same dry bulbs and airflow it does not fall as the indoor wet bulb rises.", "quantifier": "for all units, speeds, airflows and air states in the range of the regressions", "why_tests_cant": "The capacity is a quadratic regression in four variables with two sets of coefficients; its slope and what happens where the sets meet cannot be seen at single points.", "anchors": ["resdx/models/title24.py:Title24DXModel.gross_total_cooling_capacity", "resdx/models/title24.py:Title24DXModel.gross_shr", "resdx/models/title24.py:Title24DXModel.CA_regression"]}
{"id": "C137", "title": "Drier or warmer indoor air raises the sensible share of a Title-24 unit's cooling", "statement": "The gross sensible heat ratio of a Title-24 unit is defined at every positive airflow, never exceeds one and does not fall when the indoor wet bulb falls, either dry bulb rises or the airflow rises, in any combination; below one it rises strictly with either dry bulb. Where the coil is wet, warmer indoor air of the same wet bulb leaves the total capacity unchanged and raises the sensible capacity by 2.4202 % of the total for each degree Fahrenheit.", "quantifier": "for all units, speeds, positive airflows and air states with an indoor wet bulb of at most 99 \u00b0F (the last part: any)", "why_tests_cant": "The ratio is a quadratic regression cut off at one, and the capacity it multiplies switches regressions at the cut-off; slopes of a product over four variables cannot be seen at single points.", "anchors": ["resdx/models/title24.py:Title24DXModel.gross_shr", "resdx/models/title24.py:Title24DXModel.gross_sensible_cooling_capacity", "resdx/models/title24.py:Title24DXModel.CA_regression"]}
{"id": "C138", "title": "More air over the coil of a Title-24 unit does not cool less", "statement": "With the same indoor and outdoor air, more airflow per ton does not lower the gross total cooling capacity of a Title-24 unit whose coil stays wet, or stays dry, nor its gross sensible cooling capacity.", "quantifier": "for all units, speeds and pairs of airflows (up to 500 cfm/ton for a wet coil) with an indoor wet bulb of at least 60 \u00b0F (wet) or an indoor temperature of at least 70 \u00b0F (dry) and 7 to 115 \u00b0F outdoors", "why_tests_cant": "The airflow enters linearly, in two products with temperatures and as a reciprocal; whether the sum rises over the whole range cannot be seen at single points.", "anchors": ["resdx/models/title24.py:Title24DXModel.gross_total_cooling_capacity", "resdx/models/title24.py:Title24DXModel.gross_sensible_cooling_capacity", "resdx/models/title24.py:Title24DXModel.CA_regression"]}
