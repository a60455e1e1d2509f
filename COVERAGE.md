# Coverage of the code by the model

Generated by `tools/coverage.py` from the citations in `lean/Verif/Model`. For every function of the package: the model
definitions that cite lines inside it. `not modelled` marks functions without one.
320 of 320 functions (6653 of 6653 lines in functions) are modelled or abstract.


## resdx/conditions.py

| function | model |
|---|---|
| `OperatingConditions.__init__` (6-19) | `Conditions.OpCond`, `Conditions.init` |
| `OperatingConditions.set_rated_volumetric_airflow` (21-33) | `Conditions.setRatedVolumetricAirflow` |
| `OperatingConditions.set_volumetric_airflow` (35-48) | `Conditions.setVolumetricAirflow` |
| `OperatingConditions.set_standard_volumetric_airflow` (50-65) | `Conditions.setStandardVolumetricAirflow` |
| `OperatingConditions.set_mass_airflow` (67-82) | `Conditions.setMassAirflow` |
| `OperatingConditions.set_mass_airflow_ratio` (84-99) | `Conditions.setMassAirflowRatio` |
| `OperatingConditions.set_new_fan_speed` (101-103) | `Conditions.setNewFanSpeed` |
| `CoolingConditions.__init__` (107-121) | `System.defaultIndoor`, `System.defaultOutdoor` |
| `HeatingConditions.__init__` (125-139) | `System.defaultIndoor`, `System.defaultOutdoor` |

## resdx/defrost.py

| function | model |
|---|---|
| `Defrost.__init__` (21-46) | `Defrost.Defrost`, `Defrost.init`, `Defrost.default`, `IdfResnet.FileContext`, `RatingSolver.requestDefrost` |
| `Defrost.in_defrost` (48-60) | `Defrost.inDefrost` |
| `Defrost.demand_credit` (62-71) | `Defrost.demandCredit` |

## resdx/dx_unit.py

| function | model |
|---|---|
| `interpolate_separate` (33-36) | `DXUnit.interpolateSeparate` |
| `interpolate` (39-40) | `DXUnit.interpolate` |
| `HeatingDistribution.__init__` (59-83) | `Hspf.renormalise`, `Hspf.HeatDist.make` |
| `CoolingDistribution.__init__` (92-93) | `Seer.coolingBins` |
| `DXUnitMetadata.__init__` (97-111) | `Metadata.UnitMetadata` |
| `DXUnit.__init__` (141-387) | `BaseModel.grossCooling`, `BaseModel.grossHeating`, `BaseModel.applyOpt`, `BaseModel.applyCops`, `BaseModel.defaultGrossCoolingCop`, `BaseModel.defaultGrossHeatingCop`, `BaseModel.numberOfSpeeds`, `BaseModel.Roles`, `BaseModel.roles`, `BaseModel.stagingOf`, `BaseModel.finalChecks`, `Hspf.offTemperature`, `Hspf.onTemperature`, `IdfResnet.Built.coolingCop60`, `IdfResnet.FileContext`, `ResnetBuild.Args`, `ResnetBuild.inputEer`, `ResnetBuild.grossList`, `ResnetBuild.sys`, `ResnetBuild.crankcase`, `ResnetBuild.build`, `ResnetLists.Args`, `ResnetLists.Args.nC`, `ResnetLists.Args.nH`, `ResnetLists.Args.rc`, `ResnetLists.Args.rh`, `ResnetLists.crankcase`, `ResnetLists.cops`, `ResnetLists.build`, `System.Sys`, `UnitBuild.Args`, `UnitBuild.Args.kwargs`, `UnitBuild.Args.nC`, `UnitBuild.Args.nH`, `UnitBuild.Made`, `UnitBuild.grossOf`, `UnitBuild.crankcase`, `UnitBuild.cops`, `UnitBuild.build`, `UnitBuild.Objects.construct` |
| `DXUnit.set_rating_conditions` (389-479) | `BaseModel.ratedSpeeds`, `Ratings.setRatingConditions`, `Seer.Points` |
| `DXUnit.set_sensible_cooling_variables` (481-503) | `ResnetBuild.coilStep`, `ResnetBuild.coilData`, `UnitBuild.coilStep`, `UnitBuild.coilData` |
| `DXUnit.reset_rated_flow_rates` (505-567) | `Ratings.coolingTests`, `Ratings.heatingTests`, `Ratings.resetLoop`, `Ratings.resetMode`, `Ratings.resetRatedFlowRates`, `Ratings.constEffOps` |
| `DXUnit.check_array_length` (569-573) | `BaseModel.checkArrayLength` |
| `DXUnit.check_array_lengths` (575-587) | `BaseModel.checkArrayLengths` |
| `DXUnit.check_array_order` (589-593) | `BaseModel.checkArrayOrder` |
| `DXUnit.set_placeholder_arrays` (595-619) | `BaseModel.Rated`, `BaseModel.Rated.fresh`, `ResnetFan.Side.start` |
| `DXUnit.make_condition` (621-651) | `System.makeCondition` |
| `DXUnit.get_rated_full_flow_rated_pressure` (653-666) | `ResnetFan.fullFlowPressure` |
| `DXUnit.calculate_rated_pressure` (668-672) | `ResnetFan.ratedPressure`, `System.ratedPressure` |
| `DXUnit.set_rating_standard` (674-677) | `Ratings.setRatingStandard` |
| `DXUnit.cooling_fan_power` (680-683) | `DXUnit.coolingFanPower`, `ResnetBuild.fanPower`, `ResnetLists.fanPower`, `UnitBuild.Built.fanPower` |
| `DXUnit.cooling_fan_heat` (685-686) | `DXUnit.coolingFanHeat` |
| `DXUnit.gross_total_cooling_capacity` (688-695) | `DXUnit.grossTotalCoolingCapacity`, `Title24.systemTotal` |
| `DXUnit.gross_sensible_cooling_capacity` (697-702) | `DXUnit.grossSensibleCoolingCapacity` |
| `DXUnit.gross_shr` (704-710) | `DXUnit.grossSHR` |
| `DXUnit.gross_cooling_power` (712-719) | `DXUnit.grossCoolingPower` |
| `DXUnit.net_total_cooling_capacity` (721-724) | `DXUnit.netTotalCoolingCapacity` |
| `DXUnit.net_sensible_cooling_capacity` (726-729) | `DXUnit.netSensibleCoolingCapacity` |
| `DXUnit.net_shr` (731-734) | `DXUnit.netSHR` |
| `DXUnit.net_cooling_power` (736-737) | `DXUnit.netCoolingPower` |
| `DXUnit.gross_total_cooling_cop` (739-742) | `DXUnit.grossTotalCoolingCOP` |
| `DXUnit.gross_sensible_cooling_cop` (744-747) | `DXUnit.grossSensibleCoolingCOP` |
| `DXUnit.net_total_cooling_cop` (749-752) | `DXUnit.netTotalCoolingCOP` |
| `DXUnit.net_sensible_cooling_cop` (754-757) | `DXUnit.netSensibleCoolingCOP` |
| `DXUnit.gross_cooling_outlet_state` (759-770) | `CoilStates.coolingOutlet`, `Sensible.outletState` |
| `DXUnit.calculate_adp_state` (772-790) | `Sensible.lineHumRatio`, `Sensible.adpResidual`, `Sensible.adpState` |
| `DXUnit.calculate_rated_bypass_factor` (792-811) | `DXUnit.ratedBypassFactor`, `Sensible.ratedBypass` |
| `DXUnit.bypass_factor` (813-818) | `DXUnit.bypassFactor`, `Sensible.bypass` |
| `DXUnit.adp_state` (820-822) | `CoilStates.adpOf` |
| `DXUnit.eer` (824-825) | `DXUnit.eer` |
| `DXUnit.seer` (827-975) | `Seer.binLoop`, `Seer.coolingLoad`, `Seer.cyclingBin`, `Seer.twoStageBin`, `Seer.modulatingBin`, `Seer.varSpeedBin`, `Seer.coolingIntermediate`, `Seer.coolingLines`, `Seer.seerTwoBin`, `Seer.seerVarBin`, `Seer.seer` |
| `DXUnit.heating_fan_power` (978-981) | `ResnetBuild.fanPower`, `ResnetLists.fanPower`, `UnitBuild.Built.fanPower` |
| `DXUnit.heating_fan_heat` (983-984) | `DXUnit.heatingFanPower` |
| `DXUnit.gross_steady_state_heating_capacity` (986-991) | `DXUnit.grossSteadyHeatingCapacity`, `Nrel.steadyCapacity` |
| `DXUnit.gross_steady_state_heating_power` (993-998) | `DXUnit.grossSteadyHeatingPower`, `Nrel.steadyPower` |
| `DXUnit.gross_integrated_heating_capacity` (1000-1003) | `DXUnit.grossIntegratedHeatingCapacity` |
| `DXUnit.gross_integrated_heating_power` (1005-1008) | `DXUnit.grossIntegratedHeatingPower` |
| `DXUnit.net_steady_state_heating_capacity` (1010-1013) | `DXUnit.netSteadyHeatingCapacity` |
| `DXUnit.net_steady_state_heating_power` (1015-1018) | `DXUnit.netSteadyHeatingPower` |
| `DXUnit.net_integrated_heating_capacity` (1020-1023) | `DXUnit.netIntegratedHeatingCapacity` |
| `DXUnit.net_integrated_heating_power` (1025-1028) | `DXUnit.netIntegratedHeatingPower` |
| `DXUnit.gross_steady_state_heating_cop` (1030-1033) | `DXUnit.grossSteadyHeatingCOP` |
| `DXUnit.gross_integrated_heating_cop` (1035-1038) | `DXUnit.grossIntegratedHeatingCOP` |
| `DXUnit.net_steady_state_heating_cop` (1040-1043) | `DXUnit.netSteadyHeatingCOP` |
| `DXUnit.net_integrated_heating_cop` (1045-1048) | `DXUnit.netIntegratedHeatingCOP` |
| `DXUnit.gross_heating_capacity_ratio` (1050-1053) | `DXUnit.grossHeatingCapacityRatio` |
| `DXUnit.net_heating_capacity_ratio` (1055-1058) | `DXUnit.netHeatingCapacityRatio` |
| `DXUnit.gross_heating_power_ratio` (1060-1063) | `DXUnit.grossHeatingPowerRatio` |
| `DXUnit.net_heating_power_ratio` (1065-1068) | `DXUnit.netHeatingPowerRatio` |
| `DXUnit.gross_heating_output_state` (1070-1078) | `CoilStates.heatingOutput` |
| `DXUnit.hspf` (1080-1376) | `Hspf.regional`, `Hspf.cutFactor`, `Hspf.loadFactor`, `Hspf.heatSingleBin`, `Hspf.heatLowBin`, `Hspf.heatTwoBin`, `Hspf.heatModulatingBin`, `Hspf.heatVarBin`, `Hspf.heatFull`, `Hspf.heatLowTwo`, `Hspf.heatLowVar`, `Hspf.heatFullAgain`, `Hspf.heatIntermediateOf`, `Hspf.heatIntermediate`, `Hspf.heatIntermediateFor`, `Hspf.heatingLoad`, `Hspf.heatStaging`, `Hspf.heatBin`, `Hspf.heatLoop`, `Hspf.hspfWith`, `Hspf.hspf`, `RatingSolver.Built.hspf`, `ResnetLists.Built.hspf` |
| `DXUnit.print_cooling_info` (1378-1393) | `Reports.coolingLines`, `Reports.sayStages`, `Reports.printCooling` |
| `DXUnit.print_heating_info` (1395-1408) | `Reports.heatingLines`, `Reports.sayStages`, `Reports.printHeating` |
| `DXUnit.generate_205_representation` (1410-1575) | `Metadata.Part`, `Metadata.Formats`, `Metadata.notesKey`, `Metadata.unitParts`, `Rep205.linspace4`, `Rep205.Axes`, `Rep205.axes`, `Rep205.gridCondition`, `Rep205.entry`, `Rep205.coolingMap`, `Rep205.representation`, `Rep205.coilId`, `Rep205.identifiers` |
| `DXUnit.plot` (1577-1753) | `Reports.DisplaySpec`, `Reports.displaySpecs`, `Reports.Curve`, `Reports.plotTemperatures`, `Reports.plotAxis`, `Reports.speedName`, `Reports.plotCondition`, `Reports.plotConditions`, `Reports.groupText`, `Reports.curve`, `Reports.curvesOf`, `Reports.plot` |
| `DXUnit.write_validation_tables` (1755-1902) | `Reports.blower`, `Reports.entries`, `Reports.writeTables` |

## resdx/fan.py

| function | model |
|---|---|
| `FanMetadata.__init__` (16-28) | `Metadata.FanMetadata` |
| `Fan.__init__` (42-67) | `Fan.Base`, `Fan.Base.start`, `Fan.addAll` |
| `Fan.add_speed` (69-74) | `Fan.Base.addSpeed` |
| `Fan.remove_speed` (76-79) | `Fan.Base.removeSpeed` |
| `Fan.system_pressure` (81-82) | `Fan.Base.systemPressure` |
| `Fan.system_flow` (84-88) | `Fan.Base.systemFlow` |
| `Fan.calculate_system_curve_constant` (90-94) | `Fan.Base`, `Fan.systemCurveConstant` |
| `Fan.efficacy` (96-97) | abstract (raises NotImplementedError) |
| `Fan.airflow` (99-100) | abstract (raises NotImplementedError) |
| `Fan.airflow_ratio` (102-105) | `Fan.resnetAirflowRatio`, `FanEfficiency.airflowRatio` |
| `Fan.power` (107-110) | `Fan.power` |
| `Fan.power_ratio` (112-115) | `FanEfficiency.powerRatio` |
| `Fan.fluid_power` (117-126) | `FanEfficiency.fluidPower` |
| `Fan.efficiency` (128-131) | `FanEfficiency.efficiency` |
| `Fan.rotational_speed` (133-137) | `Fan.resnetRotationalSpeed`, `FanEfficiency.rotationalSpeed` |
| `Fan.operating_pressure` (139-151) | `Fan.Brentq`, `Fan.operatingPressure`, `FanEfficiency.ConstEff.methods` |
| `Fan.check_power` (153-158) | `Fan.checkPower` |
| `Fan.find_rated_fan_speed` (160-211) | `Fan.pressureFunction`, `Fan.ratedObjective`, `Fan.ratedGuess`, `Fan.ratedSearch`, `Fan.findRatedFanSpeed` |
| `Fan.get_speed_order_map` (213-217) | `Fan.speedOrderMap` |
| `Fan.generate_205_representation` (219-393) | `Fan.pressureGrid`, `Fan.mapLoop`, `Fan.inRps`, `Fan.Rep`, `Fan.fanRep`, `Fan.motorPower`, `Fan.ECM.motorPower`, `Metadata.Part`, `Metadata.FanClass`, `Metadata.Described`, `Metadata.firstOrScalar`, `Metadata.Formats`, `Metadata.className`, `Metadata.fanText`, `Metadata.notesKey`, `Metadata.fanParts`, `Rep205.fanIds`, `ResnetFan.fanRepresentation` |
| `ConstantEfficacyFan.__init__` (397-407) | `Fan.Efficacies`, `Fan.init` |
| `ConstantEfficacyFan.add_speed` (409-412) | `Fan.addSpeed`, `Ratings.constEffOps` |
| `ConstantEfficacyFan.remove_speed` (414-416) | `Fan.removeSpeed` |
| `ConstantEfficacyFan.efficacy` (418-419) | `Fan.efficacy` |
| `ConstantEfficacyFan.airflow` (421-422) | `Fan.airflow` |
| `PSCFan.__init__` (434-451) | `Fan.slope`, `Fan.init` |
| `PSCFan.add_speed` (453-474) | `Fan.storedAirflow`, `Fan.addSpeed`, `Ratings.pscOps` |
| `PSCFan.remove_speed` (476-482) | `Fan.removeSpeed` |
| `PSCFan.efficacy` (484-485) | `Fan.efficacy` |
| `PSCFan.airflow` (487-494) | `Fan.pressureOr`, `Fan.airflowAt`, `Fan.airflow` |
| `PSCFan.rotational_speed` (496-508) | `Fan.pressureOr`, `Fan.rotationalSpeed` |
| `PSCFan.airflow_reduction` (510-513) | `Fan.reduction` |
| `PSCFan.operating_pressure` (515-523) | `Fan.operatingPressure` |
| `ECMFlowFan.__init__` (536-559) | `Fan.init` |
| `ECMFlowFan.add_speed` (561-567) | `Fan.addSpeed`, `Ratings.ecmOps` |
| `ECMFlowFan.remove_speed` (569-571) | `Fan.removeSpeed` |
| `ECMFlowFan.unconstrained_efficacy` (573-577) | `Fan.unconstrainedEfficacy` |
| `ECMFlowFan.unconstrained_power` (579-582) | `Fan.unconstrainedPower` |
| `ECMFlowFan.power` (584-590) | `Fan.pressureOr`, `Fan.powerAt`, `Fan.power` |
| `ECMFlowFan.airflow` (592-607) | `Fan.pressureOr`, `Fan.airflowAt`, `Fan.airflow` |
| `ECMFlowFan.efficacy` (609-614) | `Fan.pressureOr`, `Fan.efficacyAt`, `Fan.efficacy` |
| `ECMFlowFan.unconstrained_rotational_speed` (616-621) | `Fan.unconstrainedRotationalSpeed` |
| `ECMFlowFan.rotational_speed` (623-631) | `Fan.pressureOr`, `Fan.rotationalSpeed` |
| `EEREFan.__init__` (644-676) | `Fan.indexLoop`, `Fan.sizeIndices`, `Fan.capacityWeight`, `Fan.init` |
| `EEREFan.airflow` (678-682) | `Fan.airflow` |
| `EEREFan.efficacy` (684-697) | `Fan.efficacy` |
| `EEREFan.add_speed` (699-709) | `Fan.offset`, `Fan.addPressure`, `Fan.addSpeed` |
| `EEREFan.remove_speed` (711-713) | `Fan.removeSpeed` |
| `EEREFan.rotational_speed` (715-716) | `FanEfficiency.rotationalSpeed` |
| `EEREBaselinePSCFan.__init__` (727-729) | `Fan.EEREKind` |
| `EEREImprovedPSCFan.__init__` (735-737) | `Fan.baseEff` |
| `EEREPSCWithControlsFan.__init__` (748-750) | `Fan.EEREKind` |
| `EEREBPMSingleStageConstantTorqueFan.__init__` (761-763) | `Fan.EEREKind` |
| `EEREBPMMultiStageConstantTorqueFan.__init__` (769-771) | `Fan.baseEff` |
| `EEREBPMMultiStageConstantAirflowFan.__init__` (782-784) | `Fan.EEREKind` |
| `EEREBPMMultiStageBackwardCurvedImpellerConstantAirflowFan.__init__` (792-794) | `Fan.baseEff` |
| `RESNETFan.airflow` (799-800) | `Fan.resnetAirflow` |
| `RESNETPSCFan.__init__` (806-811) | `Fan.resnetInit` |
| `RESNETPSCFan.efficacy` (813-818) | `Fan.resnetPSCEfficacy` |
| `RESNETBPMFan.__init__` (825-832) | `Fan.resnetInit` |
| `RESNETBPMFan.efficacy` (834-861) | `Fan.resnetBPMEfficacy` |

## resdx/idf.py

| function | model |
|---|---|
| `IDFField.__init__` (18-23) | `Idf.IField` |
| `write_idf_objects` (26-41) | `Idf.spacing`, `Idf.fieldLines`, `Idf.writeObject`, `Idf.writeObjects` |
| `make_independent_variable` (44-60) | `Idf.numbered`, `Idf.independentVariable` |
| `make_lookup_table` (63-94) | `Idf.numbered`, `Idf.lookupTable` |
| `write_idf` (102-920) | `FanEfficiency.Methods.inUnit`, `Idf.IdfUnit`, `Idf.auto`, `Idf.pthpObjects`, `Idf.unitaryObject`, `Idf.systemObjects`, `Idf.schedules`, `Idf.fanSpeedFields`, `Idf.fanHeader`, `Idf.fanObject`, `Idf.coolOutdoor`, `Idf.coolIndoor`, `Idf.heatOutdoor`, `Idf.heatIndoor`, `Idf.flowFractions`, `Idf.axes`, `Idf.speedTables`, `Idf.coolSpeedFields`, `Idf.coolSpeed`, `Idf.coolHeader`, `Idf.coolCurve`, `Idf.heatSpeedFields`, `Idf.heatSpeed`, `Idf.heatHeader`, `Idf.heatCurves`, `Idf.prefixOf`, `Idf.addCooling`, `Idf.timeFractionField`, `Idf.addHeating`, `Idf.idfObjects`, `Idf.writeIdf`, `IdfResnet.humid`, `IdfResnet.fileCooling`, `IdfResnet.fileHeating`, `IdfResnet.setRatio`, `IdfResnet.beforeCop60`, `IdfResnet.FileOptions`, `IdfResnet.Built.writeIdf` |

## resdx/models/base_model.py

| function | model |
|---|---|
| `DXModel.__init__` (10-12) | `UnitBuild.allowedKwargs`, `UnitBuild.Objects` |
| `DXModel.set_system` (14-21) | `UnitBuild.allowedKwargs`, `UnitBuild.setSystem`, `UnitBuild.Objects.construct` |
| `DXModel.process_kwargs` (23-24) | `UnitBuild.ResnetKwargs` |
| `DXModel.get_kwarg_value` (26-30) | `UnitBuild.kwargValue` |
| `DXModel.gross_cooling_power` (33-34) | abstract (raises NotImplementedError) |
| `DXModel.gross_total_cooling_capacity` (36-37) | `UnitBuild.shrAndTotal` |
| `DXModel.gross_sensible_cooling_capacity` (39-40) | `UnitBuild.shrAndTotal` |
| `DXModel.gross_shr` (42-44) | `UnitBuild.shrAndTotal` |
| `DXModel.gross_steady_state_heating_capacity` (46-47) | abstract (raises NotImplementedError) |
| `DXModel.gross_integrated_heating_capacity` (49-50) | abstract (raises NotImplementedError) |
| `DXModel.gross_steady_state_heating_power` (52-53) | abstract (raises NotImplementedError) |
| `DXModel.gross_integrated_heating_power` (55-56) | abstract (raises NotImplementedError) |
| `DXModel.gross_total_cooling_capacity_charge_factor` (58-61) | `Resnet.unit` |
| `DXModel.gross_cooling_power_charge_factor` (63-66) | `Resnet.unit` |
| `DXModel.gross_steady_state_heating_capacity_charge_factor` (68-71) | `Resnet.unit` |
| `DXModel.gross_steady_state_heating_power_charge_factor` (73-76) | `Resnet.unit` |
| `DXModel.set_default` (79-89) | `BaseModel.setDefault` |
| `DXModel.make_list` (91-95) | `BaseModel.makeList` |
| `DXModel.set_cooling_default` (97-98) | `BaseModel.setDefault` |
| `DXModel.set_heating_default` (100-101) | `BaseModel.setDefault` |
| `DXModel.set_rated_net_total_cooling_capacity` (103-110) | `BaseModel.perSpeed`, `BaseModel.netCoolingCapacity` |
| `DXModel.set_rated_net_heating_capacity` (112-121) | `BaseModel.perSpeed`, `BaseModel.netHeatingCapacity` |
| `DXModel.set_fan` (123-165) | `BaseModel.fanLoop`, `BaseModel.setFan`, `UnitBuild.suppliedFan` |
| `DXModel.set_net_capacities_and_fan` (167-172) | `UnitBuild.baseAssign` |
| `DXModel.set_c_d_cooling` (174-175) | `BaseModel.cyclingDefault` |
| `DXModel.set_c_d_heating` (177-178) | `BaseModel.cyclingDefault` |
| `DXModel.set_rated_net_cooling_cop` (180-202) | `BaseModel.perSpeed`, `BaseModel.setNetCop` |
| `DXModel.set_rated_gross_cooling_cop` (204-226) | `BaseModel.setGrossCop` |
| `DXModel.set_rated_net_heating_cop` (228-250) | `BaseModel.setNetCop` |
| `DXModel.set_rated_gross_heating_cop` (252-274) | `BaseModel.setGrossCop` |

## resdx/models/carrier_defrost_model.py

| function | model |
|---|---|
| `CarrierDefrostModel.gross_integrated_heating_capacity` (23-29) | `Resnet.fractions`, `Resnet.grossIntegratedHeatingCapacity` |
| `CarrierDefrostModel.gross_integrated_heating_power` (31-32) | `Resnet.grossIntegratedHeatingPower` |
| `CarrierDefrostModel.fdef` (35-44) | `Resnet.fdef` |

## resdx/models/constant_model.py

| function | model |
|---|---|
| `ConstantDXModel.gross_cooling_power` (8-12) | `Resnet.grossCoolingPower` |
| `ConstantDXModel.gross_total_cooling_capacity` (14-17) | `Resnet.grossTotalCoolingCapacity`, `UnitBuild.shrAndTotal` |
| `ConstantDXModel.gross_steady_state_heating_power` (19-23) | `Resnet.grossSteadyHeatingPower` |
| `ConstantDXModel.gross_steady_state_heating_capacity` (25-26) | `Resnet.grossSteadyHeatingCapacity` |
| `ConstantDXModel.gross_integrated_heating_capacity` (28-29) | `Resnet.unit` |
| `ConstantDXModel.gross_integrated_heating_power` (31-32) | `Resnet.unit` |
| `ConstantDXModel.gross_sensible_cooling_capacity` (34-37) | `Resnet.unit` |
| `ConstantDXModel.gross_shr` (39-40) | `Resnet.unit`, `UnitBuild.shrAndTotal` |

## resdx/models/nrel.py

| function | model |
|---|---|
| `NRELDXModel.gross_cooling_power` (64-98) | `Nrel.heatingCapFF`, `Nrel.coolingIndoor`, `Nrel.coolingOutdoor`, `Nrel.grossCoolingPower` |
| `NRELDXModel.gross_total_cooling_capacity` (100-122) | `Nrel.coolingIndoor`, `Nrel.coolingOutdoor`, `Nrel.grossTotalCoolingCapacity` |
| `NRELDXModel.gross_steady_state_heating_power` (124-151) | `Nrel.grossSteadyHeatingPower` |
| `NRELDXModel.gross_steady_state_heating_capacity` (153-169) | `Nrel.grossSteadyHeatingCapacity` |
| `NRELDXModel.gross_integrated_heating_capacity` (171-205) | `Nrel.capacityMultiplier`, `Nrel.defrostLoad`, `Nrel.grossIntegratedHeatingCapacity` |
| `NRELDXModel.get_cooling_cop60` (207-224) | `IdfResnet.Built.defrostCop`, `IdfResnet.Built.coolingCop60` |
| `NRELDXModel.gross_integrated_heating_power` (226-259) | `Nrel.powerMultiplier`, `Nrel.defrostPower`, `Nrel.grossIntegratedHeatingPower` |
| `NRELDXModel.epri_defrost_time_fraction` (262-266) | `Nrel.epriTimeFraction` |
| `NRELDXModel.coil_diff_outdoor_air_humidity` (269-276) | `Nrel.coilHumidityDifference` |
| `NRELDXModel.gross_sensible_cooling_capacity` (278-291) | `Sensible.sensibleFrom` |
| `NRELDXModel.domonski_charge_factor` (326-348) | `Nrel.chargeFactor` |
| `NRELDXModel.resnet_grading_model` (350-405) | `Nrel.Raw`, `Nrel.withRatio`, `Nrel.gradingModel` |
| `NRELDXModel.gross_total_cooling_capacity_charge_factor` (407-410) | `Nrel.unit` |
| `NRELDXModel.gross_cooling_power_charge_factor` (412-415) | `Nrel.unit` |
| `NRELDXModel.gross_steady_state_heating_capacity_charge_factor` (417-420) | `Nrel.unit` |
| `NRELDXModel.gross_steady_state_heating_power_charge_factor` (422-425) | `Nrel.unit` |
| `NRELDXModel.set_rated_fan_characteristics` (428-472) | `UnitBuild.nrelEfficacy`, `UnitBuild.nrelDefaults`, `UnitBuild.nrelCharacteristics` |
| `NRELDXModel.set_rated_net_total_cooling_capacity` (474-495) | `UnitBuild.nrelCapacities` |
| `NRELDXModel.set_rated_net_heating_capacity` (497-520) | `UnitBuild.nrelNetCapacity` |
| `NRELDXModel.set_fan` (522-557) | `UnitBuild.suppliedFan`, `UnitBuild.nrelFanLoop` |
| `NRELDXModel.set_net_capacities_and_fan` (559-565) | `UnitBuild.nrelAssign` |
| `NRELDXModel.cooling_cop_low` (568-569) | `ResnetLists.copLow` |
| `NRELDXModel.heating_cop_low` (572-573) | `ResnetLists.copLow` |
| `NRELDXModel.set_rated_net_cooling_cop` (575-624) | `ResnetLists.netCopLow`, `ResnetLists.setNetCop` |
| `NRELDXModel.set_rated_gross_cooling_cop` (626-651) | `ResnetLists.grossCops`, `ResnetLists.setGrossCop` |
| `NRELDXModel.set_rated_net_heating_cop` (653-702) | `ResnetLists.netCopLow`, `ResnetLists.setNetCop` |
| `NRELDXModel.set_rated_gross_heating_cop` (704-729) | `ResnetLists.grossCops` |
| `NRELFan.__init__` (736-746) | `UnitBuild.NrelFan`, `UnitBuild.init` |
| `NRELFan.add_speed` (748-753) | `UnitBuild.addSpeed` |
| `NRELFan.remove_speed` (755-758) | `UnitBuild.removeSpeed` |
| `NRELFan.airflow` (760-761) | `UnitBuild.airflowAt` |
| `NRELFan.power` (763-764) | `UnitBuild.powerAt` |
| `NRELFan.efficacy` (766-767) | `UnitBuild.efficacyAt` |

## resdx/models/tabular_data.py

| function | model |
|---|---|
| `TemperatureSpeedPerformanceTable.__init__` (15-29) | `Tabular.Table`, `Tabular.Table.init` |
| `TemperatureSpeedPerformanceTable.set` (31-34) | `Tabular.set` |
| `TemperatureSpeedPerformanceTable.get` (36-39) | `Tabular.get` |
| `TemperatureSpeedPerformanceTable.set_by_ratio` (41-55) | `Tabular.setByRatio` |
| `TemperatureSpeedPerformanceTable.get_ratio` (57-64) | `Tabular.getRatio` |
| `TemperatureSpeedPerformanceTable.set_by_interpolation` (66-79) | `Tabular.interpolationValue`, `Tabular.setByInterpolation` |
| `TemperatureSpeedPerformanceTable.add_temperature` (81-145) | `Tabular.belowValue`, `Tabular.aboveValue`, `Tabular.insideValue`, `Tabular.fillNew`, `Tabular.insertEmpty`, `Tabular.addTemperature` |
| `TemperatureSpeedPerformanceTable.set_by_maintenance` (147-150) | abstract (raises NotImplementedError) |
| `TemperatureSpeedPerformanceTable.get_maintenance` (152-161) | `Tabular.getMaintenance` |
| `TemperatureSpeedPerformanceTable.set_interpolator` (163-170) | `Tabular.setInterpolator` |
| `TemperatureSpeedPerformanceTable.calculate` (172-173) | `Tabular.calculate` |
| `TemperatureSpeedPerformanceTable.apply_fan_power_correction` (175-182) | `Tabular.correctCell`, `Tabular.applyFanPowerCorrection` |
| `TemperatureSpeedCoolingPerformanceTable.set_by_maintenance` (186-199) | `Tabular.Kind.multiplies`, `Tabular.setByMaintenance` |
| `TemperatureSpeedHeatingPerformanceTable.set_by_maintenance` (203-216) | `Tabular.Kind.multiplies` |
| `TemperatureSpeedPerformance.__init__` (221-248) | `Tabular.Perf`, `Tabular.init` |
| `TemperatureSpeedPerformance.cooling_capacity` (250-251) | `Tabular.coolingCapacity` |
| `TemperatureSpeedPerformance.cooling_power` (253-254) | `Tabular.coolingPower` |
| `TemperatureSpeedPerformance.cooling_cop` (256-259) | `Tabular.coolingCop` |
| `TemperatureSpeedPerformance.heating_capacity` (261-262) | `Tabular.heatingCapacity` |
| `TemperatureSpeedPerformance.heating_power` (264-265) | `Tabular.heatingPower` |
| `TemperatureSpeedPerformance.heating_cop` (267-270) | `Tabular.heatingCop` |
| `TemperatureSpeedPerformance.make_gross` (272-282) | `Tabular.makeGross` |
| `make_neep_statistical_model_data` (285-494) | `ResnetBuild.hspfFor`, `ResnetBuild.seerFor`, `TabularBuild.coolingExtremes`, `TabularBuild.finish`, `TabularBuild.qm17`, `TabularBuild.cop47`, `TabularBuild.eirr82`, `TabularBuild.qr95min`, `TabularBuild.neepStatCooling`, `TabularBuild.lctFactor`, `TabularBuild.neepStatHeatingQ`, `TabularBuild.neepStatHeatingP`, `TabularBuild.makeNeepStatistical` |
| `make_neep_model_data` (497-589) | `TabularBuild.coolingExtremes`, `TabularBuild.finish`, `TabularBuild.convertCells`, `TabularBuild.Neep.convert`, `TabularBuild.fillRated5`, `TabularBuild.neepBody`, `TabularBuild.neepHeatingTemps`, `TabularBuild.neepTables`, `TabularBuild.makeNeep` |
| `make_single_speed_model_data` (592-715) | `ResnetBuild.hspfFor`, `TabularBuild.coolingExtremes`, `TabularBuild.finish`, `TabularBuild.singleCooling`, `TabularBuild.qm17`, `TabularBuild.cop47`, `TabularBuild.heatingExtremes`, `TabularBuild.singleHeating`, `TabularBuild.makeSingleSpeed` |
| `make_two_speed_model_data` (718-856) | `ResnetBuild.hspfFor`, `ResnetBuild.seerFor`, `TabularBuild.coolingExtremes`, `TabularBuild.finish`, `TabularBuild.qm17`, `TabularBuild.cop47`, `TabularBuild.heatingExtremes`, `TabularBuild.twoCooling`, `TabularBuild.twoHeating`, `TabularBuild.makeTwoSpeed` |

## resdx/models/title24.py

| function | model |
|---|---|
| `Title24DXModel.__init__` (13-20) | `Title24.Unit24`, `UnitBuild.allowedKwargs` |
| `Title24DXModel.CA_regression` (23-37) | `Title24.caRegression` |
| `Title24DXModel.gross_shr` (39-61) | `ResnetLists.grossShr`, `Title24.shrCoeffs`, `Title24.Point`, `Title24.shrAt`, `Title24.grossShr`, `UnitBuild.shrAndTotal` |
| `Title24DXModel.eer_rated` (64-70) | `Title24.eerRated` |
| `Title24DXModel.fan_efficacy_rated` (77-82) | `Title24.fanEfficacyRated` |
| `Title24DXModel.gross_total_cooling_capacity` (84-127) | `Title24.wetCap`, `Title24.dryCap`, `Title24.Point`, `Title24.capFactor`, `Title24.grossTotal`, `UnitBuild.shrAndTotal` |
| `Title24DXModel.gross_sensible_cooling_capacity` (129-132) | `Title24.grossSensible` |
| `Title24DXModel.gross_cooling_power` (134-267) | `Title24.wetCap`, `Title24.dryCap`, `Title24.wetSeer`, `Title24.drySeer`, `Title24.wetEer`, `Title24.dryEer`, `Title24.Point`, `Title24.seerNf`, `Title24.eerNf`, `Title24.eerAt`, `Title24.grossCoolingPower` |
| `Title24DXModel.cap17_ratio_rated` (270-281) | `Title24.cap17Ratio` |
| `Title24DXModel.get_cap17` (283-311) | `Title24.ensure`, `Title24.cap17Value`, `Title24.getCap17` |
| `Title24DXModel.get_cap35` (313-335) | `Title24.ensure`, `Title24.cap35Default`, `Title24.cap35Compute`, `Title24.getCap35` |
| `Title24DXModel.gross_steady_state_heating_capacity` (337-346) | `Title24.grossSteadyCapacity` |
| `Title24DXModel.gross_integrated_heating_capacity` (348-363) | `Title24.frostSlope`, `Title24.grossIntegratedCapacity` |
| `Title24DXModel.rated_net_heating_cop` (366-367) | `Title24.cop47Rated` |
| `Title24DXModel.check_hspf` (369-461) | `Title24.frostLine`, `Title24.sigma`, `Title24.hspfBin`, `Title24.hspfBins`, `Title24.hspfLoop`, `Title24.hspfOf`, `Title24.inp35Default`, `Title24.inp35Of`, `Title24.checkHspf` |
| `Title24DXModel.cop47_rated` (464-465) | `Title24.cop47Rated` |
| `Title24DXModel.c_d_heating` (468-469) | `Title24.cdHeating` |
| `Title24DXModel.calculate_cops` (471-488) | `Title24.ensure`, `Title24.rootFn`, `Title24.calculateCops` |
| `Title24DXModel.get_cop35` (490-494) | `Title24.getCop` |
| `Title24DXModel.get_cop17` (496-500) | `Title24.getCop` |
| `Title24DXModel.gross_steady_state_heating_power` (502-518) | `Title24.grossSteadyPower` |
| `Title24DXModel.gross_integrated_heating_power` (520-544) | `Title24.frostSlope`, `Title24.grossIntegratedPower` |
| `Title24DXModel.set_rated_fan_characteristics` (547-559) | `Title24.setFan` |
| `Title24DXModel.set_fan` (561-613) | `Title24.fanLoop`, `Title24.setFan`, `UnitBuild.suppliedFan` |
| `Title24DXModel.set_net_capacities_and_fan` (615-621) | `UnitBuild.title24Assign` |

## resdx/models/unified_resnet.py

| function | model |
|---|---|
| `RESNETDXModel.__init__` (30-49) | `ResnetBuild.Args`, `UnitBuild.allowedKwargs` |
| `RESNETDXModel.process_kwargs` (51-65) | `UnitBuild.ResnetKwargs`, `UnitBuild.processKwargs` |
| `RESNETDXModel.gross_cooling_power` (68-77) | `Resnet.grossCoolingPower` |
| `RESNETDXModel.gross_total_cooling_capacity` (79-88) | `Resnet.grossTotalCoolingCapacity` |
| `RESNETDXModel.gross_sensible_cooling_capacity` (90-91) | `Resnet.unit` |
| `RESNETDXModel.gross_shr` (93-94) | `ResnetLists.grossShr` |
| `RESNETDXModel.gross_steady_state_heating_capacity` (96-105) | `Resnet.grossSteadyHeatingCapacity` |
| `RESNETDXModel.gross_integrated_heating_capacity` (107-116) | `Resnet.fdef`, `Resnet.grossIntegratedHeatingCapacity` |
| `RESNETDXModel.gross_steady_state_heating_power` (118-127) | `Resnet.grossSteadyHeatingPower` |
| `RESNETDXModel.gross_integrated_heating_power` (129-138) | `Resnet.fdef`, `Resnet.grossIntegratedHeatingPower` |
| `RESNETDXModel.gross_cooling_power_charge_factor` (140-141) | `Resnet.unit` |
| `RESNETDXModel.gross_total_cooling_capacity_charge_factor` (143-144) | `Resnet.unit` |
| `RESNETDXModel.gross_steady_state_heating_capacity_charge_factor` (146-149) | `Resnet.unit` |
| `RESNETDXModel.gross_steady_state_heating_power_charge_factor` (151-154) | `Resnet.unit` |
| `RESNETDXModel.set_net_capacities_and_fan` (156-338) | `ReportsResnet.Built.report`, `ResnetBuild.speedCount`, `ResnetBuild.speedMap`, `ResnetBuild.inverseGet`, `ResnetBuild.modelRoles`, `ResnetBuild.heating47`, `ResnetBuild.netTables`, `ResnetBuild.tableFanPowers`, `ResnetBuild.modelStaging`, `ResnetBuild.core`, `ResnetLists.lowerSpeeds` |
| `RESNETDXModel.set_c_d_cooling` (340-341) | `ResnetBuild.cd` |
| `RESNETDXModel.set_c_d_heating` (343-344) | `ResnetBuild.cd` |
| `RESNETDXModel.set_rated_net_cooling_cop` (346-350) | `ResnetLists.cops` |
| `RESNETDXModel.set_rated_gross_cooling_cop` (352-356) | `ResnetLists.cops` |
| `RESNETDXModel.set_rated_net_heating_cop` (358-362) | `ResnetLists.cops` |
| `RESNETDXModel.set_rated_gross_heating_cop` (364-368) | `ResnetLists.cops` |
| `RESNETDXModel.set_fan` (370-575) | `ResnetFan.Side.start`, `ResnetFan.setAirflow`, `ResnetFan.mark`, `ResnetFan.addDesign`, `ResnetFan.addRated`, `ResnetFan.otherSpeed`, `ResnetFan.otherSpeeds`, `ResnetFan.fullSpeeds`, `ResnetFan.setFan`, `ResnetFan.defaultMotorPSC`, `ResnetFan.motorPower`, `ResnetLists.ownFan`, `ResnetLists.givenFan`, `ResnetLists.setFan`, `UnitBuild.resnetSupplied` |
| `RESNETDXModel.set_lower_speed_net_capacities` (577-668) | `ResnetLists.lowerSpeeds` |
| `RESNETDXModel.get_cooling_correction_factor` (670-676) | `Resnet.ratedOutdoor` |
| `RESNETDXModel.get_heating_correction_factor` (678-684) | `Resnet.ratedOutdoor` |

## resdx/psychrometrics.py

| function | model |
|---|---|
| `PsychState.__init__` (10-41) | `Psychrometrics.PsychState`, `Psychrometrics.blank`, `Psychrometrics.init`, `Sensible.cp`, `System.wetState` |
| `PsychState.wb` (44-47) | `Psychrometrics.getWb` |
| `PsychState.wb` (50-53) | `Psychrometrics.setWb` |
| `PsychState.get_wb_C` (55-59) | `Psychrometrics.getWbC` |
| `PsychState.hr` (62-69) | `Psychrometrics.getHr` |
| `PsychState.hr` (72-80) | `Psychrometrics.setHr` |
| `PsychState.rh` (83-90) | `Psychrometrics.getRh` |
| `PsychState.rh` (93-99) | `Psychrometrics.setRh` |
| `PsychState.h` (102-107) | `Psychrometrics.getH` |
| `PsychState.h` (110-114) | `Psychrometrics.setH` |
| `PsychState.rho` (117-122) | `Psychrometrics.getRho` |
| `PsychState.rho` (125-127) | `Psychrometrics.setRho` |

## resdx/rating_solver.py

| function | model |
|---|---|
| `make_rating_unit` (10-87) | `RatingSolver.Request`, `RatingSolver.requestDefrost`, `RatingSolver.requestArgs`, `RatingSolver.seerResidual`, `RatingSolver.hspfResidual`, `RatingSolver.makeRatingUnit` |

## resdx/util.py

| function | model |
|---|---|
| `limit_check` (4-17) | `Util.limitCheck` |
| `bracket` (20-29) | `Util.bracket` |
| `calc_biquad` (32-40) | `Util.calcBiquad` |
| `calc_quad` (43-44) | `Util.calcQuad` |
| `find_nearest` (47-55) | `Util.findNearestLoop`, `Util.findNearest` |
| `linear` (61-62) | `Util.linear` |
| `linear_string` (65-66) | `Formulas.linearString` |
| `quadratic` (69-70) | `Util.quadratic` |
| `quadratic_string` (73-74) | `Formulas.quadraticString` |
| `cubic` (77-78) | `Util.cubic` |
| `cubic_string` (81-82) | `Formulas.cubicString` |
| `quartic` (85-87) | `Util.quartic` |
| `quartic_string` (90-91) | `Formulas.quarticString` |
| `exponential` (94-95) | `Util.exponential` |
| `exponential_string` (98-99) | `Formulas.exponentialString` |
| `calculate_r_squared` (102-107) | `Util.calculateRSquared` |
