import Verif.Props.Util
import Verif.Props.Psychrometrics
import Verif.Props.Conditions
import Verif.Props.Defrost
import Verif.Props.FanSpeeds
import Verif.Props.FanCurves
import Verif.Props.FanPower
import Verif.Props.FanRep
import Verif.Props.FanSearch
import Verif.Props.TabularCells
import Verif.Props.TabularAdd
import Verif.Props.TabularInterp
import Verif.Props.TabularGross
import Verif.Props.TabularBuild
import Verif.Props.TabularNeep
import Verif.Props.BaseModel
import Verif.Props.DefaultFan
import Verif.Props.DXUnit
import Verif.Props.Performance
import Verif.Props.Seer
import Verif.Props.Inputs
import Verif.Props.Curves
import Verif.Props.Hspf
import Verif.Props.HspfLow
import Verif.Props.Title24
import Verif.Props.Ratings
import Verif.Props.Idf
import Verif.Props.ResnetStaged
import Verif.Props.ResnetBuild
import Verif.Props.ResnetReturns
import Verif.Props.Rep205
import Verif.Props.RatingSolver
import Verif.Lemmas.TabularRows
import Verif.Spec.DerivedTables
import Verif.Lemmas.TabularHolds
import Verif.Lemmas.DerivedTables
import Verif.Lemmas.DerivedVariable
import Verif.Props.DerivedTables
import Verif.Lemmas.DerivedSound
import Verif.Props.DerivedReturns
import Verif.Lemmas.DerivedMargins
import Verif.Props.DerivedRange
import Verif.Props.DerivedRangeVariable
import Verif.Spec.Season
import Verif.Lemmas.ResnetSeason
import Verif.Props.ResnetSeason
import Verif.Props.SeasonRatings
import Verif.Props.ResnetCooling
import Verif.Props.TwoStage
import Verif.Model.UnitBuild
import Verif.Spec.UnitBuild
import Verif.Lemmas.UnitBuild
import Verif.Lemmas.UnitSample
import Verif.Lemmas.Title24Build
import Verif.Props.UnitBuild
import Verif.Model.CoilStates
import Verif.Spec.Coil
import Verif.Lemmas.Coil
import Verif.Props.Coil
import Verif.Model.FanEfficiency
import Verif.Spec.FanEfficiency
import Verif.Props.FanEfficiency
import Verif.Model.Reports
import Verif.Model.ReportsResnet
import Verif.Spec.Reports
import Verif.Props.Validation
import Verif.Props.Reports
import Verif.Props.ReportsResnet
import Verif.Spec.NrelCop
import Verif.Model.ResnetLists
import Verif.Props.NrelCop
import Verif.Lemmas.ResnetLists
import Verif.Props.ResnetLists
import Verif.Model.IdfResnet
import Verif.Spec.IdfResnet
import Verif.Lemmas.IdfResnet
import Verif.Lemmas.ResnetCoil
import Verif.Lemmas.FanSettings
import Verif.Props.IdfResnet
import Verif.Props.IdfWritten
import Verif.Lemmas.TransferCalc
import Verif.Spec.SeasonStaged
import Verif.Spec.FanWatts
import Verif.Props.FanShift
import Verif.Props.SeasonStaged
import Verif.Props.FanWatts
import Verif.Props.SeasonTwo
import Verif.Props.SeasonTwoCop
import Verif.Props.SeasonVariable
import Verif.Props.CoolingVariable
import Verif.Props.SeasonSingle
import Verif.Props.CoolingTwo
import Verif.Props.Season2017
import Verif.Props.SeasonSingleCop
import Verif.Props.UnitChecks
import Verif.Props.ListFans
import Verif.Props.ListSeason
import Verif.Props.ListMade
import Verif.Props.ListStaged
import Verif.Props.VariableCop
import Verif.Props.VariableRoots
import Verif.Props.VariableHeatRoots
import Verif.Props.VariableBound
import Verif.Props.VariableRequests
import Verif.Props.VariableGiven
import Verif.Props.Formulas
import Verif.Props.Metadata
import Verif.Props.RatedAir
import Verif.Props.RepResnet
import Verif.Props.ListPublished
import Verif.Props.RepVariable
import Verif.Props.PlotResnet
import Verif.Spec.FanImpeller
import Verif.Props.FanImpeller
import Verif.Props.UnitImpeller
import Verif.Props.RatingsOutputs
import Verif.Lemmas.Thrift
import Verif.Props.Thrift
import Verif.Props.HeatSettings
import Verif.Props.HspfUpper
import Verif.Props.HeatMore
import Verif.Props.CoolMore
import Verif.Props.AlikeStages
import Verif.Props.FanLimit
import Verif.Props.IdfSettings
import Verif.Props.TestStates
import Verif.Props.ChargeFault
import Verif.Props.Airflow
import Verif.Props.ChargedUnits
import Verif.Props.ChargedAir
import Verif.Props.ChargedHeating
import Verif.Props.HeatingRatios
import Verif.Props.IdfSystem
import Verif.Props.NrelSizing
import Verif.Props.Title24Cooling
import Verif.Props.Title24Sensible
import Verif.Props.Title24Airflow
