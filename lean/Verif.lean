import Verif.Num.Lemmas
import Verif.Num.Sum
import Verif.Model.Hourly
import Verif.Model.Epw
import Verif.Model.Solar
import Verif.Model.HourlyRun
import Verif.Lemmas.HourlyMass
import Verif.Lemmas.Pushed
import Verif.Props.Properties
import Verif.Props.Calendar
import Verif.Props.Aggregate
import Verif.Props.Solar
import Verif.Props.Schedule
import Verif.Props.Thermostat
import Verif.Props.HeatBalance
import Verif.Props.EndUses
import Verif.Props.EndUsesCases
import Verif.Props.Auxiliary
import Verif.Props.Repeat
import Verif.Props.Epw
import Verif.Props.Averages
import Verif.Props.WeatherText
import Verif.Props.Parameters
import Verif.Props.Loading
import Verif.Props.CommandLine
import Verif.Props.MonthlyWeek
import Verif.Props.MonthlyGains
import Verif.Props.MonthlyTemp
import Verif.Props.MonthlyVentilation
import Verif.Props.MonthlyNeeds
import Verif.Props.MonthlySystems
import Verif.Props.MonthlyTotals
import Verif.Props.MonthlyFinite
import Verif.Props.Program
import Verif.Props.Response
import Verif.Props.Size
import Verif.Props.Causality
import Verif.Props.Effects
import Verif.Props.Accessors
import Verif.Props.Vectors
import Verif.Props.Numerals
import Verif.Props.Printing
import Verif.Props.Whole
import Verif.Props.Shipped
import Verif.Props.WholeExample
import Verif.Props.Inputs
import Verif.Props.InputsWeather
import Verif.Props.Rounding
import Verif.Props.RoundingMonthly
import Verif.Props.RoundingCases
import Verif.Props.RoundingExact
import Verif.Props.RoundingSums
import Verif.Props.BetterSystems
import Verif.Props.BetterSystemsMonthly
import Verif.Props.BetterSystemsCases
import Verif.Props.SunProtection
import Verif.Props.Insulation
import Verif.Props.MonthlyClosed
import Verif.Props.MonthlyRetrofit
import Verif.Props.Results
import Verif.Props.SevenDays
import Verif.Props.MonthlySetPoints
import Verif.Props.WholeYear
import Verif.Props.WholeYearCases
import Verif.Props.HourlyWhole
import Verif.Props.HourlyWholeCases
import Verif.Props.EndToEnd
import Verif.Props.EndToEndOffice
import Verif.Props.EndToEndCases
import Verif.Props.EffectsInside
import Verif.Props.Editing
import Verif.Props.EditingCases
import Verif.Props.PrintedOrder
import Verif.Props.PrintedOrderCases
import Verif.Props.HourlyObservable
import Verif.Props.WeatherEditing
import Verif.Props.WeatherEditingCases
import Verif.Props.WarmerYear
import Verif.Props.WarmerYearCases
import Verif.Props.PrintedWarmth
import Verif.Props.PrintedWarmthCases
import Verif.Props.Sources
import Verif.Props.SourcesCases
import Verif.Props.SolarNight
import Verif.Props.InsulationYear
import Verif.Props.PrintedInsulation
import Verif.Props.WarmerMonths
import Verif.Props.PrintedWarmerMonths
import Verif.Props.PrintedWarmerMonthsCases
import Verif.Props.PrintedThermostat
import Verif.Props.PrintedThermostatCases
import Verif.Props.Settings
import Verif.Props.SettingsCases
import Verif.Props.WeatherTime
import Verif.Props.WeatherTimeCases
import Verif.Props.Memory
import Verif.Props.SolarClock
import Verif.Props.Fuel
import Verif.Props.FuelCases
import Verif.Props.OccupiedHours
import Verif.Props.LoadingHistory
import Verif.Props.PropertiesOpen
import Verif.Axioms
