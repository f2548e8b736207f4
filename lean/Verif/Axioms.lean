import Verif.Props.Properties
import Verif.Props.Calendar
import Verif.Props.Aggregate
import Verif.Props.Solar
import Verif.Props.Schedule
import Verif.Props.Thermostat
import Verif.Props.HeatBalance
import Verif.Props.EndUses
import Verif.Props.EndUsesCases
import Verif.Props.Auxiliary
import Verif.Props.Repeat
import Verif.Props.Epw
import Verif.Props.Averages
import Verif.Props.WeatherText
import Verif.Props.Parameters
import Verif.Props.Loading
import Verif.Props.CommandLine
import Verif.Props.MonthlyWeek
import Verif.Props.MonthlyGains
import Verif.Props.MonthlyTemp
import Verif.Props.MonthlyVentilation
import Verif.Props.MonthlyNeeds
import Verif.Props.MonthlySystems
import Verif.Props.MonthlyTotals
import Verif.Props.MonthlyFinite
import Verif.Props.Program
import Verif.Props.Response
import Verif.Props.Size
import Verif.Props.Causality
import Verif.Props.Effects
import Verif.Props.Accessors
import Verif.Props.Vectors
import Verif.Props.Numerals
import Verif.Props.Printing
import Verif.Props.Whole
import Verif.Props.Shipped
import Verif.Props.WholeExample
import Verif.Props.Inputs
import Verif.Props.InputsWeather
import Verif.Props.Rounding
import Verif.Props.RoundingMonthly
import Verif.Props.RoundingCases
import Verif.Props.RoundingExact
import Verif.Props.RoundingSums
import Verif.Props.BetterSystems
import Verif.Props.BetterSystemsMonthly
import Verif.Props.BetterSystemsCases
import Verif.Props.SunProtection
import Verif.Props.Insulation
import Verif.Props.MonthlyClosed
import Verif.Props.MonthlyRetrofit
import Verif.Props.Results
import Verif.Props.SevenDays
import Verif.Props.MonthlySetPoints
import Verif.Props.WholeYear
import Verif.Props.WholeYearCases
import Verif.Props.HourlyWhole
import Verif.Props.HourlyWholeCases
import Verif.Props.EndToEnd
import Verif.Props.EndToEndOffice
import Verif.Props.EndToEndCases
import Verif.Props.EffectsInside
import Verif.Props.Editing
import Verif.Props.EditingCases
import Verif.Props.PrintedOrder
import Verif.Props.PrintedOrderCases
import Verif.Props.HourlyObservable
import Verif.Props.WeatherEditing
import Verif.Props.WeatherEditingCases
import Verif.Props.WarmerYear
import Verif.Props.WarmerYearCases
import Verif.Props.PrintedWarmth
import Verif.Props.PrintedWarmthCases
import Verif.Props.Sources
import Verif.Props.SourcesCases
import Verif.Props.SolarNight
import Verif.Props.InsulationYear
import Verif.Props.PrintedInsulation
import Verif.Props.WarmerMonths
import Verif.Props.PrintedWarmerMonths
import Verif.Props.PrintedWarmerMonthsCases
import Verif.Props.PrintedThermostat
import Verif.Props.PrintedThermostatCases
import Verif.Props.Settings
import Verif.Props.SettingsCases
import Verif.Props.WeatherTime
import Verif.Props.WeatherTimeCases
import Verif.Props.Memory
import Verif.Props.SolarClock
import Verif.Props.Fuel
import Verif.Props.FuelCases
import Verif.Props.OccupiedHours
import Verif.Props.LoadingHistory
import Verif.Props.PropertiesOpen

/-! # Axioms of every theorem of the manifest -/

#print axioms ISO.Props.C01_case_insensitive
#print axioms ISO.Props.C01_put_visible
#print axioms ISO.Props.C02_lookup
#print axioms ISO.Props.C02_building_beats_defaults
#print axioms ISO.Props.C02_keys
#print axioms ISO.Props.C03_loads_iff
#print axioms ISO.Props.C03_first_error
#print axioms ISO.Props.C03_ignored_lines
#print axioms ISO.Props.C03_definition
#print axioms ISO.Props.C03_crlf
#print axioms ISO.Props.C03_crlf_two
#print axioms ISO.Props.C03_cannotOpen
#print axioms ISO.Props.C03_cannotOpen_two
#print axioms ISO.Props.C04_round_trip
#print axioms ISO.Props.C04_save_load
#print axioms ISO.Props.C05_bool
#print axioms ISO.Props.C05_int
#print axioms ISO.Props.C05_double
#print axioms ISO.Props.C05_csv
#print axioms ISO.Props.C05_vector
#print axioms ISO.Props.C05_quoted
#print axioms ISO.Props.C05_badEscape
#print axioms ISO.Props.C05_overloads
#print axioms ISO.Props.C06_success
#print axioms ISO.Props.C06_failure
#print axioms ISO.Props.C06_kept
#print axioms ISO.Props.C06_iff
#print axioms ISO.Props.C06_defaults
#print axioms ISO.Props.C07_order
#print axioms ISO.Props.C07_azimuth
#print axioms ISO.Props.C07_twice
#print axioms ISO.Props.C07_short
#print axioms ISO.Props.C08_directory
#print axioms ISO.Props.C08_plain
#print axioms ISO.Props.C08_plain_wrong
#print axioms ISO.Props.C08_every_base
#print axioms ISO.Props.C09_monthly
#print axioms ISO.Props.C09_hourly
#print axioms ISO.Props.C09_revisit
#print axioms ISO.Props.C09_file
#print axioms ISO.Props.C10_load
#print axioms ISO.Props.C10_loadWithDefaults
#print axioms ISO.Props.C10_weather
#print axioms ISO.Props.C10_exception
#print axioms ISO.Props.C10_kept
#print axioms ISO.Props.C10_kept_defaults
#print axioms ISO.Props.C10_build
#print axioms ISO.Props.C10_ready
#print axioms ISO.Props.C10_new
#print axioms ISO.Props.C10_unset
#print axioms ISO.Props.C10_last
#print axioms ISO.Props.C10_byHand
#print axioms ISO.Props.C10_setter
#print axioms ISO.Props.C10_byHand_unready
#print axioms ISO.Props.C11_table_size
#print axioms ISO.Props.C11_slice
#print axioms ISO.Props.C11_bijection
#print axioms ISO.Props.C11_monthLength
#print axioms ISO.Props.C12_month
#print axioms ISO.Props.C12_calendar
#print axioms ISO.Props.C12_exactly_once
#print axioms ISO.Props.C12_total
#print axioms ISO.Props.C12_short
#print axioms ISO.Props.C13_schedule
#print axioms ISO.Props.C13_equipment
#print axioms ISO.Props.C13_empty
#print axioms ISO.Props.C13_whole
#print axioms ISO.Props.C13_runs
#print axioms ISO.Props.C14_every_line
#print axioms ISO.Props.C14_header
#print axioms ISO.Props.C14_row
#print axioms ISO.Props.C15_block
#print axioms ISO.Props.C15_full
#print axioms ISO.Props.C15_too_long
#print axioms ISO.Props.C16_every_text
#print axioms ISO.Props.C16_rest
#print axioms ISO.Props.C16_length
#print axioms ISO.Props.C16_full
#print axioms ISO.Props.C16_missing
#print axioms ISO.Props.C17_means
#print axioms ISO.Props.C17_again
#print axioms ISO.Props.C17_between
#print axioms ISO.Props.C18_entries
#print axioms ISO.Props.C19_altitude
#print axioms ISO.Props.C19_azimuth
#print axioms ISO.Props.C19_unit
#print axioms ISO.Props.C19_incidence
#print axioms ISO.Props.C19_never_zenith
#print axioms ISO.Props.C20_sum
#print axioms ISO.Props.C20_bounds
#print axioms ISO.Props.C20_total
#print axioms ISO.Props.C20_below_horizon
#print axioms ISO.Props.C20_night
#print axioms ISO.Props.C20_midnight
#print axioms ISO.Props.C21_hour
#print axioms ISO.Props.C21_year
#print axioms ISO.Props.C21_results
#print axioms ISO.Props.C22_hour
#print axioms ISO.Props.C22_year
#print axioms ISO.Props.C22_results
#print axioms ISO.Props.C23_hour
#print axioms ISO.Props.C23_results
#print axioms ISO.Props.C24_average
#print axioms ISO.Props.C24_decay
#print axioms ISO.Props.C25_split
#print axioms ISO.Props.C25_delivered
#print axioms ISO.Props.C25_boiler
#print axioms ISO.Props.C25_chiller
#print axioms ISO.Props.C26_dichotomy
#print axioms ISO.Props.C26_finite
#print axioms ISO.Props.C26_no_demand
#print axioms ISO.Props.C26_still
#print axioms ISO.Props.C27_twice
#print axioms ISO.Props.C27_history
#print axioms ISO.Props.C27_stale
#print axioms ISO.Props.C28_aggregated
#print axioms ISO.Props.C28_order
#print axioms ISO.Props.C28_fail_together
#print axioms ISO.Props.C29_fractions
#print axioms ISO.Props.C29_months
#print axioms ISO.Props.C29_justBefore
#print axioms ISO.Props.C30_dark
#print axioms ISO.Props.C30_sun
#print axioms ISO.Props.C30_temperature
#print axioms ISO.Props.C30_radiation
#print axioms ISO.Props.C31_year
#print axioms ISO.Props.C31_controls
#print axioms ISO.Props.C31_linear
#print axioms ISO.Props.C31_months
#print axioms ISO.Props.C31_evening
#print axioms ISO.Props.C32_sum
#print axioms ISO.Props.C32_monotone
#print axioms ISO.Props.C32_order
#print axioms ISO.Props.C33_codes
#print axioms ISO.Props.C33_gain
#print axioms ISO.Props.C33_nonneg
#print axioms ISO.Props.C34_level
#print axioms ISO.Props.C34_cap
#print axioms ISO.Props.C34_heating
#print axioms ISO.Props.C34_cooling
#print axioms ISO.Props.C34_between
#print axioms ISO.Props.C34_noSetUp
#print axioms ISO.Props.C34_everyDay
#print axioms ISO.Props.C34_noEffect
#print axioms ISO.Props.C35_flows
#print axioms ISO.Props.C35_natural
#print axioms ISO.Props.C35_tight
#print axioms ISO.Props.C36_factor
#print axioms ISO.Props.C36_heating
#print axioms ISO.Props.C36_cooling
#print axioms ISO.Props.C36_warm
#print axioms ISO.Props.C36_noGain
#print axioms ISO.Props.C36_warmHeating
#print axioms ISO.Props.C36_negativeGain
#print axioms ISO.Props.C36_one
#print axioms ISO.Props.C36_simulation
#print axioms ISO.Props.C37_gains
#print axioms ISO.Props.C37_losses
#print axioms ISO.Props.C37_inertia
#print axioms ISO.Props.C37_limit
#print axioms ISO.Props.C38_loss
#print axioms ISO.Props.C38_heating
#print axioms ISO.Props.C38_cooling
#print axioms ISO.Props.C38_twice
#print axioms ISO.Props.C38_noDemand
#print axioms ISO.Props.C39_shared
#print axioms ISO.Props.C39_single
#print axioms ISO.Props.C39_largest
#print axioms ISO.Props.C40_fuel
#print axioms ISO.Props.C40_year
#print axioms ISO.Props.C40_factor
#print axioms ISO.Props.C41_layout
#print axioms ISO.Props.C41_equipment
#print axioms ISO.Props.C41_defined
#print axioms ISO.Props.C42_actions
#print axioms ISO.Props.C42_once
#print axioms ISO.Props.C42_runs
#print axioms ISO.Props.C43_order
#print axioms ISO.Props.C43_lexicographic
#print axioms ISO.Props.C43_nan
#print axioms ISO.Props.C44_keep
#print axioms ISO.Props.C44_drop
#print axioms ISO.Props.C44_every_text
#print axioms ISO.Props.C45_heating
#print axioms ISO.Props.C45_hotWater
#print axioms ISO.Props.C45_ventilation
#print axioms ISO.Props.C45_management
#print axioms ISO.Props.C45_reject
#print axioms ISO.Props.C45_effect
#print axioms ISO.Props.C46_overwritten
#print axioms ISO.Props.C46_block
#print axioms ISO.Props.C46_file
#print axioms ISO.Props.C47_gains
#print axioms ISO.Props.C47_unoccupied
#print axioms ISO.Props.C47_periods
#print axioms ISO.Props.C48_fans
#print axioms ISO.Props.C48_least
#print axioms ISO.Props.C49_finite
#print axioms ISO.Props.C49_numbers
#print axioms ISO.Props.C49_tie
#print axioms ISO.Props.C50_hour
#print axioms ISO.Props.C50_unique
#print axioms ISO.Props.C50_year
#print axioms ISO.Props.C50_course
#print axioms ISO.Props.C51_program
#print axioms ISO.Props.C52_deterministic
#print axioms ISO.Props.C52_results
#print axioms ISO.Props.C52_default
#print axioms ISO.Props.C52_defined
#print axioms ISO.Props.C53_exists
#print axioms ISO.Props.C53_least
#print axioms ISO.Props.C53_setpoints
#print axioms ISO.Props.C53_gains
#print axioms ISO.Props.C54_hourly
#print axioms ISO.Props.C55_causal
#print axioms ISO.Props.C56_hotWater
#print axioms ISO.Props.C56_heatingSystem
#print axioms ISO.Props.C56_coolingSystem
#print axioms ISO.Props.C56_distribution
#print axioms ISO.Props.C56_pumps
#print axioms ISO.Props.C56_hourlyOnly
#print axioms ISO.Props.C56_exteriorLights
#print axioms ISO.Props.C56_fans
#print axioms ISO.Props.C56_comfort
#print axioms ISO.Props.C56_interiorLights
#print axioms ISO.Props.C56_electricAppliances
#print axioms ISO.Props.C56_gasAppliances
#print axioms ISO.Props.C56_hourly_exteriorLights
#print axioms ISO.Props.C56_hourly_exteriorEquipment
#print axioms ISO.Props.C56_hourly_heatingSystem
#print axioms ISO.Props.C56_hourly_coolingSystem
#print axioms ISO.Props.C56_hourly_distribution
#print axioms ISO.Props.C56_hourly_fans
#print axioms ISO.Props.C56_hourly_pumps
#print axioms ISO.Props.C56_hourly_monthlyOnly
#print axioms ISO.Props.C56_hourly_climate
#print axioms ISO.Props.C56_hourly_interiorLights
#print axioms ISO.Props.C56_hourly_electricAppliances
#print axioms ISO.Props.C56_occupancy
#print axioms ISO.Props.C56_floor
#print axioms ISO.Props.C56_management
#print axioms ISO.Props.C56_shades
#print axioms ISO.Props.C56_hourly_windows
#print axioms ISO.Props.C56_hourly_floor
#print axioms ISO.Props.C56_hourly_occupancy
#print axioms ISO.Props.C57_call
#print axioms ISO.Props.C57_history
#print axioms ISO.Props.C57_refused
#print axioms ISO.Props.C57_whole
#print axioms ISO.Props.C57_order
#print axioms ISO.Props.C58_pairs
#print axioms ISO.Props.C58_scalar
#print axioms ISO.Props.C58_array
#print axioms ISO.Props.C58_total
#print axioms ISO.Props.C58_init
#print axioms ISO.Props.C58_prod
#print axioms ISO.Props.C58_prod_undefined
#print axioms ISO.Props.C58_div
#print axioms ISO.Props.C58_largest
#print axioms ISO.Props.C58_smallest
#print axioms ISO.Props.C58_model
#print axioms ISO.Props.C59_unique
#print axioms ISO.Props.C59_longest
#print axioms ISO.Props.C59_nothing
#print axioms ISO.Props.C59_every
#print axioms ISO.Props.C59_stod
#print axioms ISO.Props.C59_atof
#print axioms ISO.Props.C59_property
#print axioms ISO.Props.C60_number
#print axioms ISO.Props.C60_read
#print axioms ISO.Props.C60_exact
#print axioms ISO.Props.C60_library
#print axioms ISO.Props.C60_weather
#print axioms ISO.Props.C60_table
#print axioms ISO.Props.C61_runs
#print axioms ISO.Props.C61_shading
#print axioms ISO.Props.C61_shipped
#print axioms ISO.Props.C62_definitions
#print axioms ISO.Props.C62_order
#print axioms ISO.Props.C62_irrelevant
#print axioms ISO.Props.C62_defaults
#print axioms ISO.Props.C62_weather
#print axioms ISO.Props.C63_needs
#print axioms ISO.Props.C63_hourly
#print axioms ISO.Props.C63_monthly
#print axioms ISO.Props.C63_negative
#print axioms ISO.Props.C63_exact
#print axioms ISO.Props.C64_sums
#print axioms ISO.Props.C65_hourly
#print axioms ISO.Props.C65_monthly
#print axioms ISO.Props.C66_gain
#print axioms ISO.Props.C66_hour
#print axioms ISO.Props.C66_daylight
#print axioms ISO.Props.C66_backwards
#print axioms ISO.Props.C66_backwards_hour
#print axioms ISO.Props.C67_hour
#print axioms ISO.Props.C68_energy
#print axioms ISO.Props.C68_others
#print axioms ISO.Props.C69_envelope
#print axioms ISO.Props.C69_sources
#print axioms ISO.Props.C70_last
#print axioms ISO.Props.C70_slots
#print axioms ISO.Props.C70_named
#print axioms ISO.Props.C70_printed
#print axioms ISO.Props.C70_total
#print axioms ISO.Props.C70_aggregated
#print axioms ISO.Props.C71_heating
#print axioms ISO.Props.C71_cooling
#print axioms ISO.Props.C72_heating
#print axioms ISO.Props.C72_cooling
#print axioms ISO.Props.C72_appliances
#print axioms ISO.Props.C72_sun
#print axioms ISO.Props.C73_exists
#print axioms ISO.Props.C73_unique
#print axioms ISO.Props.C73_results
#print axioms ISO.Props.C73_no_demand
#print axioms ISO.Props.C73_months
#print axioms ISO.Props.C73_months_no_demand
#print axioms ISO.Props.C74_byHour
#print axioms ISO.Props.C74_byMonth
#print axioms ISO.Props.C74_monthly
#print axioms ISO.Props.C74_all
#print axioms ISO.Props.C75_monthly
#print axioms ISO.Props.C75_hourly
#print axioms ISO.Props.C75_line
#print axioms ISO.Props.C75_monthly_kinds
#print axioms ISO.Props.C75_hourly_kinds
#print axioms ISO.Props.C75_every
#print axioms ISO.Props.C76_print
#print axioms ISO.Props.C76_read
#print axioms ISO.Props.C76_boiler
#print axioms ISO.Props.C76_chiller
#print axioms ISO.Props.C76_thermostat
#print axioms ISO.Props.C76_cooling
#print axioms ISO.Props.C76_envelope
#print axioms ISO.Props.C76_setback
#print axioms ISO.Props.C76_setup
#print axioms ISO.Props.C76_appliances
#print axioms ISO.Props.C76_sun
#print axioms ISO.Props.C76_monthly_boiler
#print axioms ISO.Props.C76_monthly_chiller
#print axioms ISO.Props.C77_monthly
#print axioms ISO.Props.C77_monthly_any
#print axioms ISO.Props.C77_hourly
#print axioms ISO.Props.C78_warmer
#print axioms ISO.Props.C78_printed
#print axioms ISO.Props.C78_monthly
#print axioms ISO.Props.C78_monthly_printed
#print axioms ISO.Props.C79_year
#print axioms ISO.Props.C79_printed
#print axioms ISO.Props.C80_getters
#print axioms ISO.Props.C80_call
#print axioms ISO.Props.C80_history
#print axioms ISO.Props.C81_month
#print axioms ISO.Props.C81_hours
#print axioms ISO.Props.C81_months
#print axioms ISO.Props.C82_sensitivity
#print axioms ISO.Props.C82_forgets
#print axioms ISO.Props.C82_ratio
#print axioms ISO.Props.C83_monthly
#print axioms ISO.Props.C83_hourly
#print axioms ISO.Props.C83_halfHours
#print axioms ISO.Props.C84_hourly
#print axioms ISO.Props.C84_monthly
#print axioms ISO.Props.C84_water
#print axioms ISO.Props.C84_district
#print axioms ISO.Props.C85_hourly
#print axioms ISO.Props.C85_hourly_overnight
#print axioms ISO.Props.C85_monthly
#print axioms ISO.Props.C85_monthly_overnight
#print axioms ISO.Props.C85_disagree
#print axioms ISO.Props.C85_agree
