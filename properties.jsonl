{"id": "C01", "title": "Property keys are case-insensitive", "statement": "For every Properties object reached by any sequence of file loads and putProperty calls, getProperty/contains/getPropertyAs* give the same answer for any two keys that differ only in ASCII letter case, and putProperty under one spelling is visible under every other.", "quantifier": "all key strings, all values, all histories of loads and puts", "why_tests_cant": "There are unboundedly many keys and histories; a test samples one spelling of one key.", "anchors": ["IsoModel/src/Properties.cpp: putProperty, contains, getProperty, readFile"]}
{"id": "C02", "title": "Properties refines a finite map with first-definition-wins files and last-wins puts", "statement": "After any sequence of loads and puts, looking up a key yields the value of the last putProperty for that key if there was a put; otherwise the value on the first line, in load order, that defines the key; otherwise none. In particular a building file always beats a defaults file.", "quantifier": "all file contents, all keys, all operation histories", "why_tests_cant": "Precedence must hold for every overlap of the two files and every duplicate line.", "anchors": ["IsoModel/src/Properties.cpp: readFile, Properties(buildingFile, defaultsFile), putProperty, getProperty"]}
{"id": "C03", "title": "Line grammar of .ism files", "statement": "Blank lines and lines whose first non-blank character is '#' never change the result; on any other line the text before the first '=' (trimmed, lower-cased) is the key and the rest (trimmed) is the value, which may itself contain '='; a file loads iff every remaining line has a non-empty key, an '=' and a non-empty value, and one bad line anywhere makes the load fail; a file with CRLF line ends loads exactly like the same file with LF line ends; a file that cannot be opened makes the load fail with an error of its own, and is never read as an empty file.", "quantifier": "all files, i.e. all finite sequences of characters", "why_tests_cant": "The set of files is infinite and failures depend on a line anywhere in the file.", "anchors": ["IsoModel/src/Properties.cpp: str_trim, readFile"]}
{"id": "C04", "title": "Properties file round trip", "statement": "Writing any list of (key, value) pairs one per line as 'key = value' and loading the file back gives, for every key, the value of its first pair, and no other keys, provided keys and values are non-empty, trimmed, contain no newline, keys contain no '=' and do not start with '#'.", "quantifier": "all lists of well-formed pairs", "why_tests_cant": "Round trips must hold for all contents, including values containing '=' and '#'.", "anchors": ["IsoModel/src/Properties.cpp: readFile, getProperty, str_trim"]}
{"id": "C05", "title": "Typed property getters", "statement": "getPropertyAsBool returns true/false exactly for the values 'true'/'false' and nothing for any other value or a missing key; getPropertyAsInt reads an optionally signed decimal prefix and returns nothing exactly when there is none; a value out of range is an escaping exception, never a wrong number. getPropertyAsDoubleVector reads comma-separated values with quotes and backslash escapes: it returns the fields' numbers in order iff every field is readable; any fields written in quotes come back; a backslash that is no escape is an exception. The two overloads agree on every other text.", "quantifier": "all property stores, keys and value strings", "why_tests_cant": "Infinitely many strings; boundary cases are at the int range limits.", "anchors": ["IsoModel/src/Properties.cpp: getPropertyAsBool, getPropertyAsInt, getPropertyAsDouble, getPropertyAsDoubleVector"]}
{"id": "C06", "title": "Required and optional .ism parameters", "statement": "Loading the parameter list of a model succeeds iff every parameter is acceptable: a required one is present and readable, no number is out of range, every keyword is known and every vector has nine numbers. On success each readable parameter is stored in its own field and every other field keeps its value, which in a new object is the documented default for optional parameters (an unreadable optional value is silently treated as absent). Otherwise the first unacceptable parameter in list order decides the error: a missing required one is named; other failures throw their own exception; a vector with fewer than eight numbers is undefined behaviour. A load that throws is not undone: exactly the parameters listed before the unacceptable one have been stored, and every other field keeps its value.", "quantifier": "all property stores, all number-reading functions and all prior model states", "why_tests_cant": "About a hundred and twenty parameters: interactions between presence, type and default are combinatorial.", "anchors": ["IsoModel/src/UserModel.cpp: initializeParameters, initializeStructure, initializeParameter"]}
{"id": "C07", "title": "Facade vectors are re-ordered to the orientation they name", "statement": "A nine-entry .ism vector listed N,NE,E,SE,S,SW,W,NW,Roof is stored so that each orientation's value lands in the slot whose azimuth the solar calculation uses for that orientation (and the getter of that orientation reads it back); re-ordering twice restores the original; vectors with fewer than eight entries make the program read out of bounds.", "quantifier": "all vectors", "why_tests_cant": "Holds for all values and all lengths; tests compare one building.", "anchors": ["IsoModel/src/UserModel.cpp: northToSouth", "IsoModel/src/SolarRadiation.cpp: SurfaceAzimuths", "IsoModel/src/UserModel.hpp: setWallAreaN..setWallAreaNW"]}
{"id": "C08", "title": "Relative weather paths resolve against the model file's directory", "statement": "For a base path that contains a separator (slash or backslash), resolving a relative path gives the base's directory (with '/' separators) followed by the relative path without one leading separator, whatever the file name of the base is. For a non-empty base without any separator the result is wrong: it is the first character of the base followed by the relative path.", "quantifier": "all base and relative path strings", "why_tests_cant": "Paths are unbounded strings; the wrong case is a base path without a separator.", "anchors": ["IsoModel/src/UserModel.cpp: resolveFilename"]}
{"id": "C09", "title": "Weather block cache returns the weather of the requested site", "statement": "After any sequence of block loads of full years, a monthly model built then uses the averages of the first block ever loaded with the latitude/longitude of the last block; an hourly model uses the year of the last block that was the first of its site, so when a site is revisited (A, B, A) the two models use different sites (defect). After loading a weather file both use the same weather.", "quantifier": "all sequences of weather block loads, all sites that are numbers", "why_tests_cant": "A history property: the failure needs a revisit A,B,A of a site.", "anchors": ["IsoModel/src/UserModel.cpp: loadWeather(int,double*), LatLon::operator<, initializeSolar"]}
{"id": "C10", "title": "valid() tells whether the last load found its inputs", "statement": "Whatever happened before, after a load that returns valid() is true iff the building file (and the defaults file if named) and the weather file were found; loadWeather() can only clear it, loadAndSetWeather() and block loads always set it, and a load that throws leaves it true (defect), with the parameters listed before the unacceptable one stored and nothing else changed but the name of the building file. Building a simulation is undefined behaviour iff the model is not valid, and after any history of calls that return (without setValid) a valid model has complete monthly averages and a full year of hourly weather.", "quantifier": "all histories of load calls and setters, all file systems (changing between calls)", "why_tests_cant": "History property over arbitrary sequences of loads.", "anchors": ["IsoModel/src/UserModel.cpp: load, loadWeather, loadAndSetWeather, toHourlyModel, toMonthlyModel"]}
{"id": "C11", "title": "The calendar enumerates the 8760 hours of a 365-day year", "statement": "Hour, DayOfMonth, DayOfWeek, Month and YTD of slice i are those of the i-th hour of a non-leap year whose first day has weekday 0; the map from slices to (month, day, hour) is a bijection onto the valid dates; no index is ever out of bounds.", "quantifier": "all 8760 slices", "why_tests_cant": "Tests check a handful of slices.", "anchors": ["IsoModel/src/TimeFrame.cpp: TimeFrame, monthLength"]}
{"id": "C12", "title": "Monthly aggregation of hourly results neither loses nor double-counts an hour", "statement": "Aggregating any 8760 hourly results by month puts each hour into the month the calendar assigns it, exactly once, so that every monthly figure is the sum of its hours and the twelve figures sum to the annual total.", "quantifier": "all hourly result series", "why_tests_cant": "All series of 8760 reals; month boundaries are hard-coded numbers.", "anchors": ["IsoModel/src/HourlyModel.cpp: sumHoursByMonth", "IsoModel/src/TimeFrame.cpp"]}
{"id": "C13", "title": "Hourly occupancy schedules follow the occupancy window", "statement": "At every hour of the year the hourly model uses the occupied heating/cooling set-points, lighting and appliance levels iff the hour and the weekday both lie in the (inclusive) occupancy window, and unoccupied values otherwise; mechanical ventilation follows the hours of the window on every day of the week; a window of whole hours whose start exceeds its end is never occupied.", "quantifier": "all occupancy windows, all days and hours", "why_tests_cant": "Windows are arbitrary numbers, incl. fractional and wrapping ones.", "anchors": ["IsoModel/src/HourlyModel.cpp: populateSchedules", "IsoModel/src/HourlyModel.hpp: schedule accessors"]}
{"id": "C14", "title": "EPW rows and header fields are read by position", "statement": "From a weather row the loader stores fields 7,8,9,14,15,16,22 as dry bulb, dew point, humidity, global, beam, diffuse radiation and wind speed and ignores all others, whatever their content; from the header it stores fields 2,6,7,8,9; a row with too few fields repeats its last field instead of failing.", "quantifier": "all comma separated lines of any length", "why_tests_cant": "Arbitrary line contents and lengths.", "anchors": ["IsoModel/src/EpwData.cpp: parseHeader, parseData"]}
{"id": "C15", "title": "Weather block layout and reload", "statement": "Loading a block of 8760 rows gives latitude, longitude, (truncated) time zone and seven columns exactly as laid out and forgets the site and columns of every earlier load (location and station name of an earlier file remain); a shorter block leaves the rest of each column from the previous load; a longer one writes out of bounds.", "quantifier": "all block sizes and contents, all load histories", "why_tests_cant": "Stale data appear only for particular histories.", "anchors": ["IsoModel/src/EpwData.cpp: loadData(int,double*)"]}
{"id": "C16", "title": "Weather file loading", "statement": "From a weather file the loader takes line 1 as header, ignores lines 2 to 8 and stores at most 8760 following lines as rows 0,1,2,... in order; any file with at least 8768 lines fully determines the data independently of earlier loads; a missing file leaves the data unchanged.", "quantifier": "all files and load histories", "why_tests_cant": "Arbitrary files and histories.", "anchors": ["IsoModel/src/EpwData.cpp: loadData(std::string)"]}
{"id": "C17", "title": "Monthly and hour-of-day averages are true averages", "statement": "Each monthly weather figure is the arithmetic mean of the hourly values over exactly the hours of that month, and each hour-of-day figure is the mean over the days of the month, for every weather series; hence each lies between the minimum and maximum of the averaged hours and a second calculation on the same object gives the same result.", "quantifier": "all hourly weather series", "why_tests_cant": "All real series; bins are reset by a running month-change detector.", "anchors": ["IsoModel/src/SolarRadiation.cpp: calculateAverages, calculateMonthAvg, clearMonthlyAvg"]}
{"id": "C18", "title": "Weather text hand-over reproduces the averages", "statement": "Formatting the computed averages as text and reading that text back fills every monthly and hour-of-day weather entry with the printed value of the corresponding average and no entry is left unset or filled from another section.", "quantifier": "all averages (12 months, 24 hours, 8 surfaces)", "why_tests_cant": "All values; positional parsing with section switches.", "anchors": ["IsoModel/src/EpwData.cpp: toISOData", "IsoModel/src/UserModel.cpp: initializeSolar, stringSplit, weatherState"]}
{"id": "C19", "title": "Solar geometry never leaves the domain of its inverse functions", "statement": "For every day, hour, latitude, longitude and time zone the arguments of the arcsine and arccosine used for solar altitude and angle of incidence lie in [-1,1], so altitude and incidence are real angles with altitude in [-pi/2,pi/2] and incidence in [0,pi], and sin(altitude) is the textbook expression.", "quantifier": "all days, hours, latitudes, longitudes, time zones, surfaces", "why_tests_cant": "Real-valued inputs; a domain error would be a NaN at isolated points.", "anchors": ["IsoModel/src/SolarRadiation.hpp", "IsoModel/src/SolarRadiation.cpp: calculateSurfaceSolarRadiation"]}
{"id": "C20", "title": "Surface irradiance is non-negative and bounded by its sources", "statement": "For non-negative beam and diffuse radiation the direct component on a surface is between 0 and the beam radiation, the diffuse component between .45 and 1.3 (+1e-12, the rounding of the program's pi) times the diffuse radiation for a vertical surface, and the total is non-negative whenever the sun is not below the horizon.", "quantifier": "all irradiances, sun positions and surface orientations", "why_tests_cant": "Real-valued inequality over all positions.", "anchors": ["IsoModel/src/SolarRadiation.hpp: calculateTotalDirectBeamIrradiance, calculateTotalDiffuseIrradiance, calculateTotalIrradiance"]}
{"id": "C21", "title": "Hourly model never heats and cools in the same hour and needs are non-negative", "statement": "In every hour of every simulation the heating need and the cooling need are both non-negative and at most one of them is positive.", "quantifier": "all buildings, weather, schedules and previous thermal states", "why_tests_cant": "Quantifies over all thermal states reached after any number of hours.", "anchors": ["IsoModel/src/HourlyModel.cpp: calculateHour, simulate"]}
{"id": "C22", "title": "Hourly air temperature stays within the set-points", "statement": "If the heating set-point does not exceed the cooling set-point, the end-of-hour air temperature lies between them in every hour, equals the heating set-point when heating is on and the cooling set-point when cooling is on, and otherwise is the free-floating temperature.", "quantifier": "all physically meaningful buildings, weather and thermal states", "why_tests_cant": "Algebraic identity of the 5R1C network over all parameters.", "anchors": ["IsoModel/src/HourlyModel.cpp: calculateHour"]}
{"id": "C23", "title": "Hourly fan, pump, lighting and equipment energies are non-negative and bounded", "statement": "In every hour, fan energy, pump energy, interior and exterior lighting and equipment energy are non-negative; interior lighting never exceeds the control factor times the installed power nor falls below that for the part of the floor without daylight; exterior lighting is on exactly when the roof receives no radiation; pumps run exactly when there is a heating or cooling need; the fan moves at least the scheduled supply air.", "quantifier": "all buildings, weather and hours", "why_tests_cant": "Inequalities over all real inputs.", "anchors": ["IsoModel/src/HourlyModel.cpp: calculateHour"]}
{"id": "C24", "title": "Thermal mass temperature is a stable average", "statement": "The end-of-hour mass temperature is a convex combination of the previous mass temperature and the forcing temperatures plus a gain term proportional to the heat input, with weight on the past strictly inside (-1,1), so, for given hourly air flows and heat inputs, a perturbation of the initial state decays geometrically over the hours.", "quantifier": "all initial states, all numbers of hours", "why_tests_cant": "Induction over the number of hours.", "anchors": ["IsoModel/src/HourlyModel.cpp: calculateHour, initialize"]}
{"id": "C25", "title": "Hourly energy end uses: fuel split and totals", "statement": "Heating energy is booked to exactly one of electricity and gas according to the heating fuel; cooling to electricity; annual delivered heating (cooling) equals the annual need divided by the distribution and system efficiencies; all remaining end uses are zero (the hourly model reports no hot water).", "quantifier": "all simulations", "why_tests_cant": "Sums over 8760 hours for all inputs.", "anchors": ["IsoModel/src/HourlyModel.cpp: simulate"]}
{"id": "C26", "title": "Hourly results are numbers", "statement": "If all inputs are numbers and the physical parameters are positive, every end use other than heating and cooling is a finite number in every hour, and so are heating and cooling if the year has some heating or cooling need; in a year without any need they are NaN.", "quantifier": "all admissible inputs", "why_tests_cant": "Division by zero occurs only for particular combinations.", "anchors": ["IsoModel/src/HourlyModel.cpp: simulate, initialize, calculateHour"]}
{"id": "C27", "title": "Simulating twice gives the same answer", "statement": "Calling simulate repeatedly on the same model object gives the same results each time, whatever was done with the object before; an object whose facade and floor-area parameters are those of its first simulation behaves like a new object with the current parameters. (A facade changed after the first simulation does not take full effect: the object keeps the solar and daylight ratios of its first simulation.)", "quantifier": "all models and sequences of setter and simulate calls", "why_tests_cant": "History property; state kept between runs.", "anchors": ["IsoModel/src/HourlyModel.cpp: initialize, simulate", "IsoModel/src/MonthlyModel.cpp: simulate"]}
{"id": "C28", "title": "Aggregated and unaggregated hourly runs agree", "statement": "simulate(true) returns twelve results each of which is, for every end use, the sum over the calendar month of what simulate(false) returns hour by hour; both list the thirteen end uses in the same order.", "quantifier": "all models, all end uses", "why_tests_cant": "Relates two runs for all inputs.", "anchors": ["IsoModel/src/HourlyModel.cpp: simulate, sumHoursByMonth"]}
{"id": "C29", "title": "Monthly occupancy fractions partition the week", "statement": "In the monthly model, the fractions of the week that are occupied, weekday-unoccupied and weekend are each in [0,1] and add up to one, and the four per-month durations add up to the length of the month, for every admissible occupancy window.", "quantifier": "all occupancy windows (hours 0..24, days 0..7)", "why_tests_cant": "Continuous range of windows incl. wrap-around.", "anchors": ["IsoModel/src/MonthlyModel.cpp: scheduleAndOccupancy"]}
{"id": "C30", "title": "Monthly solar split between occupied and unoccupied hours", "statement": "The radiation averages over occupied and unoccupied hours recombine to the daily total, are non-negative and never divide by zero for windows with at least one occupied and one unoccupied clock hour.", "quantifier": "all weather, all occupancy windows", "why_tests_cant": "All real inputs.", "anchors": ["IsoModel/src/MonthlyModel.cpp: solarRadiationBreakdown"]}
{"id": "C31", "title": "Monthly lighting energy", "statement": "Monthly interior lighting energy is non-negative, linear in the lighting power density, no larger than the uncontrolled lighting energy when the control factors are at most one, and splits the annual use over the months in proportion to their length.", "quantifier": "all lighting parameters and schedules", "why_tests_cant": "All real inputs.", "anchors": ["IsoModel/src/MonthlyModel.cpp: lightingEnergyUse"]}
{"id": "C32", "title": "Transmission coefficient is the sum of U times A", "statement": "The monthly model's wall and window transmission coefficients are the sum over the nine facades of U-value times area, hence non-negative, monotone in each U and A and independent of the order in which facades are listed.", "quantifier": "all facade data", "why_tests_cant": "All reals and all permutations.", "anchors": ["IsoModel/src/MonthlyModel.cpp: envelopCalculations"]}
{"id": "C33", "title": "Monthly solar gains", "statement": "Solar heat gains through windows are non-negative for non-negative irradiance and areas and are zero for a building without windows; shading devices with code 1, 2 or 3 select the tabulated factor and any other code reads out of bounds.", "quantifier": "all facade data and irradiances", "why_tests_cant": "All reals; table look-up outside range is undefined behaviour.", "anchors": ["IsoModel/src/MonthlyModel.cpp: windowSolarGain, solarHeatGain"]}
{"id": "C34", "title": "Monthly indoor temperatures respect the set-points", "statement": "The average indoor temperature used for heating never exceeds the controlled heating set-point, the one used for cooling never exceeds the controlled cooling set-point, and building energy management levels shift the set-points by 0, .5 and 1 degree. A set-back lowers the temperature used for heating (false for buildings occupied on every day of the week, or on one day).", "quantifier": "all set-points, schedules, gains and weather", "why_tests_cant": "All reals.", "anchors": ["IsoModel/src/MonthlyModel.cpp: interiorTemp"]}
{"id": "C35", "title": "Monthly ventilation flows", "statement": "Air flows and the ventilation heat-transfer coefficient of the monthly model are non-negative and natural ventilation excludes the mechanical part.", "quantifier": "all ventilation parameters and weather", "why_tests_cant": "All reals.", "anchors": ["IsoModel/src/MonthlyModel.cpp: ventilationCalc"]}
{"id": "C36", "title": "Utilisation factors and heating/cooling needs", "statement": "For positive heat loss and gains with gain/loss ratio different from one the gain utilisation factor lies strictly between 0 and 1 and never exceeds loss/gain; monthly heating and cooling needs are non-negative and never exceed the heat loss (heating) or the heat gain (cooling).", "quantifier": "all losses, gains and time constants", "why_tests_cant": "Real powers over an unbounded range.", "anchors": ["IsoModel/src/MonthlyModel.cpp: heatingAndCooling"]}
{"id": "C37", "title": "Monthly needs vary continuously and correctly with gains", "statement": "Heating need decreases and cooling need increases when gains increase, and at gain/loss ratio one the factor is a/(a+1).", "quantifier": "all losses and gains", "why_tests_cant": "Monotonicity over reals.", "anchors": ["IsoModel/src/MonthlyModel.cpp: heatingAndCooling"]}
{"id": "C38", "title": "HVAC energy balance", "statement": "With a non-zero annual need, distribution losses are the need times a non-negative rate; need plus loss is delivered either by the building's own system or by a district network, never both; the own heating system takes electricity or gas by its type and district heating counts as gas; own cooling takes electricity. District cooling books electricity for the electric chillers and gas for the absorption chillers, but charges gas for the whole cold even when there are no absorption chillers (defect), and with no need at all in the year the cooling energy is NaN (defect).", "quantifier": "all needs and HVAC parameters", "why_tests_cant": "All reals.", "anchors": ["IsoModel/src/MonthlyModel.cpp: hvac, outputGeneration"]}
{"id": "C39", "title": "Pump energy is distributed, not created", "statement": "With heating and cooling pumps, monthly pump energies are in proportion to the needs of the months, non-negative, and add up to the annual energy determined by pump power, control factor and floor area. With one system only, its energy is spread by the share of its need in each month and still adds up, if every month has a need and both needs occur. A building without cooling pumps and without cooling need is charged the largest double each month (defect).", "quantifier": "all needs and pump parameters", "why_tests_cant": "All reals.", "anchors": ["IsoModel/src/MonthlyModel.cpp: pump"]}
{"id": "C40", "title": "Domestic hot water", "statement": "Hot-water energy is non-negative, booked to exactly one fuel, and adds up over the months to demand times heat per volume divided by the efficiencies and by megajoules per kilowatt hour (3.6 in single precision).", "quantifier": "all hot water parameters", "why_tests_cant": "All reals.", "anchors": ["IsoModel/src/MonthlyModel.cpp: heatedWater"]}
{"id": "C41", "title": "Monthly output layout and definedness", "statement": "The monthly simulation returns twelve results whose thirteen end uses are, in the documented order, the corresponding monthly figures divided by the floor area, megajoules turned into kilowatt hours; exterior equipment is always zero. For finite inputs with a non-empty occupancy window it is defined unless a month has no sunlight, a shading device code is outside 1..3 or the energy management level does not fit an int.", "quantifier": "all models, including infinite and NaN inputs for the layout", "why_tests_cant": "All inputs; positional contract; undefined behaviour on few inputs.", "anchors": ["IsoModel/src/MonthlyModel.cpp: outputGeneration, simulate", "IsoModel/src/EndUses.hpp"]}
{"id": "C42", "title": "Command line selects the simulations asked for", "statement": "For every combination of parsed command-line options the program runs exactly the requested simulations, each once and in a fixed order, and the monthly one when none is requested; a comparison with a format other than md or csv prints a message and runs nothing else by default. If a file is not found the program prints which one and dereferences a null pointer before any simulation (defect).", "quantifier": "all option combinations and option values, all file systems", "why_tests_cant": "Option values are arbitrary strings.", "anchors": ["IsoModel/src/standalone_main.cpp: main"]}
{"id": "C43", "title": "Latitude/longitude keys are strictly ordered", "statement": "Cache keys are compared by a strict total order (lexicographic in latitude and longitude), so two sites share a cache entry iff both coordinates are equal; this holds for all coordinates except NaN, for which it fails.", "quantifier": "all pairs and triples of coordinates", "why_tests_cant": "All pairs of reals; a broken order corrupts the cache silently.", "anchors": ["IsoModel/src/UserModel.cpp: LatLon::operator<"]}
{"id": "C44", "title": "Text splitting inverts joining", "statement": "Splitting the comma-joined text of any non-empty list of fields without commas, whose last field is non-empty, gives the list back; a trailing empty field is dropped.", "quantifier": "all field lists", "why_tests_cant": "All strings.", "anchors": ["IsoModel/src/UserModel.cpp: stringSplit"]}
{"id": "C45", "title": "Fuel, ventilation and energy-management keywords", "statement": "Keyword parameters accept exactly their documented keywords in any letter case, store the code the simulations test for, and reject everything else without changing the model.", "quantifier": "all strings", "why_tests_cant": "All strings in all spellings.", "anchors": ["IsoModel/src/UserModel.hpp: setBemType, setHeatingEnergyCarrier, setDhwEnergyCarrier, setVentilationType"]}
{"id": "C46", "title": "Later weather loads and models built earlier", "statement": "Models built from a user model share its weather: a later block load of a new site changes the weather of hourly models built before and leaves that of monthly models; a later weather file load changes both; and a file load after a block load overwrites the cached averages of the block's site, so the same block loaded again gives the monthly model the file's weather (defect).", "quantifier": "all user model states, blocks and files", "why_tests_cant": "Aliasing through shared pointers shows only in particular orders of calls.", "anchors": ["IsoModel/src/UserModel.cpp: setCoreSimulationProperties, loadWeather", "IsoModel/src/Simulation.hpp"]}
{"id": "C47", "title": "Internal gains are time averages", "statement": "Heat from people, appliances and lights in the monthly model is the floor area times the average over the week of the occupied and unoccupied figures, plus the year's lighting energy spread over the year; the unoccupied lighting energy is given off in the unoccupied hours.", "quantifier": "all models with an occupancy window", "why_tests_cant": "All reals.", "anchors": ["IsoModel/src/MonthlyModel.cpp: heatGainsAndLosses, internalHeatGain"]}
{"id": "C48", "title": "Monthly fan energy", "statement": "The fans of the monthly model move the larger of the air that carries the month's needs and the outside air due in occupied hours; their energy is proportional to fan power and never below that for the outside air.", "quantifier": "all needs, temperatures and fan parameters", "why_tests_cant": "All reals.", "anchors": ["IsoModel/src/MonthlyModel.cpp: heatingAndCooling"]}
{"id": "C49", "title": "Monthly results are numbers", "statement": "With data in range, all results of the monthly simulation are finite numbers whenever the needs of the months are and their total is not zero; in particular whenever gains and losses have a reasonable size, no month has gain exactly equal to loss, and some month has a clear deficit or surplus. (If a single month ties exactly, the heating and cooling results of all twelve months are NaN.)", "quantifier": "all models in range", "why_tests_cant": "A NaN in one month spreads to all results; only particular inputs show it.", "anchors": ["IsoModel/src/MonthlyModel.cpp: simulate"]}
{"id": "C50", "title": "Heat is conserved in the hourly model", "statement": "In every hour the reported heating and cooling needs, the air temperature and the mass temperature satisfy, with a suitable surface temperature, the heat balances of air, surfaces and mass of the building's network (conductances from areas and U-values, air exchange from fans and infiltration, solar and internal gains, the latter being the reported appliance and lighting energy); the balances determine the temperatures; over the year, heating minus cooling plus gains equals losses plus the heat stored in the mass.", "quantifier": "all physically meaningful buildings, schedules, weather years away from the zenith and hours; all initial states", "why_tests_cant": "An identity between real numbers for all inputs; a wrong term in one coefficient still gives plausible figures.", "anchors": ["IsoModel/src/HourlyModel.cpp: calculateHour, initialize, structureCalculations"]}
{"id": "C51", "title": "Printed tables show the results", "statement": "If the files are found and the simulations asked for have results, the program prints the comparison, the monthly table, the hourly table by month and the one by hour, in this order, each exactly when asked for, and nothing else. Read back line by line and cell by cell, a table has a title, the thirteen end use names and one line per month or hour, numbered from one, with the thirteen results in the order of the names; a comparison has for every end use the two results of each month and their difference. Values have ten digits in the monthly table and in everything after it, six otherwise; months of a comparison are numbered from zero (quirks).", "quantifier": "all option combinations, files, results and number formats without separators", "why_tests_cant": "A swapped column or a row too few shows only for some results; output text is not unit tested at all.", "anchors": ["IsoModel/src/standalone_main.cpp: runMonthlySimulation, runHourlySimulation, compare, printMonthlyResults, printHourlyResults, main"]}
{"id": "C52", "title": "From the files to the numbers", "statement": "If the files are there, every parameter is acceptable and the weather file has a year of weather, the program's results are those of the simulations with the parameters of the file and the year's averages; uninitialised members have no effect on what is printed, whatever the files; and the monthly simulation has results unless a month has no sunlight or a shading device code is out of range.", "quantifier": "all file systems, options and contents of uninitialised memory", "why_tests_cant": "Uninitialised memory usually holds zero in tests; the whole chain is not unit tested.", "anchors": ["IsoModel/src/standalone_main.cpp: main", "IsoModel/src/UserModel.cpp: load, initializeParameters, toMonthlyModel, toHourlyModel"]}
{"id": "C53", "title": "An hour responds to set-points and gains as a building does", "statement": "In every hour the heating and cooling needed are the least that keep the air between the set-points among all courses of the hour that obey the heat balances. With higher set-points and all else equal an hour needs at least as much heating and at most as much cooling and ends no cooler. With at least as much heat from appliances, lights and sun and a mass no cooler at the start, an hour needs at most as much heating and at least as much cooling and ends no cooler.", "quantifier": "all physically meaningful buildings, schedules, weather and states; all alternative courses of the hour", "why_tests_cant": "Compares every pair of inputs and every alternative course.", "anchors": ["IsoModel/src/HourlyModel.cpp: calculateHour"]}
{"id": "C54", "title": "Hourly results per square metre do not depend on the size of the building", "statement": "Multiply the floor area, all wall and window areas, the air supply, the daylit area, the exterior lighting and the exterior equipment of a building by the same factor and leave everything else as it is: the hourly simulation returns the same results per square metre, for every hour and every month and end use.", "quantifier": "all buildings with a floor area and a daylit area of at least 1 cm2 before and after, all factors other than zero, all weather, all objects, with and without aggregation", "why_tests_cant": "Compares every building with every enlargement of it.", "anchors": ["IsoModel/src/HourlyModel.cpp: initialize, calculateHour, simulate"]}
{"id": "C55", "title": "The hourly model does not look ahead", "statement": "If two weather years agree up to some hour, the results of the hours before it agree in every end use except heating and cooling; in these two the results of all these hours differ by nothing but the efficiencies of the distribution, which are fixed for the whole year.", "quantifier": "all buildings, all pairs of weather years, all hours", "why_tests_cant": "Ranges over all pairs of futures.", "anchors": ["IsoModel/src/HourlyModel.cpp: simulate, calculateHour", "IsoModel/src/SolarRadiation.cpp: calculateSurfaceSolarRadiation"]}
{"id": "C56", "title": "A parameter changes only the end uses it belongs to", "statement": "Monthly model: hot water parameters change only hot water; the boiler and district heating only heating; the chiller and district cooling only cooling; the distribution losses only heating and cooling; the fans, pumps and exterior lights only themselves; envelope, set-points, people, site and air supply only heating, cooling, fans and pumps; the lights inside, the electric and the gas appliances only themselves and heating, cooling, fans and pumps; what only the hourly model uses nothing at all; days and hours of occupancy leave exterior lights and hot water alone, the floor area the appliances (results are per square metre), energy management and shading devices everything but heating, cooling, fans and pumps. Hourly model: the same for boiler, chiller, distribution, fans, pumps, exterior lights and equipment, lights inside and electric appliances; set-points, ventilation and opaque envelope change only heating, cooling, fans and pumps; windows also the lights inside; people, gas appliances, hot water, infiltration rate and the other monthly parameters nothing at all.", "quantifier": "all buildings, all values (also infinite and NaN) of the parameters of a group, all weather", "why_tests_cant": "Non-interference compares every pair of parameter values.", "anchors": ["IsoModel/src/MonthlyModel.cpp: simulate", "IsoModel/src/HourlyModel.cpp: simulate"]}
{"id": "C57", "title": "Every getter of the user model shows what was last set", "statement": "After any sequence of calls of the setters of a UserModel every getter shows the value of the last call that sets it (its own setter, the setter of the whole vector of nine orientations, a keyword in any case of letters), and what it showed at the start if there was none. A call throws exactly for an unknown keyword or a vector without nine values, and then nothing has changed. Two objects that no getter tells apart are the same, so only the last value of each setting counts, whatever the order of the calls.", "quantifier": "all histories of setter calls of any length, all argument values, all 198 pairs of accessors, all start objects", "why_tests_cant": "About 200 pairs of accessors give 40000 pairs that must not interfere; tests set a value and read the same one.", "anchors": ["IsoModel/src/UserModel.hpp: all getters and setters", "IsoModel/src/Structure.hpp", "IsoModel/src/Heating.hpp", "IsoModel/src/Cooling.hpp", "IsoModel/src/Building.hpp", "IsoModel/src/Lighting.hpp", "IsoModel/src/Population.hpp", "IsoModel/src/Ventilation.hpp", "IsoModel/src/PhysicalQuantities.hpp", "IsoModel/src/SimulationSettings.hpp", "IsoModel/src/Location.hpp"]}
{"id": "C58", "title": "Vector arithmetic works entry by entry", "statement": "The vector functions of the monthly model combine two vectors, or a vector and a number, entry by entry over the first vector, never reading the uninitialised entries of the new vector; with a second vector that is too short they are undefined. A division by zero gives the largest double instead of an infinity. Sums and matrix products are taken from the first entry to the last. The maximum (minimum) is at least (at most) every entry that is not NaN, and an entry, except that it never goes below minus (above) the largest double, so it is that for an empty vector.", "quantifier": "all vectors of all lengths and all values, infinities and NaN included; all contents of uninitialised memory", "why_tests_cant": "Ranges over all lengths, all mismatches of lengths and all contents of fresh memory.", "anchors": ["IsoModel/src/MonthlyModel.cpp: mult, sum, dif, div, maximum, minimum, abs, pow, prod, vectorInit, zero, one"]}
{"id": "C59", "title": "A number text is read as the longest number it starts with", "statement": "Parameters and weather are read from text. After white space the longest beginning that is a number of the C language counts (optional sign; decimal or hexadecimal digits with at most one point and an optional exponent; inf, infinity, nan in any case of letters) and what follows it is ignored, so a decimal comma ends the number. As a parameter a text without a number counts as a missing parameter and a number too large for a double throws; in a weather file a text without a number is zero and a number too large an infinity. Every text reads as exactly one value or as nothing.", "quantifier": "all texts of all lengths", "why_tests_cant": "Ranges over all texts; the longest-match rule compares every way to cut the text.", "anchors": ["IsoModel/src/Properties.cpp: getPropertyAsDouble, getPropertyAsDoubleVector", "IsoModel/src/EpwData.cpp: parseHeader, parseData", "IsoModel/src/UserModel.cpp: initializeSolar"]}
{"id": "C60", "title": "Printed numbers read back to the digits printed", "statement": "A number printed with P digits and read again is a nearest number with P significant decimal digits, within half a unit of the last digit, and the same number if it has no more digits than that; infinities and NaN survive. So the averages the monthly model gets through the text form of the weather are those of the weather file to six digits, and the cells of the printed monthly table are the results of the simulation to ten digits.", "quantifier": "all numbers up to 1e300 in absolute value, all precisions; all parameter and weather files", "why_tests_cant": "Ranges over all numbers; the cases at powers of ten, of rounding up to one more digit and of fixed and exponent layout meet only for few numbers.", "anchors": ["IsoModel/src/EpwData.cpp: toISOData", "IsoModel/src/UserModel.cpp: initializeSolar", "IsoModel/src/standalone_main.cpp: printMonthlyResults, printHourlyResults"]}
{"id": "C61", "title": "Complete input files always give results", "statement": "If the building file has every required parameter, all its numbers finite, an occupied time and existing shading devices (1 to 3), and the weather file has its header and 8760 rows of numbers, of a place outside of the tropics with some global radiation in every month, then the program ends normally for every combination of options, and without options it prints a table of a heading and thirteen lines with fourteen cells each. A shading device that does not exist makes it read outside an array instead, and this happens with the example building of the repository.", "quantifier": "all pairs of texts of any length that form such a building file and weather file, all options, all contents of uninitialised memory", "why_tests_cant": "Ranges over all complete inputs; whether any of the branches that throw, return early, divide by zero or index outside a table is reached depends on both files together.", "anchors": ["IsoModel/src/standalone_main.cpp: main", "IsoModel/src/UserModel.cpp: load, loadWeather", "IsoModel/src/EpwData.cpp", "IsoModel/src/MonthlyModel.cpp: simulate, windowSolarGain", "IsoModel/src/HourlyModel.cpp: simulate", "IsoModel/test_data/SmallOffice_v2.ism"]}
{"id": "C62", "title": "Only the meaning of the input files matters", "statement": "The program does the same, in what it prints and in how it ends, for any two sets of input files that say the same: the building and defaults files matter only through the first definition of each parameter, so their lines may be put in any order when no parameter is repeated, comments, empty lines and unknown parameters may be added, and a defaults file may as well be appended to the building file; the weather file matters only through latitude, longitude, time zone and the columns dry bulb temperature, global horizontal, direct normal and diffuse horizontal radiation and wind speed, so that dew point, humidity and everything else in it have no effect.", "quantifier": "all pairs of input files that agree in what is named, all options, all contents of uninitialised memory, all arithmetics and all library functions", "why_tests_cant": "Relates two runs on arbitrary files; a test compares finitely many rewritings of finitely many files.", "anchors": ["IsoModel/src/Properties.cpp: readFile, putProperty", "IsoModel/src/UserModel.cpp: load, loadDefaults, loadWeather, initializeParameters", "IsoModel/src/EpwData.cpp: parseHeader, parseData, toISOData", "IsoModel/src/SolarRadiation.cpp: calculateAverages", "IsoModel/src/standalone_main.cpp: main"]}
{"id": "C63", "title": "Results keep their sign when every operation rounds", "statement": "On a machine that rounds after every operation, with overflow to infinity, underflow to zero and signed zeros, and with any implementation of pow, exp, sin, cos, asin, acos and atan2, the hourly simulation gives no number below zero for a building whose areas, powers, rates, factors and efficiencies are not negative, whatever the weather, set-points and earlier calls; its heating and cooling needs are never NaN and never both nonzero. Of the monthly model this holds for lights, fans, appliances, equipment and hot water when the timetable is in whole hours. It does not hold for the monthly heating need: in binary64 a need that is exactly positive can come out below zero.", "quantifier": "all roundings that are monotone, keep their own results and keep whole numbers to 2^53 and powers of two; all mathematical libraries; all buildings with such quantities, all weather, all earlier calls", "why_tests_cant": "Ranges over all inputs and all roundings; a result below zero by rounding appears for isolated inputs only, and differs between platforms and libraries.", "anchors": ["IsoModel/src/HourlyModel.cpp: calculateHour, simulate", "IsoModel/src/MonthlyModel.cpp: simulate, heatingAndCooling, lightingEnergyUse, hvac"]}
{"id": "C64", "title": "Adding up the hours loses at most one part in 10^13", "statement": "In double precision, every monthly figure of the hourly simulation differs from the exact sum of the hourly figures of that month by at most one part in 10^13 of the sum of their absolute values, and a fixed amount below the smallest normal number; in particular it is a finite number.", "quantifier": "all buildings, weather and earlier calls for which the simulation gives results, all months and end uses whose hourly figures are finite and together at most 2^1000; all mathematical libraries", "why_tests_cant": "Ranges over all sequences of up to 744 hourly figures; the error of a sum depends on their order and sizes, and a test can only compare with another rounded sum.", "anchors": ["IsoModel/src/HourlyModel.cpp: simulate, sumHoursByMonth"]}
{"id": "C65", "title": "Better systems never take more energy, even with rounding", "statement": "Replacing the heating and cooling efficiencies, distribution losses, fan power, pump powers, exterior lights and exterior equipment of a building by ones that are no worse never increases any number the hourly simulation returns, for any hour, month or end use, and a number is NaN after the replacement only if it was before. In the monthly model better heating and cooling efficiencies bring no number farther from zero and leave the other end uses unchanged. Both hold on a machine that rounds every operation.", "quantifier": "all buildings, weather, earlier calls; all pairs of systems where one is no worse than the other; all monotone roundings and mathematical libraries", "why_tests_cant": "Ranges over all pairs of buildings and all roundings; a rounding that reverses the order of two results would show for isolated inputs only.", "anchors": ["IsoModel/src/HourlyModel.cpp: simulate, calculateHour", "IsoModel/src/MonthlyModel.cpp: simulate, hvac, outputGeneration"]}
{"id": "C66", "title": "Sun protection keeps the sun out in the hourly model", "statement": "Darker glass, lighter walls or more movable shading never let more sun in, and in an hour with the same weather, schedule and start they never increase the need for cooling or decrease the need for heating. Through the whole year they change nothing but the energy for heating, cooling, fans and pumps; drawn shading takes no daylight from the lights. Movable shading has this effect if shaded glass lets in less sun than clear glass: the model takes the shading correction factor itself for the part of the sun that shaded glass lets in, so the example building, whose factors are 1, is warmed by its shading.", "quantifier": "all physically meaningful buildings, all pairs of sun protections of which one is at least as good, all hours with radiation not below zero, all schedules and states; for the end uses all finite buildings and weather", "why_tests_cant": "Ranges over all pairs of buildings, weather and states; that the shading works backwards for usual input shows only in a comparison no test makes.", "anchors": ["IsoModel/src/HourlyModel.cpp: structureCalculations, initialize, calculateHour"]}
{"id": "C67", "title": "Insulation, airtightness and heat recovery save heating in the hourly model", "statement": "In a cold hour (outdoors no warmer than the mass, the heating set-point and 20 degrees) with the same weather, schedule and start, a building with U-values and air change at 50 Pa no higher and heat recovery no worse needs at most as much heating, at least as much cooling, and ends with air and mass no cooler. The hour is without sun, or the U-values of the walls are the same, since the sun absorbed by a wall gets in in proportion to its U-value.", "quantifier": "all physically meaningful buildings, all pairs of insulation levels, all cold hours, all schedules and states", "why_tests_cant": "Ranges over all pairs of buildings, weather and states; the air flow depends on wind, stack and fans in a way that is not visibly monotone.", "anchors": ["IsoModel/src/HourlyModel.cpp: initialize, calculateHour"]}
{"id": "C68", "title": "The monthly simulation is one formula", "statement": "The electricity and the gas for heating and for cooling of every month are a fixed formula of the parameters and the weather averages: gains from people, appliances, lights, glass and walls; losses through envelope, leaks and fans at the indoor temperature the set-back control leaves; the utilisation factor of the standard with the inertia of the building; distribution losses by the shares of the year; and the efficiencies of own or district systems. The other end uses (lights, fans, pumps, appliances, hot water) are formulas of the same figures.", "quantifier": "all buildings with data in their ranges, with or without set-back, all weather averages, in years in which no month has equal gain and loss; all months", "why_tests_cant": "Ranges over all parameters; a wrong term in the chain of functions can cancel or vanish for the values of a test.", "anchors": ["IsoModel/src/MonthlyModel.cpp: simulate, solarRadiationBreakdown, lightingEnergyUse, windowSolarGain, solarHeatGain, heatGainsAndLosses, internalHeatGain, interiorTemp, ventilationCalc, heatingAndCooling, hvac, outputGeneration"]}
{"id": "C69", "title": "Insulation and heat sources act in the right direction in the monthly model", "statement": "In a month in which the building loses heat, better insulation of walls and windows, a tighter building and better heat recovery never increase the electricity or gas for heating, as long as no wall is warmed by the sun above the temperature of the rooms. More heat from people, appliances, lights, clearer glass or darker walls never increases the energy for heating and never decreases the energy for cooling.", "quantifier": "all pairs of buildings of C68 kept at constant temperatures that differ in these parameters, without hot-cold waste, all weather averages, all months", "why_tests_cant": "Ranges over all pairs of buildings; insulation lowers gains and losses and raises the inertia, so that the direction of the result is not visible in any single function.", "anchors": ["IsoModel/src/MonthlyModel.cpp: simulate, heatingAndCooling, ventilationCalc, solarHeatGain"]}
{"id": "C70", "title": "Results are found under their number and under their name", "statement": "An object with the results of a period holds what was last stored under each of its 20 numbers, and zero where nothing was; reading any other number is undefined. The thirteen end uses are under the numbers 0 to 12. With OpenStudio, where results are stored under a fuel and a category, the value under a name is the one the printed table shows in the column of that name, so a printed line has the same values in both programs. The total energy use over all periods, fuels and categories is the sum of all thirteen end uses of all periods, nothing left out or counted twice, and it does not depend on whether hourly results are summed by month.", "quantifier": "all values including infinities and NaN; all sequences of stores; all lists of results; all hourly models", "why_tests_cant": "The tables of numbers and names are written four times in the code; tests compare a few printed figures of one building, and none compares the two programs.", "anchors": ["IsoModel/src/EndUses.hpp: EndUses", "IsoModel/src/ISOResults.cpp: totalEnergyUse", "IsoModel/src/HourlyModel.cpp: simulate", "IsoModel/src/MonthlyModel.cpp: outputGeneration", "IsoModel/src/standalone_main.cpp: runMonthlySimulation, runHourlySimulation"]}
{"id": "C71", "title": "Turning the thermostat down saves heating energy", "statement": "In the monthly simulation, lower set-points for heating, in occupied or unoccupied hours, never increase the electricity or gas for heating of a month in which the building loses heat; higher set-points for cooling never increase the electricity or gas for cooling of any month.", "quantifier": "all pairs of buildings of C68 that differ in their set-points, with or without set-back, without hot-cold waste; all weather averages; all months", "why_tests_cant": "Ranges over all pairs of buildings; the set-points enter through exponential decay over nights and weekends, a stack effect with a power, and the utilisation factor.", "anchors": ["IsoModel/src/MonthlyModel.cpp: interiorTemp, ventilationCalc, heatingAndCooling, hvac"]}
{"id": "C72", "title": "Retrofits have the expected effect over a whole simulated year of the hourly model", "statement": "Over a whole year of hourly results: lower heating set-points never increase the year's heating energy, nor the cooling energy of any hour; higher cooling set-points never increase the year's cooling energy, nor the heating energy of any hour; appliances that give off more heat never increase any hour's heating energy nor decrease any hour's cooling energy; better sun protection never increases any hour's cooling energy nor decreases any hour's heating energy.", "quantifier": "all pairs of buildings that differ in the one thing named, whose mass stores enough and whose air exchange does not depend on the indoor temperature (balanced fans and wind stronger than stack effect); all years of weather; all hours", "why_tests_cant": "Ranges over all pairs of buildings and all courses of 8760 hours: what one hour saves is carried in the mass to the next hours, so a saving in one hour may be lost in another, and only an argument over the whole course settles the sum.", "anchors": ["IsoModel/src/HourlyModel.cpp: simulate, calculateHour, airFlow, structureCalculations, processHourlyResults"]}
{"id": "C73", "title": "The hourly simulation is one specification: every number of every hour", "statement": "For a building with meaningful data, in any weather, the thirteen figures of each of the 8760 hours are exactly those of one specification written from the input records alone: radiation on the facades from the position of the sun, use of the building from the occupancy hours, artificial light from daylight, temperatures and power from the heat balances of air, surfaces and mass under thermostat control, and from these the energy for heating (on the fuel of the building), cooling, lights, fans, pumps and equipment. The temperatures and powers that satisfy the balances exist and are unique. If no hour of the year needs heating or cooling, heating and cooling are reported as NaN and everything else as specified. The monthly aggregate is the sum over the calendar months.", "quantifier": "all buildings with physically meaningful data and sensible systems, all years of weather with the sun never exactly overhead, all hours, all end uses", "why_tests_cant": "Ranges over all buildings and all weather years; each hour depends on all hours before it, and the distribution losses on the whole year, so a test compares a few totals of a few buildings.", "anchors": ["IsoModel/src/HourlyModel.cpp: simulate, calculateHour, initialize, populateSchedules, structureCalculations, processHourlyResults, sumHoursByMonth", "IsoModel/src/SolarRadiation.cpp", "IsoModel/src/TimeFrame.cpp"]}
{"id": "C74", "title": "From the texts of the input files to the printed numbers", "statement": "For a building file (and optional defaults file) whose parameters are all acceptable and describe a physically meaningful building, and a weather file with a complete year, the program prints exactly the tables asked for, in a fixed order. With an option for hourly results, the cell of every hour (or month) and end use is, to six digits, the number that the specification of the building physics gives for the building the file describes in the weather the file describes; without options, every cell of the twelve months is, to ten digits, the number that the formulas of the monthly balance give for averages that are those of the weather file to six digits. A comparison shows, for every end use and month, both numbers and their difference.", "quantifier": "all disks, option records, building files, defaults files, weather texts and buildings described by them; all cells of the tables", "why_tests_cant": "Tests compare a few printed tables with stored ones. That each of 119 file parameters reaches the quantity it stands for, through reading, conversion, simulation and printing, for every building and weather, is beyond any sample.", "anchors": ["IsoModel/src/standalone_main.cpp: main", "IsoModel/src/UserModel.cpp: load, loadAndSetWeather, toMonthlyModel, toHourlyModel", "IsoModel/src/EpwData.cpp: loadData", "IsoModel/src/MonthlyModel.cpp: simulate", "IsoModel/src/HourlyModel.cpp: simulate"]}
{"id": "C75", "title": "An edit of the building file changes only the columns it belongs to", "statement": "If two building files give the same parameters except for those of one group (hot water; boiler; chiller; distribution losses; fans; pumps; exterior lights; interior lights; electric or gas appliances; envelope, set-points and ventilation; windows; floor area; days and hours of occupancy; shading devices; energy management; what only the other simulation uses), and the weather file is the same, the program prints for the second file a table with the same lines, and every cell has the same text as before, except in the columns that the group belongs to. Every parameter of the building file is in such a group. A line `key = value` put in front of a readable building file makes such an edit: that parameter has the new value whatever the rest of the file says and all others keep theirs.", "quantifier": "all pairs of building files (with or without defaults files) that differ in the parameters of one group, all weather texts with a complete year, all groups, all cells of the monthly table and of both hourly tables, all contents of uninitialised memory", "why_tests_cant": "Compares all pairs of files; what a user relies on when reading off the effect of one measure is that nothing else moved, which a test can check for single edits only.", "anchors": ["IsoModel/src/standalone_main.cpp: main", "IsoModel/src/Properties.cpp", "IsoModel/src/UserModel.cpp: load, toMonthlyModel, toHourlyModel", "IsoModel/src/MonthlyModel.cpp: simulate", "IsoModel/src/HourlyModel.cpp: simulate"]}
{"id": "C76", "title": "A better building file never prints a higher number", "statement": "The numbers that the program prints keep order: of two values the lower one is never printed as a higher number, and if one printed number is lower than another then so is the value behind it. Consequently, if two building files describe the same building but for a better boiler or a better chiller, the hourly tables printed for them have the same text outside the columns of heating (or cooling), and in these columns no cell shows a higher number for the better system. Lower heating set-points, higher cooling set-points, better insulation, a tighter building and heat recovery never print a higher number for heating (or cooling) in the monthly table. Appliances that give off more heat never print a higher number for heating nor a lower one for cooling in the hourly tables, and better sun protection the other way round. In the hourly tables, too, lower heating set-points never print a higher number for cooling, and higher cooling set-points never print a higher number for heating.", "quantifier": "all values and numbers of digits; all pairs of building files that describe a building and the same building with one measure, all complete weather years, all hours and months (for the monthly heating cells those in which the building loses heat), all contents of uninitialised memory", "why_tests_cant": "Monotonicity over all buildings, weathers and magnitudes of a measure, down to the digits on paper: rounding could invert the order of two close numbers, and a test sees single pairs only.", "anchors": ["IsoModel/src/standalone_main.cpp: main, runMonthlySimulation, runHourlySimulation", "IsoModel/src/UserModel.cpp: load, toMonthlyModel, toHourlyModel", "IsoModel/src/MonthlyModel.cpp: simulate", "IsoModel/src/HourlyModel.cpp: simulate"]}
{"id": "C77", "title": "An edit of the weather file changes only the columns that depend on the weather", "statement": "If two weather files differ only in a group of data - dew point and humidity; temperature and wind; direct and diffuse radiation and the place; global radiation - then for the same building file the printed tables of the hourly simulation agree, text for text, in every column that does not depend on that group: dew point and humidity change nothing; temperature and wind change only heating, cooling, fans and pumps; direct and diffuse radiation and the place also interior lighting; global radiation also exterior lighting. The monthly table agrees in all but heating, cooling, fans and pumps as long as the global radiation stays the same, and whatever the two weather files are it agrees in interior lights, equipment and hot water.", "quantifier": "All building files, all pairs of weather files that differ in the group, any place, all months and hours, all cells of the tables.", "why_tests_cant": "It is a statement about pairs of runs over two whole years of weather: a test compares two files, and a column that moves by a rounding error for some other pair is not seen.", "anchors": ["IsoModel/src/EpwData.cpp: loadData", "IsoModel/src/UserModel.cpp: loadWeather, initializeSolar, toMonthlyModel, toHourlyModel", "IsoModel/src/standalone_main.cpp: main", "IsoModel/src/HourlyModel.cpp: simulate", "IsoModel/src/MonthlyModel.cpp: simulate"]}
{"id": "C78", "title": "In a warmer year the building takes no more heating and no less cooling", "statement": "If two years at the same place have the same wind and radiation, and in no hour is the second one the cooler, then in every single hour of the year the hourly simulation gives for the second year no more energy for heating and no less for cooling, although the second building may start the hour warmer. In the printed tables no line shows a higher number for heating or a lower one for cooling (or one of the two says nan, for a year without any demand), and all columns except heating, cooling, fans and pumps are the same texts. The same order holds in the monthly simulation and its printed table: no month shows less cooling, and no month that is on average colder outside than the set-point shows more heating.", "quantifier": "All buildings with heavy enough mass whose air change is driven by the wind, all pairs of years ordered in temperature, all 8760 hours; for the monthly table all buildings that are kept at the same temperatures all week, all months.", "why_tests_cant": "The order has to be carried through 8760 hours of two coupled recursions, with the thermostat acting differently in both; tests see single pairs of years.", "anchors": ["IsoModel/src/HourlyModel.cpp: simulate, calculateHour", "IsoModel/src/standalone_main.cpp: main, runHourlySimulation", "IsoModel/src/EpwData.cpp: loadData"]}
{"id": "C79", "title": "Insulation, airtightness and heat recovery save heating in every hour of a cold year", "statement": "Over a whole year of the hourly simulation in which it is never warmer outdoors than the mass of the building would be in its coldest hours, the building with lower U-values, fewer air changes at 50 Pa and better heat recovery takes in no hour more energy for heating than the same building without them, and in no hour less for cooling, although it enters every hour with more heat stored. In the printed tables no line shows a higher number for heating or a lower one for cooling (or one of the two says nan, for a year without any demand). With other walls the statement is for a year without sun, because through a wall sun gets in in proportion to its U-value.", "quantifier": "All pairs of buildings that differ in U-values, air change at 50 Pa and heat recovery, with heavy enough mass and air change driven by the wind; all cold years; all 8760 hours, all lines of the tables.", "why_tests_cant": "The saving of one hour is stored in the mass and lost again in later hours, so only an argument over the whole course of two coupled recursions settles that no hour is worse; tests see single buildings and years.", "anchors": ["IsoModel/src/HourlyModel.cpp: simulate, calculateHour, airFlow, structureCalculations", "IsoModel/src/standalone_main.cpp: main, runHourlySimulation", "IsoModel/src/UserModel.cpp: load, toHourlyModel"]}
{"id": "C80", "title": "A line of the building file and a call of the setter say the same", "statement": "After a building file has been loaded, every getter of the user model shows what its line of the file says, and what it showed before the load if there is no such line. Loading a file and then calling setters, any number and in any order, leaves the same user model as loading the same file with one line on top of it for every call, the last one uppermost: the same settings, the same weather, so the same results of every simulation. This holds for single values, keywords and the vectors of nine facades, which are in another order in the file than in the setters; the path of the weather file is left out, because the file it names is read by the load and not by the setter.", "quantifier": "All building files that load, all weather files, all lists of setter calls and lines that say the same, all library functions for numbers, all previous states of the user model.", "why_tests_cant": "There is a line and a setter for every setting, two spellings of each and any order of calls: a setter that writes another field, or a vector in another order, shows up only for the one pair of line and call that a test happens to make.", "anchors": ["IsoModel/src/UserModel.hpp: setters and getters", "IsoModel/src/UserModel.cpp: load, initializeParameters, initializeParameter, setters of vectors and keywords", "IsoModel/src/Properties.cpp: getProperty, getPropertyAsDoubleVector"]}
{"id": "C81", "title": "The weather of an hour acts in its own time", "statement": "Take two weather files for the same place. If they agree in the hours of a month (in temperature, radiation and wind; dew point and humidity may differ), then the line of that month in the table of the monthly simulation is the same for both, whatever the weather of the other eleven months, in all columns but heating, cooling and pumps. If the building file sets the waste factor of the HVAC system to zero, heating and cooling of the month are the same as well, or are printed as nan; the pumps of the monthly simulation are the one column that is spread over the year. If the two files agree in the first n hours, then the first n lines of the hourly table, and the lines of the months that have ended by then in the table by months, are the same in all columns but heating and cooling, and with a waste factor of zero in every column, or nan. So a line never depends on later weather except through the loss factors of the year.", "quantifier": "every building file that the program accepts, every two weather files of one place, every month, every number of hours, every column of the tables", "why_tests_cant": "The later weather can be any of uncountably many years; a test compares two of them.", "anchors": ["IsoModel/src/SolarRadiation.cpp:calculateMonthAvg", "IsoModel/src/MonthlyModel.cpp:simulate", "IsoModel/src/MonthlyModel.cpp:hvac", "IsoModel/src/HourlyModel.cpp:simulate", "IsoModel/src/HourlyModel.cpp:calculateHour", "IsoModel/src/HourlyModel.cpp:sumHoursByMonth"]}
{"id": "C82", "title": "Small errors in the weather make small errors in the results, and the building forgets them", "statement": "Run the hourly simulation of one building on two years of weather at the same place that differ only in the temperatures (dew point and humidity are free too), in no hour by more than D degrees. Then in every hour the energy for heating of the two runs, and the energy for cooling, differ by at most D times a figure that depends on the building and the wind of that hour only: not on the season, the history or the number of hours before. And if the temperatures are the same from some hour on, the difference that is left k hours later is at most D times a figure of the building times q to the power k, where q is less than one and given by the heat capacity and the walls of the building. This is for buildings whose air flow is driven by wind and balanced fans, whose mass stores more than it exchanges in half an hour, and whose heating and cooling systems waste nothing by running at the same time.", "quantifier": "every such building, every two years of weather, every bound D on their difference, every hour, every number of hours since the last difference", "why_tests_cant": "A test sees two weather files; that errors cannot build up over 8760 hours, switching of heating and cooling included, is a statement about all of them.", "anchors": ["IsoModel/src/HourlyModel.cpp:calculateHour", "IsoModel/src/HourlyModel.cpp:simulate", "IsoModel/src/HourlyModel.cpp:initialize"]}
{"id": "C83", "title": "A place counts by its latitude and its distance from the meridian of its clock, and the clock counts in full hours", "statement": "Take two weather files with the same numbers in every hour (dew point and humidity are free), for places at the same latitude that lie equally far east of the meridian of their clock, which is 15 degrees for every full hour of the time zone. Every cell of the monthly table and of both hourly tables then has the same text: moving a file 15 degrees to the east and setting its clock an hour ahead changes nothing. The digits after the point of the time zone are dropped: a file of time zone 5.5 gives the tables of time zone 5, where the sun is 7.5 degrees out of place.", "quantifier": "every building the program accepts, every two such weather files, with any time zones of at most 24 hours, the monthly and both hourly tables", "why_tests_cant": "The place enters through the sine and cosine of sums of angles at 8760 hours; tests have files of single places, none with a half-hour time zone.", "anchors": ["IsoModel/src/EpwData.cpp:parseHeader", "IsoModel/src/EpwData.cpp:loadData", "IsoModel/src/SolarRadiation.cpp:SolarRadiation", "IsoModel/src/SolarRadiation.cpp:calculateApparentSolarTime"]}
{"id": "C84", "title": "Another fuel moves the energy from one column to the other and changes nothing else", "statement": "If two building files differ in nothing but the fuel of the heating (electric or gas), the tables of the hourly simulation that the program prints for them have in every line the texts in the columns of heating with electricity and heating with gas exchanged, and every other cell is the same text; likewise the monthly table, if there is no district heating. If they differ in nothing but the fuel of the hot water, the same holds for the two columns of hot water in the monthly table. With district heating the fuel of the heating changes no cell of the monthly table.", "quantifier": "all pairs of building files that differ in a fuel only, in both directions, all complete weather years, all lines and cells of the monthly table and of both hourly tables, all contents of uninitialised memory", "why_tests_cant": "A relation between two runs on every pair of inputs: a test compares the two runs for one building.", "anchors": ["IsoModel/src/MonthlyModel.cpp: hvac, heatedWater, outputGeneration", "IsoModel/src/HourlyModel.cpp: simulate", "IsoModel/src/UserModel.hpp: setHeatingEnergyCarrier, setDhwEnergyCarrier", "IsoModel/src/standalone_main.cpp: main"]}
{"id": "C85", "title": "How many hours each simulation counts as occupied, and by how much they differ", "statement": "For a building occupied from hour a to hour b on the days c to d of the week, the equipment energy that the hourly simulation reports adds up, in every whole week of the year, to (b-a+1)(d-c+1) hours of occupied power and unoccupied power in the rest: the last hour counts, as the documentation of the parameter says. The monthly simulation reports as many weeks as a month has, each with (b-a)(d-c+1) occupied hours: the last hour does not count. So a week of the hourly simulation has the energy of a week of the monthly one plus one hour of the difference of the two powers for every occupied day, and the two agree on every week if the monthly simulation is given a last hour one later. If the first hour is after the last one, the hourly simulation is never occupied and the monthly one for 24+b-a hours on each day.", "quantifier": "all buildings and weather years, all first and last hours and days that are whole numbers in their ranges, all weeks and months", "why_tests_cant": "A relation between two simulations over every building, window and week; a test compares one of them with recorded values for one building.", "anchors": ["IsoModel/src/Population.hpp: hoursEnd", "IsoModel/src/MonthlyModel.cpp: scheduleAndOccupancy, outputGeneration", "IsoModel/src/HourlyModel.cpp: populateSchedules, simulate"]}
