import Verif.Model.Parameters
import Verif.Model.Hourly

/-!
# The accessors of UserModel: the pairs of getter and setter of UserModel.hpp

`Get.x` models the getter `x()`, `Set.x` the setter `setX(value)`.  The getters and setters call one accessor of one component object
each (`Structure.hpp`, `Heating.hpp`, ...); both are cited.  `Accessor` lists the pairs; the four settings written as a keyword
(`bemType`, `dhwEnergyCarrier`, `heatingEnergyCarrier`, `ventilationType`) are in `Code`.
-/

namespace ISO.User
open ISO CNum

/-- the members of the components that no simulation reads (Building.hpp:190-193, Lighting.hpp:280-281, Population.hpp:139,
Ventilation.hpp:329-331) -/
structure Extra (α : Type) where
  electricAppliancePowerFixedOccupied : α
  electricAppliancePowerFixedUnoccupied : α
  gasAppliancePowerFixedOccupied : α
  gasAppliancePowerFixedUnoccupied : α
  lightingPowerFixedOccupied : α
  lightingPowerFixedUnoccupied : α
  scheduleFilePath : Str
  infiltrationRateUnoccupied : α
  ventilationExhaustRateUnoccupied : α
  ventilationIntakeRateUnoccupied : α

/-- the members of a `UserModel` behind its accessors (UserModel.hpp: the component objects and `_weatherFilePath`) -/
structure Object (α : Type) where
  params : Params α
  extra : Extra α

variable {α : Type} [CNum α] [OfInt α]

namespace Get

/-- UserModel.hpp:142-144, Building.hpp:112-114 -/
def bemType (u : Object α) : α := u.params.building.buildingEnergyManagement

/-- UserModel.hpp:160-162, Structure.hpp:231-233 -/
def buildingAirLeakage (u : Object α) : α := u.params.bldg.infiltrationRate

/-- UserModel.hpp:165-167, Structure.hpp:220-222 -/
def buildingHeight (u : Object α) : α := u.params.bldg.buildingHeight

/-- UserModel.hpp:170-172, Population.hpp:63-65 -/
def buildingOccupancyFrom (u : Object α) : α := u.params.pop.daysStart

/-- UserModel.hpp:175-177, Population.hpp:76-78 -/
def buildingOccupancyTo (u : Object α) : α := u.params.pop.daysEnd

/-- UserModel.hpp:180-182, Building.hpp:52-54 -/
def constantIlluminationControl (u : Object α) : α := u.params.building.constantIllumination

/-- UserModel.hpp:190-192, Building.hpp:64-66 -/
def elecPowerAppliancesOccupied (u : Object α) : α := u.params.building.electricApplianceHeatGainOccupied

/-- UserModel.hpp:200-202, Building.hpp:76-78 -/
def elecPowerAppliancesUnoccupied (u : Object α) : α := u.params.building.electricApplianceHeatGainUnoccupied

/-- UserModel.hpp:210-212, Building.hpp:136-138 -/
def electricAppliancePowerFixedOccupied (u : Object α) : α := u.extra.electricAppliancePowerFixedOccupied

/-- UserModel.hpp:220-222, Building.hpp:147-149 -/
def electricAppliancePowerFixedUnoccupied (u : Object α) : α := u.extra.electricAppliancePowerFixedUnoccupied

/-- UserModel.hpp:230-232, Building.hpp:124-126 -/
def externalEquipment (u : Object α) : α := u.params.building.externalEquipment

/-- UserModel.hpp:240-242, Building.hpp:158-160 -/
def gasAppliancePowerFixedOccupied (u : Object α) : α := u.extra.gasAppliancePowerFixedOccupied

/-- UserModel.hpp:250-252, Building.hpp:169-171 -/
def gasAppliancePowerFixedUnoccupied (u : Object α) : α := u.extra.gasAppliancePowerFixedUnoccupied

/-- UserModel.hpp:260-262, Building.hpp:88-90 -/
def gasPowerAppliancesOccupied (u : Object α) : α := u.params.building.gasApplianceHeatGainOccupied

/-- UserModel.hpp:270-272, Building.hpp:100-102 -/
def gasPowerAppliancesUnoccupied (u : Object α) : α := u.params.building.gasApplianceHeatGainUnoccupied

/-- UserModel.hpp:280-282, Building.hpp:38-40 -/
def lightingOccupancySensorSystem (u : Object α) : α := u.params.building.lightingOccupancySensor

/-- UserModel.hpp:290-292, Cooling.hpp:35-37 -/
def coolingOccupiedSetpoint (u : Object α) : α := u.params.cooling.temperatureSetPointOccupied

/-- UserModel.hpp:300-302, Cooling.hpp:91-93 -/
def coolingPumpControl (u : Object α) : α := u.params.cooling.pumpControlReduction

/-- UserModel.hpp:310-312, Cooling.hpp:57-59 -/
def coolingSystemCOP (u : Object α) : α := u.params.cooling.cop

/-- UserModel.hpp:320-322, Cooling.hpp:68-70 -/
def coolingSystemIPLVToCOPRatio (u : Object α) : α := u.params.cooling.partialLoadValue

/-- UserModel.hpp:330-332, Cooling.hpp:46-48 -/
def coolingUnoccupiedSetpoint (u : Object α) : α := u.params.cooling.temperatureSetPointUnoccupied

/-- UserModel.hpp:340-342, Cooling.hpp:137-139 -/
def DC_YesNo (u : Object α) : α := u.params.cooling.DC_YesNo

/-- UserModel.hpp:350-352, Cooling.hpp:126-128 -/
def dT_supp_cl (u : Object α) : α := u.params.cooling.dT_supp_cl

/-- UserModel.hpp:360-362, Cooling.hpp:203-205 -/
def E_pumps_cl (u : Object α) : α := u.params.cooling.E_pumps

/-- UserModel.hpp:370-372, Cooling.hpp:181-183 -/
def eta_DC_COP_abs (u : Object α) : α := u.params.cooling.eta_DC_COP_abs

/-- UserModel.hpp:380-382, Cooling.hpp:159-161 -/
def eta_DC_COP (u : Object α) : α := u.params.cooling.eta_DC_COP

/-- UserModel.hpp:390-392, Cooling.hpp:170-172 -/
def eta_DC_frac_abs (u : Object α) : α := u.params.cooling.eta_DC_frac_abs

/-- UserModel.hpp:400-402, Cooling.hpp:148-150 -/
def eta_DC_network (u : Object α) : α := u.params.cooling.eta_DC_network

/-- UserModel.hpp:410-412, Cooling.hpp:103-105 -/
def forcedAirCooling (u : Object α) : Bool := u.params.cooling.forcedAirCooling

/-- UserModel.hpp:420-422, Cooling.hpp:192-194 -/
def frac_DC_free (u : Object α) : α := u.params.cooling.frac_DC_free

/-- UserModel.hpp:430-432, Cooling.hpp:79-81 -/
def hvacCoolingLossFactor (u : Object α) : α := u.params.cooling.hvacLossFactor

/-- UserModel.hpp:440-442, Cooling.hpp:115-117 -/
def T_cl_ctrl_flag (u : Object α) : α := u.params.cooling.T_cl_ctrl_flag

/-- UserModel.hpp:450-452, Heating.hpp:206-208 -/
def a_H0 (u : Object α) : α := u.params.heating.a_H0

/-- UserModel.hpp:460-462, Heating.hpp:228-230 -/
def DH_YesNo (u : Object α) : α := u.params.heating.DH_YesNo

/-- UserModel.hpp:470-472, Heating.hpp:272-274 -/
def dhw_tset (u : Object α) : α := u.params.heating.dhw_tset

/-- UserModel.hpp:480-482, Heating.hpp:283-285 -/
def dhw_tsupply (u : Object α) : α := u.params.heating.dhw_tsupply

/-- UserModel.hpp:490-492, Heating.hpp:114-116 -/
def dhwDemand (u : Object α) : α := u.params.heating.hotWaterDemand

/-- UserModel.hpp:500-502, Heating.hpp:126-128 -/
def dhwDistributionEfficiency (u : Object α) : α := u.params.heating.hotWaterDistributionEfficiency

/-- UserModel.hpp:515-517, Heating.hpp:137-139 -/
def dhwEfficiency (u : Object α) : α := u.params.heating.hotWaterSystemEfficiency

/-- UserModel.hpp:525-527, Heating.hpp:149-151 -/
def dhwEnergyCarrier (u : Object α) : α := u.params.heating.hotWaterEnergyType

/-- UserModel.hpp:541-543, Heating.hpp:160-162 -/
def dT_supp_ht (u : Object α) : α := u.params.heating.dT_supp_ht

/-- UserModel.hpp:551-553, Heating.hpp:183-185 -/
def E_pumps_ht (u : Object α) : α := u.params.heating.E_pumps

/-- UserModel.hpp:561-563, Heating.hpp:239-241 -/
def eta_DH_network (u : Object α) : α := u.params.heating.eta_DH_network

/-- UserModel.hpp:571-573, Heating.hpp:250-252 -/
def eta_DH_sys (u : Object α) : α := u.params.heating.eta_DH_sys

/-- UserModel.hpp:581-583, Heating.hpp:172-174 -/
def forcedAirHeating (u : Object α) : Bool := u.params.heating.forcedAirHeating

/-- UserModel.hpp:591-593, Heating.hpp:261-263 -/
def frac_DH_free (u : Object α) : α := u.params.heating.frac_DH_free

/-- UserModel.hpp:601-603, Heating.hpp:91-93 -/
def heatingEnergyCarrier (u : Object α) : α := u.params.heating.energyType

/-- UserModel.hpp:617-619, Heating.hpp:35-37 -/
def heatingOccupiedSetpoint (u : Object α) : α := u.params.heating.temperatureSetPointOccupied

/-- UserModel.hpp:627-629, Heating.hpp:103-105 -/
def heatingPumpControl (u : Object α) : α := u.params.heating.pumpControlReduction

/-- UserModel.hpp:637-639, Heating.hpp:79-81 -/
def heatingSystemEfficiency (u : Object α) : α := u.params.heating.efficiency

/-- UserModel.hpp:647-649, Heating.hpp:46-48 -/
def heatingUnoccupiedSetpoint (u : Object α) : α := u.params.heating.temperatureSetPointUnoccupied

/-- UserModel.hpp:657-659, Heating.hpp:57-59 -/
def hvacHeatingLossFactor (u : Object α) : α := u.params.heating.hvacLossFactor

/-- UserModel.hpp:667-669, Heating.hpp:68-70 -/
def hvacWasteFactor (u : Object α) : α := u.params.heating.hotcoldWasteFactor

/-- UserModel.hpp:677-679, Heating.hpp:195-197 -/
def T_ht_ctrl_flag (u : Object α) : α := u.params.heating.T_ht_ctrl_flag

/-- UserModel.hpp:687-689, Heating.hpp:217-219 -/
def tau_H0 (u : Object α) : α := u.params.heating.tau_H0

/-- UserModel.hpp:697-699, Lighting.hpp:148-150 -/
def automaticAd (u : Object α) : α := u.params.lights.automaticAd

/-- UserModel.hpp:707-709, Lighting.hpp:192-194 -/
def automaticLux (u : Object α) : α := u.params.lights.automaticLux

/-- UserModel.hpp:717-719, Lighting.hpp:59-61 -/
def daylightSensorSystem (u : Object α) : α := u.params.lights.dimmingFraction

/-- UserModel.hpp:727-729, Lighting.hpp:114-116 -/
def elecInternalGains (u : Object α) : α := u.params.lights.elecInternalGains

/-- UserModel.hpp:737-739, Lighting.hpp:70-72 -/
def exteriorLightingPower (u : Object α) : α := u.params.lights.exteriorEnergy

/-- UserModel.hpp:747-749, Lighting.hpp:237-239 -/
def lightingPowerFixedOccupied (u : Object α) : α := u.extra.lightingPowerFixedOccupied

/-- UserModel.hpp:757-759, Lighting.hpp:248-250 -/
def lightingPowerFixedUnoccupied (u : Object α) : α := u.extra.lightingPowerFixedUnoccupied

/-- UserModel.hpp:767-769, Lighting.hpp:35-37 -/
def lightingPowerIntensityOccupied (u : Object α) : α := u.params.lights.powerDensityOccupied

/-- UserModel.hpp:777-779, Lighting.hpp:46-48 -/
def lightingPowerIntensityUnoccupied (u : Object α) : α := u.params.lights.powerDensityUnoccupied

/-- UserModel.hpp:787-789, Lighting.hpp:170-172 -/
def manualSwitchAd (u : Object α) : α := u.params.lights.manualSwitchAd

/-- UserModel.hpp:797-799, Lighting.hpp:214-216 -/
def manualSwitchLux (u : Object α) : α := u.params.lights.manualSwitchLux

/-- UserModel.hpp:807-809, Lighting.hpp:92-94 -/
def n_day_end (u : Object α) : α := u.params.lights.n_day_end

/-- UserModel.hpp:817-819, Lighting.hpp:81-83 -/
def n_day_start (u : Object α) : α := u.params.lights.n_day_start

/-- UserModel.hpp:827-829, Lighting.hpp:103-105 -/
def n_weeks (u : Object α) : α := u.params.lights.n_weeks

/-- UserModel.hpp:837-839, Lighting.hpp:225-227 -/
def naturallyLightedArea (u : Object α) : α := u.params.lights.naturallyLightedArea

/-- UserModel.hpp:847-849, Lighting.hpp:126-128 -/
def permLightPowerDensity (u : Object α) : α := u.params.lights.permLightPowerDensity

/-- UserModel.hpp:857-859, Lighting.hpp:159-161 -/
def presenceAutoAd (u : Object α) : α := u.params.lights.presenceAutoAd

/-- UserModel.hpp:867-869, Lighting.hpp:203-205 -/
def presenceAutoLux (u : Object α) : α := u.params.lights.presenceAutoLux

/-- UserModel.hpp:877-879, Lighting.hpp:137-139 -/
def presenceSensorAd (u : Object α) : α := u.params.lights.presenceSensorAd

/-- UserModel.hpp:887-889, Lighting.hpp:181-183 -/
def presenceSensorLux (u : Object α) : α := u.params.lights.presenceSensorLux

/-- UserModel.hpp:897-899, Location.hpp:38-40 -/
def terrainClass (u : Object α) : α := u.params.terrain

/-- UserModel.hpp:907-909, PhysicalQuantities.hpp:37-39 -/
def rhoCpAir (u : Object α) : α := u.params.phys.rhoCpAir

/-- UserModel.hpp:917-919, PhysicalQuantities.hpp:48-50 -/
def rhoCpWater (u : Object α) : α := u.params.phys.rhoCpWater

/-- UserModel.hpp:937-939, Population.hpp:38-40 -/
def equivFullLoadOccupancyFrom (u : Object α) : α := u.params.pop.hoursStart

/-- UserModel.hpp:947-949, Population.hpp:50-52 -/
def equivFullLoadOccupancyTo (u : Object α) : α := u.params.pop.hoursEnd

/-- UserModel.hpp:957-959, Population.hpp:109-111 -/
def heatGainPerPerson (u : Object α) : α := u.params.pop.heatGainPerPerson

/-- UserModel.hpp:967-969, Population.hpp:87-89 -/
def peopleDensityOccupied (u : Object α) : α := u.params.pop.densityOccupied

/-- UserModel.hpp:977-979, Population.hpp:98-100 -/
def peopleDensityUnoccupied (u : Object α) : α := u.params.pop.densityUnoccupied

/-- UserModel.hpp:987-990, Population.hpp:121-123 -/
def scheduleFilePath (u : Object α) : Str := u.extra.scheduleFilePath

/-- UserModel.hpp:999-1001, SimulationSettings.hpp:67-69 -/
def hci (u : Object α) : α := u.params.simSettings.hci

/-- UserModel.hpp:1009-1011, SimulationSettings.hpp:78-80 -/
def hri (u : Object α) : α := u.params.simSettings.hri

/-- UserModel.hpp:1019-1021, SimulationSettings.hpp:40-42 -/
def phiIntFractionToAirNode (u : Object α) : α := u.params.simSettings.phiIntFractionToAirNode

/-- UserModel.hpp:1029-1031, SimulationSettings.hpp:56-58 -/
def phiSolFractionToAirNode (u : Object α) : α := u.params.simSettings.phiSolFractionToAirNode

/-- UserModel.hpp:1049-1051, Structure.hpp:209-211 -/
def exteriorHeatCapacity (u : Object α) : α := u.params.bldg.wallHeatCapacity

/-- UserModel.hpp:1059-1061, Structure.hpp:41-43 -/
def floorArea (u : Object α) : α := u.params.bldg.floorArea

/-- UserModel.hpp:1069-1071, Structure.hpp:198-200 -/
def interiorHeatCapacity (u : Object α) : α := u.params.bldg.interiorHeatCapacity

/-- UserModel.hpp:1079-1081, Structure.hpp:255-257 -/
def irradianceForMaxShadingUse (u : Object α) : α := u.params.bldg.irradianceForMaxShadingUse

/-- UserModel.hpp:1089-1091, Structure.hpp:312-314 -/
def R_sc_ext (u : Object α) : α := u.params.bldg.R_sc_ext

/-- UserModel.hpp:1099-1101, Structure.hpp:242-244 -/
def R_se (u : Object α) : α := u.params.bldg.R_se

/-- UserModel.hpp:1109-1111, Structure.hpp:53-55 -/
def roofArea (u : Object α) : α := u.params.bldg.wallArea 8

/-- UserModel.hpp:1119-1121, Structure.hpp:135-137 -/
def roofSolarAbsorption (u : Object α) : α := u.params.bldg.wallSolarAbsorption 8

/-- UserModel.hpp:1129-1131, Structure.hpp:118-120 -/
def roofThermalEmissivity (u : Object α) : α := u.params.bldg.wallThermalEmissivity 8

/-- UserModel.hpp:1139-1141, Structure.hpp:85-87 -/
def roofUValue (u : Object α) : α := u.params.bldg.wallUniform 8

/-- UserModel.hpp:1149-1151, Structure.hpp:268-270 -/
def shadingFactorAtMaxUse (u : Object α) : α := u.params.bldg.shadingFactorAtMaxUse

/-- UserModel.hpp:1159-1161, Structure.hpp:69-71 -/
def skylightArea (u : Object α) : α := u.params.bldg.windowArea 8

/-- UserModel.hpp:1169-1171, Structure.hpp:183-185 -/
def skylightSCF (u : Object α) : α := u.params.bldg.windowShadingCorrectionFactor 8

/-- UserModel.hpp:1179-1181, Structure.hpp:152-154 -/
def skylightSDF (u : Object α) : α := u.params.bldg.windowShadingDevice 8

/-- UserModel.hpp:1189-1191, Structure.hpp:168-170 -/
def skylightSHGC (u : Object α) : α := u.params.bldg.windowNormalIncidenceSolarEnergyTransmittance 8

/-- UserModel.hpp:1199-1201, Structure.hpp:101-103 -/
def skylightUvalue (u : Object α) : α := u.params.bldg.windowUniform 8

/-- UserModel.hpp:1209-1211, Structure.hpp:279-281 -/
def totalAreaPerFloorArea (u : Object α) : α := u.params.bldg.totalAreaPerFloorArea

/-- UserModel.hpp:1227-1229, Structure.hpp:53-55 -/
def wallAreaE (u : Object α) : α := u.params.bldg.wallArea 2

/-- UserModel.hpp:1237-1239, Structure.hpp:53-55 -/
def wallAreaN (u : Object α) : α := u.params.bldg.wallArea 4

/-- UserModel.hpp:1247-1249, Structure.hpp:53-55 -/
def wallAreaNE (u : Object α) : α := u.params.bldg.wallArea 3

/-- UserModel.hpp:1257-1259, Structure.hpp:53-55 -/
def wallAreaNW (u : Object α) : α := u.params.bldg.wallArea 5

/-- UserModel.hpp:1267-1269, Structure.hpp:53-55 -/
def wallAreaS (u : Object α) : α := u.params.bldg.wallArea 0

/-- UserModel.hpp:1277-1279, Structure.hpp:53-55 -/
def wallAreaSE (u : Object α) : α := u.params.bldg.wallArea 1

/-- UserModel.hpp:1287-1289, Structure.hpp:53-55 -/
def wallAreaSW (u : Object α) : α := u.params.bldg.wallArea 7

/-- UserModel.hpp:1297-1299, Structure.hpp:53-55 -/
def wallAreaW (u : Object α) : α := u.params.bldg.wallArea 6

/-- UserModel.hpp:1315-1317, Structure.hpp:135-137 -/
def wallSolarAbsorptionE (u : Object α) : α := u.params.bldg.wallSolarAbsorption 2

/-- UserModel.hpp:1325-1327, Structure.hpp:135-137 -/
def wallSolarAbsorptionN (u : Object α) : α := u.params.bldg.wallSolarAbsorption 4

/-- UserModel.hpp:1335-1337, Structure.hpp:135-137 -/
def wallSolarAbsorptionNE (u : Object α) : α := u.params.bldg.wallSolarAbsorption 3

/-- UserModel.hpp:1345-1347, Structure.hpp:135-137 -/
def wallSolarAbsorptionNW (u : Object α) : α := u.params.bldg.wallSolarAbsorption 5

/-- UserModel.hpp:1355-1357, Structure.hpp:135-137 -/
def wallSolarAbsorptionS (u : Object α) : α := u.params.bldg.wallSolarAbsorption 0

/-- UserModel.hpp:1365-1367, Structure.hpp:135-137 -/
def wallSolarAbsorptionSE (u : Object α) : α := u.params.bldg.wallSolarAbsorption 1

/-- UserModel.hpp:1375-1377, Structure.hpp:135-137 -/
def wallSolarAbsorptionSW (u : Object α) : α := u.params.bldg.wallSolarAbsorption 7

/-- UserModel.hpp:1385-1387, Structure.hpp:135-137 -/
def wallSolarAbsorptionW (u : Object α) : α := u.params.bldg.wallSolarAbsorption 6

/-- UserModel.hpp:1403-1405, Structure.hpp:118-120 -/
def wallThermalEmissivityE (u : Object α) : α := u.params.bldg.wallThermalEmissivity 2

/-- UserModel.hpp:1413-1415, Structure.hpp:118-120 -/
def wallThermalEmissivityN (u : Object α) : α := u.params.bldg.wallThermalEmissivity 4

/-- UserModel.hpp:1423-1425, Structure.hpp:118-120 -/
def wallThermalEmissivityNE (u : Object α) : α := u.params.bldg.wallThermalEmissivity 3

/-- UserModel.hpp:1433-1435, Structure.hpp:118-120 -/
def wallThermalEmissivityNW (u : Object α) : α := u.params.bldg.wallThermalEmissivity 5

/-- UserModel.hpp:1443-1445, Structure.hpp:118-120 -/
def wallThermalEmissivityS (u : Object α) : α := u.params.bldg.wallThermalEmissivity 0

/-- UserModel.hpp:1453-1455, Structure.hpp:118-120 -/
def wallThermalEmissivitySE (u : Object α) : α := u.params.bldg.wallThermalEmissivity 1

/-- UserModel.hpp:1463-1465, Structure.hpp:118-120 -/
def wallThermalEmissivitySW (u : Object α) : α := u.params.bldg.wallThermalEmissivity 7

/-- UserModel.hpp:1473-1475, Structure.hpp:118-120 -/
def wallThermalEmissivityW (u : Object α) : α := u.params.bldg.wallThermalEmissivity 6

/-- UserModel.hpp:1491-1493, Structure.hpp:85-87 -/
def wallUvalueE (u : Object α) : α := u.params.bldg.wallUniform 2

/-- UserModel.hpp:1501-1503, Structure.hpp:85-87 -/
def wallUvalueN (u : Object α) : α := u.params.bldg.wallUniform 4

/-- UserModel.hpp:1511-1513, Structure.hpp:85-87 -/
def wallUvalueNE (u : Object α) : α := u.params.bldg.wallUniform 3

/-- UserModel.hpp:1521-1523, Structure.hpp:85-87 -/
def wallUvalueNW (u : Object α) : α := u.params.bldg.wallUniform 5

/-- UserModel.hpp:1531-1533, Structure.hpp:85-87 -/
def wallUvalueS (u : Object α) : α := u.params.bldg.wallUniform 0

/-- UserModel.hpp:1541-1543, Structure.hpp:85-87 -/
def wallUvalueSE (u : Object α) : α := u.params.bldg.wallUniform 1

/-- UserModel.hpp:1551-1553, Structure.hpp:85-87 -/
def wallUvalueSW (u : Object α) : α := u.params.bldg.wallUniform 7

/-- UserModel.hpp:1561-1563, Structure.hpp:85-87 -/
def wallUvalueW (u : Object α) : α := u.params.bldg.wallUniform 6

/-- UserModel.hpp:1571-1573, Structure.hpp:301-303 -/
def win_F_W (u : Object α) : α := u.params.bldg.win_F_W

/-- UserModel.hpp:1581-1583, Structure.hpp:290-292 -/
def win_ff (u : Object α) : α := u.params.bldg.win_ff

/-- UserModel.hpp:1599-1601, Structure.hpp:69-71 -/
def windowAreaE (u : Object α) : α := u.params.bldg.windowArea 2

/-- UserModel.hpp:1609-1611, Structure.hpp:69-71 -/
def windowAreaN (u : Object α) : α := u.params.bldg.windowArea 4

/-- UserModel.hpp:1619-1621, Structure.hpp:69-71 -/
def windowAreaNE (u : Object α) : α := u.params.bldg.windowArea 3

/-- UserModel.hpp:1629-1631, Structure.hpp:69-71 -/
def windowAreaNW (u : Object α) : α := u.params.bldg.windowArea 5

/-- UserModel.hpp:1639-1641, Structure.hpp:69-71 -/
def windowAreaS (u : Object α) : α := u.params.bldg.windowArea 0

/-- UserModel.hpp:1649-1651, Structure.hpp:69-71 -/
def windowAreaSE (u : Object α) : α := u.params.bldg.windowArea 1

/-- UserModel.hpp:1659-1661, Structure.hpp:69-71 -/
def windowAreaSW (u : Object α) : α := u.params.bldg.windowArea 7

/-- UserModel.hpp:1669-1671, Structure.hpp:69-71 -/
def windowAreaW (u : Object α) : α := u.params.bldg.windowArea 6

/-- UserModel.hpp:1687-1689, Structure.hpp:183-185 -/
def windowSCFE (u : Object α) : α := u.params.bldg.windowShadingCorrectionFactor 2

/-- UserModel.hpp:1697-1699, Structure.hpp:183-185 -/
def windowSCFN (u : Object α) : α := u.params.bldg.windowShadingCorrectionFactor 4

/-- UserModel.hpp:1707-1709, Structure.hpp:183-185 -/
def windowSCFNE (u : Object α) : α := u.params.bldg.windowShadingCorrectionFactor 3

/-- UserModel.hpp:1717-1719, Structure.hpp:183-185 -/
def windowSCFNW (u : Object α) : α := u.params.bldg.windowShadingCorrectionFactor 5

/-- UserModel.hpp:1727-1729, Structure.hpp:183-185 -/
def windowSCFS (u : Object α) : α := u.params.bldg.windowShadingCorrectionFactor 0

/-- UserModel.hpp:1737-1739, Structure.hpp:183-185 -/
def windowSCFSE (u : Object α) : α := u.params.bldg.windowShadingCorrectionFactor 1

/-- UserModel.hpp:1747-1749, Structure.hpp:183-185 -/
def windowSCFSW (u : Object α) : α := u.params.bldg.windowShadingCorrectionFactor 7

/-- UserModel.hpp:1757-1759, Structure.hpp:183-185 -/
def windowSCFW (u : Object α) : α := u.params.bldg.windowShadingCorrectionFactor 6

/-- UserModel.hpp:1775-1777, Structure.hpp:152-154 -/
def windowSDFE (u : Object α) : α := u.params.bldg.windowShadingDevice 2

/-- UserModel.hpp:1785-1787, Structure.hpp:152-154 -/
def windowSDFN (u : Object α) : α := u.params.bldg.windowShadingDevice 4

/-- UserModel.hpp:1795-1797, Structure.hpp:152-154 -/
def windowSDFNE (u : Object α) : α := u.params.bldg.windowShadingDevice 3

/-- UserModel.hpp:1805-1807, Structure.hpp:152-154 -/
def windowSDFNW (u : Object α) : α := u.params.bldg.windowShadingDevice 5

/-- UserModel.hpp:1815-1817, Structure.hpp:152-154 -/
def windowSDFS (u : Object α) : α := u.params.bldg.windowShadingDevice 0

/-- UserModel.hpp:1825-1827, Structure.hpp:152-154 -/
def windowSDFSE (u : Object α) : α := u.params.bldg.windowShadingDevice 1

/-- UserModel.hpp:1835-1837, Structure.hpp:152-154 -/
def windowSDFSW (u : Object α) : α := u.params.bldg.windowShadingDevice 7

/-- UserModel.hpp:1845-1847, Structure.hpp:152-154 -/
def windowSDFW (u : Object α) : α := u.params.bldg.windowShadingDevice 6

/-- UserModel.hpp:1863-1865, Structure.hpp:168-170 -/
def windowSHGCE (u : Object α) : α := u.params.bldg.windowNormalIncidenceSolarEnergyTransmittance 2

/-- UserModel.hpp:1873-1875, Structure.hpp:168-170 -/
def windowSHGCN (u : Object α) : α := u.params.bldg.windowNormalIncidenceSolarEnergyTransmittance 4

/-- UserModel.hpp:1883-1885, Structure.hpp:168-170 -/
def windowSHGCNE (u : Object α) : α := u.params.bldg.windowNormalIncidenceSolarEnergyTransmittance 3

/-- UserModel.hpp:1893-1895, Structure.hpp:168-170 -/
def windowSHGCNW (u : Object α) : α := u.params.bldg.windowNormalIncidenceSolarEnergyTransmittance 5

/-- UserModel.hpp:1903-1905, Structure.hpp:168-170 -/
def windowSHGCS (u : Object α) : α := u.params.bldg.windowNormalIncidenceSolarEnergyTransmittance 0

/-- UserModel.hpp:1913-1915, Structure.hpp:168-170 -/
def windowSHGCSE (u : Object α) : α := u.params.bldg.windowNormalIncidenceSolarEnergyTransmittance 1

/-- UserModel.hpp:1923-1925, Structure.hpp:168-170 -/
def windowSHGCSW (u : Object α) : α := u.params.bldg.windowNormalIncidenceSolarEnergyTransmittance 7

/-- UserModel.hpp:1933-1935, Structure.hpp:168-170 -/
def windowSHGCW (u : Object α) : α := u.params.bldg.windowNormalIncidenceSolarEnergyTransmittance 6

/-- UserModel.hpp:1951-1953, Structure.hpp:101-103 -/
def windowUvalueE (u : Object α) : α := u.params.bldg.windowUniform 2

/-- UserModel.hpp:1961-1963, Structure.hpp:101-103 -/
def windowUvalueN (u : Object α) : α := u.params.bldg.windowUniform 4

/-- UserModel.hpp:1971-1973, Structure.hpp:101-103 -/
def windowUvalueNE (u : Object α) : α := u.params.bldg.windowUniform 3

/-- UserModel.hpp:1981-1983, Structure.hpp:101-103 -/
def windowUvalueNW (u : Object α) : α := u.params.bldg.windowUniform 5

/-- UserModel.hpp:1991-1993, Structure.hpp:101-103 -/
def windowUvalueS (u : Object α) : α := u.params.bldg.windowUniform 0

/-- UserModel.hpp:2001-2003, Structure.hpp:101-103 -/
def windowUvalueSE (u : Object α) : α := u.params.bldg.windowUniform 1

/-- UserModel.hpp:2011-2013, Structure.hpp:101-103 -/
def windowUvalueSW (u : Object α) : α := u.params.bldg.windowUniform 7

/-- UserModel.hpp:2021-2023, Structure.hpp:101-103 -/
def windowUvalueW (u : Object α) : α := u.params.bldg.windowUniform 6

/-- UserModel.hpp:2031-2033, Ventilation.hpp:242-244 -/
def dCp (u : Object α) : α := u.params.ventilation.dCp

/-- UserModel.hpp:2041-2043, Ventilation.hpp:68-70 -/
def exhaustAirRecirclation (u : Object α) : α := u.params.ventilation.exhaustAirRecirculated

/-- UserModel.hpp:2051-2053, Ventilation.hpp:103-105 -/
def fanFlowControlFactor (u : Object α) : α := u.params.ventilation.fanControlFactor

/-- UserModel.hpp:2061-2063, Ventilation.hpp:35-37 -/
def freshAirFlowRate (u : Object α) : α := u.params.ventilation.supplyRate

/-- UserModel.hpp:2071-2073, Ventilation.hpp:264-266 -/
def H_ve (u : Object α) : α := u.params.ventilation.H_ve

/-- UserModel.hpp:2081-2083, Ventilation.hpp:57-59 -/
def heatRecovery (u : Object α) : α := u.params.ventilation.heatRecoveryEfficiency

/-- UserModel.hpp:2091-2093, Ventilation.hpp:136-138 -/
def hzone (u : Object α) : α := u.params.ventilation.hzone

/-- UserModel.hpp:2101-2103, Ventilation.hpp:276-278 -/
def infiltrationRateUnoccupied (u : Object α) : α := u.extra.infiltrationRateUnoccupied

/-- UserModel.hpp:2111-2113, Ventilation.hpp:125-127 -/
def n50 (u : Object α) : α := u.params.ventilation.n50

/-- UserModel.hpp:2121-2123, Ventilation.hpp:158-160 -/
def p_exp (u : Object α) : α := u.params.ventilation.p_exp

/-- UserModel.hpp:2131-2133, Ventilation.hpp:91-93 -/
def specificFanPower (u : Object α) : α := u.params.ventilation.fanPower

/-- UserModel.hpp:2141-2143, Ventilation.hpp:200-202 -/
def stack_coeff (u : Object α) : α := u.params.ventilation.stack_coeff

/-- UserModel.hpp:2151-2153, Ventilation.hpp:186-188 -/
def stack_exp (u : Object α) : α := u.params.ventilation.stack_exp

/-- UserModel.hpp:2161-2163, Ventilation.hpp:46-48 -/
def supplyExhaustRate (u : Object α) : α := u.params.ventilation.supplyDifference

/-- UserModel.hpp:2171-2173, Ventilation.hpp:253-255 -/
def vent_rate_flag (u : Object α) : α := OfInt.ofInt u.params.ventilation.vent_rate_flag

/-- UserModel.hpp:2181-2183, Ventilation.hpp:287-289 -/
def ventilationExhaustRateUnoccupied (u : Object α) : α := u.extra.ventilationExhaustRateUnoccupied

/-- UserModel.hpp:2191-2193, Ventilation.hpp:298-300 -/
def ventilationIntakeRateUnoccupied (u : Object α) : α := u.extra.ventilationIntakeRateUnoccupied

/-- UserModel.hpp:2201-2203, Ventilation.hpp:80-82 -/
def ventilationType (u : Object α) : α := u.params.ventilation.ventType

/-- UserModel.hpp:2219-2221, Ventilation.hpp:114-116 -/
def ventPreheatDegC (u : Object α) : α := u.params.ventilation.ventPreheatDegC

/-- UserModel.hpp:2229-2231, Ventilation.hpp:228-230 -/
def wind_coeff (u : Object α) : α := u.params.ventilation.wind_coeff

/-- UserModel.hpp:2239-2241, Ventilation.hpp:214-216 -/
def wind_exp (u : Object α) : α := u.params.ventilation.wind_exp

/-- UserModel.hpp:2249-2251, Ventilation.hpp:172-174 -/
def zone_frac (u : Object α) : α := u.params.ventilation.zone_frac

/-- UserModel.hpp:132-134 -/
def weatherFilePath (u : Object α) : Str := u.params.weatherFilePath

end Get

namespace Set

/-- UserModel.hpp:1039-1041, Structure.hpp:235-237 -/
def buildingAirLeakage (v : α) (u : Object α) : Object α :=
  { u with params := setBuildingAirLeakage v u.params }

/-- UserModel.hpp:1044-1046, Structure.hpp:224-226 -/
def buildingHeight (v : α) (u : Object α) : Object α :=
  { u with params := setBuildingHeight v u.params }

/-- UserModel.hpp:927-929, Population.hpp:67-69 -/
def buildingOccupancyFrom (v : α) (u : Object α) : Object α :=
  { u with params := setBuildingOccupancyFrom v u.params }

/-- UserModel.hpp:932-934, Population.hpp:80-82 -/
def buildingOccupancyTo (v : α) (u : Object α) : Object α :=
  { u with params := setBuildingOccupancyTo v u.params }

/-- UserModel.hpp:185-187, Building.hpp:56-58 -/
def constantIlluminationControl (v : α) (u : Object α) : Object α :=
  { u with params := setConstantIlluminationControl v u.params }

/-- UserModel.hpp:195-197, Building.hpp:68-70 -/
def elecPowerAppliancesOccupied (v : α) (u : Object α) : Object α :=
  { u with params := setElecPowerAppliancesOccupied v u.params }

/-- UserModel.hpp:205-207, Building.hpp:80-82 -/
def elecPowerAppliancesUnoccupied (v : α) (u : Object α) : Object α :=
  { u with params := setElecPowerAppliancesUnoccupied v u.params }

/-- UserModel.hpp:215-217, Building.hpp:140-142 -/
def electricAppliancePowerFixedOccupied (v : α) (u : Object α) : Object α :=
  { u with extra := { u.extra with electricAppliancePowerFixedOccupied := v } }

/-- UserModel.hpp:225-227, Building.hpp:151-153 -/
def electricAppliancePowerFixedUnoccupied (v : α) (u : Object α) : Object α :=
  { u with extra := { u.extra with electricAppliancePowerFixedUnoccupied := v } }

/-- UserModel.hpp:235-237, Building.hpp:128-130 -/
def externalEquipment (v : α) (u : Object α) : Object α :=
  { u with params := setExternalEquipment v u.params }

/-- UserModel.hpp:245-247, Building.hpp:162-164 -/
def gasAppliancePowerFixedOccupied (v : α) (u : Object α) : Object α :=
  { u with extra := { u.extra with gasAppliancePowerFixedOccupied := v } }

/-- UserModel.hpp:255-257, Building.hpp:173-175 -/
def gasAppliancePowerFixedUnoccupied (v : α) (u : Object α) : Object α :=
  { u with extra := { u.extra with gasAppliancePowerFixedUnoccupied := v } }

/-- UserModel.hpp:265-267, Building.hpp:92-94 -/
def gasPowerAppliancesOccupied (v : α) (u : Object α) : Object α :=
  { u with params := setGasPowerAppliancesOccupied v u.params }

/-- UserModel.hpp:275-277, Building.hpp:104-106 -/
def gasPowerAppliancesUnoccupied (v : α) (u : Object α) : Object α :=
  { u with params := setGasPowerAppliancesUnoccupied v u.params }

/-- UserModel.hpp:285-287, Building.hpp:42-44 -/
def lightingOccupancySensorSystem (v : α) (u : Object α) : Object α :=
  { u with params := setLightingOccupancySensorSystem v u.params }

/-- UserModel.hpp:295-297, Cooling.hpp:39-41 -/
def coolingOccupiedSetpoint (v : α) (u : Object α) : Object α :=
  { u with params := setCoolingOccupiedSetpoint v u.params }

/-- UserModel.hpp:305-307, Cooling.hpp:95-97 -/
def coolingPumpControl (v : α) (u : Object α) : Object α :=
  { u with params := setCoolingPumpControl v u.params }

/-- UserModel.hpp:315-317, Cooling.hpp:61-63 -/
def coolingSystemCOP (v : α) (u : Object α) : Object α :=
  { u with params := setCoolingSystemCOP v u.params }

/-- UserModel.hpp:325-327, Cooling.hpp:72-74 -/
def coolingSystemIPLVToCOPRatio (v : α) (u : Object α) : Object α :=
  { u with params := setCoolingSystemIPLVToCOPRatio v u.params }

/-- UserModel.hpp:335-337, Cooling.hpp:50-52 -/
def coolingUnoccupiedSetpoint (v : α) (u : Object α) : Object α :=
  { u with params := setCoolingUnoccupiedSetpoint v u.params }

/-- UserModel.hpp:345-347, Cooling.hpp:141-143 -/
def DC_YesNo (v : α) (u : Object α) : Object α :=
  { u with params := setDC_YesNo v u.params }

/-- UserModel.hpp:355-357, Cooling.hpp:130-132 -/
def dT_supp_cl (v : α) (u : Object α) : Object α :=
  { u with params := setDT_supp_cl v u.params }

/-- UserModel.hpp:365-367, Cooling.hpp:207-209 -/
def E_pumps_cl (v : α) (u : Object α) : Object α :=
  { u with params := setE_pumps_cl v u.params }

/-- UserModel.hpp:375-377, Cooling.hpp:185-187 -/
def eta_DC_COP_abs (v : α) (u : Object α) : Object α :=
  { u with params := setEta_DC_COP_abs v u.params }

/-- UserModel.hpp:385-387, Cooling.hpp:163-165 -/
def eta_DC_COP (v : α) (u : Object α) : Object α :=
  { u with params := setEta_DC_COP v u.params }

/-- UserModel.hpp:395-397, Cooling.hpp:174-176 -/
def eta_DC_frac_abs (v : α) (u : Object α) : Object α :=
  { u with params := setEta_DC_frac_abs v u.params }

/-- UserModel.hpp:405-407, Cooling.hpp:152-154 -/
def eta_DC_network (v : α) (u : Object α) : Object α :=
  { u with params := setEta_DC_network v u.params }

/-- UserModel.hpp:415-417, Cooling.hpp:107-109 -/
def forcedAirCooling (v : Bool) (u : Object α) : Object α :=
  { u with params := setForcedAirCooling v u.params }

/-- UserModel.hpp:425-427, Cooling.hpp:196-198 -/
def frac_DC_free (v : α) (u : Object α) : Object α :=
  { u with params := setFrac_DC_free v u.params }

/-- UserModel.hpp:435-437, Cooling.hpp:83-85 -/
def hvacCoolingLossFactor (v : α) (u : Object α) : Object α :=
  { u with params := setHvacCoolingLossFactor v u.params }

/-- UserModel.hpp:445-447, Cooling.hpp:119-121 -/
def T_cl_ctrl_flag (v : α) (u : Object α) : Object α :=
  { u with params := setT_cl_ctrl_flag v u.params }

/-- UserModel.hpp:455-457, Heating.hpp:210-212 -/
def a_H0 (v : α) (u : Object α) : Object α :=
  { u with params := setA_H0 v u.params }

/-- UserModel.hpp:465-467, Heating.hpp:232-234 -/
def DH_YesNo (v : α) (u : Object α) : Object α :=
  { u with params := setDH_YesNo v u.params }

/-- UserModel.hpp:475-477, Heating.hpp:276-278 -/
def dhw_tset (v : α) (u : Object α) : Object α :=
  { u with params := setDhw_tset v u.params }

/-- UserModel.hpp:485-487, Heating.hpp:287-289 -/
def dhw_tsupply (v : α) (u : Object α) : Object α :=
  { u with params := setDhw_tsupply v u.params }

/-- UserModel.hpp:495-497, Heating.hpp:118-120 -/
def dhwDemand (v : α) (u : Object α) : Object α :=
  { u with params := setDhwDemand v u.params }

/-- UserModel.hpp:505-507, Heating.hpp:130-132 -/
def dhwDistributionEfficiency (v : α) (u : Object α) : Object α :=
  { u with params := setDhwDistributionEfficiency v u.params }

/-- UserModel.hpp:520-522, Heating.hpp:141-143 -/
def dhwEfficiency (v : α) (u : Object α) : Object α :=
  { u with params := setDhwEfficiency v u.params }

/-- UserModel.hpp:546-548, Heating.hpp:164-166 -/
def dT_supp_ht (v : α) (u : Object α) : Object α :=
  { u with params := setDT_supp_ht v u.params }

/-- UserModel.hpp:556-558, Heating.hpp:187-189 -/
def E_pumps_ht (v : α) (u : Object α) : Object α :=
  { u with params := setE_pumps_ht v u.params }

/-- UserModel.hpp:566-568, Heating.hpp:243-245 -/
def eta_DH_network (v : α) (u : Object α) : Object α :=
  { u with params := setEta_DH_network v u.params }

/-- UserModel.hpp:576-578, Heating.hpp:254-256 -/
def eta_DH_sys (v : α) (u : Object α) : Object α :=
  { u with params := setEta_DH_sys v u.params }

/-- UserModel.hpp:586-588, Heating.hpp:176-178 -/
def forcedAirHeating (v : Bool) (u : Object α) : Object α :=
  { u with params := setForcedAirHeating v u.params }

/-- UserModel.hpp:596-598, Heating.hpp:265-267 -/
def frac_DH_free (v : α) (u : Object α) : Object α :=
  { u with params := setFrac_DH_free v u.params }

/-- UserModel.hpp:622-624, Heating.hpp:39-41 -/
def heatingOccupiedSetpoint (v : α) (u : Object α) : Object α :=
  { u with params := setHeatingOccupiedSetpoint v u.params }

/-- UserModel.hpp:632-634, Heating.hpp:107-109 -/
def heatingPumpControl (v : α) (u : Object α) : Object α :=
  { u with params := setHeatingPumpControl v u.params }

/-- UserModel.hpp:642-644, Heating.hpp:83-85 -/
def heatingSystemEfficiency (v : α) (u : Object α) : Object α :=
  { u with params := setHeatingSystemEfficiency v u.params }

/-- UserModel.hpp:652-654, Heating.hpp:50-52 -/
def heatingUnoccupiedSetpoint (v : α) (u : Object α) : Object α :=
  { u with params := setHeatingUnoccupiedSetpoint v u.params }

/-- UserModel.hpp:662-664, Heating.hpp:61-63 -/
def hvacHeatingLossFactor (v : α) (u : Object α) : Object α :=
  { u with params := setHvacHeatingLossFactor v u.params }

/-- UserModel.hpp:672-674, Heating.hpp:72-74 -/
def hvacWasteFactor (v : α) (u : Object α) : Object α :=
  { u with params := setHvacWasteFactor v u.params }

/-- UserModel.hpp:682-684, Heating.hpp:199-201 -/
def T_ht_ctrl_flag (v : α) (u : Object α) : Object α :=
  { u with params := setT_ht_ctrl_flag v u.params }

/-- UserModel.hpp:692-694, Heating.hpp:221-223 -/
def tau_H0 (v : α) (u : Object α) : Object α :=
  { u with params := setTau_H0 v u.params }

/-- UserModel.hpp:702-704, Lighting.hpp:152-154 -/
def automaticAd (v : α) (u : Object α) : Object α :=
  { u with params := setAutomaticAd v u.params }

/-- UserModel.hpp:712-714, Lighting.hpp:196-198 -/
def automaticLux (v : α) (u : Object α) : Object α :=
  { u with params := setAutomaticLux v u.params }

/-- UserModel.hpp:722-724, Lighting.hpp:63-65 -/
def daylightSensorSystem (v : α) (u : Object α) : Object α :=
  { u with params := setDaylightSensorSystem v u.params }

/-- UserModel.hpp:732-734, Lighting.hpp:118-120 -/
def elecInternalGains (v : α) (u : Object α) : Object α :=
  { u with params := setElecInternalGains v u.params }

/-- UserModel.hpp:742-744, Lighting.hpp:74-76 -/
def exteriorLightingPower (v : α) (u : Object α) : Object α :=
  { u with params := setExteriorLightingPower v u.params }

/-- UserModel.hpp:752-754, Lighting.hpp:241-243 -/
def lightingPowerFixedOccupied (v : α) (u : Object α) : Object α :=
  { u with extra := { u.extra with lightingPowerFixedOccupied := v } }

/-- UserModel.hpp:762-764, Lighting.hpp:252-254 -/
def lightingPowerFixedUnoccupied (v : α) (u : Object α) : Object α :=
  { u with extra := { u.extra with lightingPowerFixedUnoccupied := v } }

/-- UserModel.hpp:772-774, Lighting.hpp:39-41 -/
def lightingPowerIntensityOccupied (v : α) (u : Object α) : Object α :=
  { u with params := setLightingPowerIntensityOccupied v u.params }

/-- UserModel.hpp:782-784, Lighting.hpp:50-52 -/
def lightingPowerIntensityUnoccupied (v : α) (u : Object α) : Object α :=
  { u with params := setLightingPowerIntensityUnoccupied v u.params }

/-- UserModel.hpp:792-794, Lighting.hpp:174-176 -/
def manualSwitchAd (v : α) (u : Object α) : Object α :=
  { u with params := setManualSwitchAd v u.params }

/-- UserModel.hpp:802-804, Lighting.hpp:218-220 -/
def manualSwitchLux (v : α) (u : Object α) : Object α :=
  { u with params := setManualSwitchLux v u.params }

/-- UserModel.hpp:812-814, Lighting.hpp:96-98 -/
def n_day_end (v : α) (u : Object α) : Object α :=
  { u with params := setN_day_end v u.params }

/-- UserModel.hpp:822-824, Lighting.hpp:85-87 -/
def n_day_start (v : α) (u : Object α) : Object α :=
  { u with params := setN_day_start v u.params }

/-- UserModel.hpp:832-834, Lighting.hpp:107-109 -/
def n_weeks (v : α) (u : Object α) : Object α :=
  { u with params := setN_weeks v u.params }

/-- UserModel.hpp:842-844, Lighting.hpp:229-231 -/
def naturallyLightedArea (v : α) (u : Object α) : Object α :=
  { u with params := setNaturallyLightedArea v u.params }

/-- UserModel.hpp:852-854, Lighting.hpp:130-132 -/
def permLightPowerDensity (v : α) (u : Object α) : Object α :=
  { u with params := setPermLightPowerDensity v u.params }

/-- UserModel.hpp:862-864, Lighting.hpp:163-165 -/
def presenceAutoAd (v : α) (u : Object α) : Object α :=
  { u with params := setPresenceAutoAd v u.params }

/-- UserModel.hpp:872-874, Lighting.hpp:207-209 -/
def presenceAutoLux (v : α) (u : Object α) : Object α :=
  { u with params := setPresenceAutoLux v u.params }

/-- UserModel.hpp:882-884, Lighting.hpp:141-143 -/
def presenceSensorAd (v : α) (u : Object α) : Object α :=
  { u with params := setPresenceSensorAd v u.params }

/-- UserModel.hpp:892-894, Lighting.hpp:185-187 -/
def presenceSensorLux (v : α) (u : Object α) : Object α :=
  { u with params := setPresenceSensorLux v u.params }

/-- UserModel.hpp:902-904, Location.hpp:42-44 -/
def terrainClass (v : α) (u : Object α) : Object α :=
  { u with params := setTerrainClass v u.params }

/-- UserModel.hpp:912-914, PhysicalQuantities.hpp:41-43 -/
def rhoCpAir (v : α) (u : Object α) : Object α :=
  { u with params := setRhoCpAir v u.params }

/-- UserModel.hpp:922-924, PhysicalQuantities.hpp:52-54 -/
def rhoCpWater (v : α) (u : Object α) : Object α :=
  { u with params := setRhoCpWater v u.params }

/-- UserModel.hpp:942-944, Population.hpp:42-44 -/
def equivFullLoadOccupancyFrom (v : α) (u : Object α) : Object α :=
  { u with params := setEquivFullLoadOccupancyFrom v u.params }

/-- UserModel.hpp:952-954, Population.hpp:54-56 -/
def equivFullLoadOccupancyTo (v : α) (u : Object α) : Object α :=
  { u with params := setEquivFullLoadOccupancyTo v u.params }

/-- UserModel.hpp:962-964, Population.hpp:113-115 -/
def heatGainPerPerson (v : α) (u : Object α) : Object α :=
  { u with params := setHeatGainPerPerson v u.params }

/-- UserModel.hpp:972-974, Population.hpp:91-93 -/
def peopleDensityOccupied (v : α) (u : Object α) : Object α :=
  { u with params := setPeopleDensityOccupied v u.params }

/-- UserModel.hpp:982-984, Population.hpp:102-104 -/
def peopleDensityUnoccupied (v : α) (u : Object α) : Object α :=
  { u with params := setPeopleDensityUnoccupied v u.params }

/-- UserModel.hpp:993-996, Population.hpp:125-127 -/
def scheduleFilePath (v : Str) (u : Object α) : Object α :=
  { u with extra := { u.extra with scheduleFilePath := v } }

/-- UserModel.hpp:1004-1006, SimulationSettings.hpp:71-73 -/
def hci (v : α) (u : Object α) : Object α :=
  { u with params := setHci v u.params }

/-- UserModel.hpp:1014-1016, SimulationSettings.hpp:82-84 -/
def hri (v : α) (u : Object α) : Object α :=
  { u with params := setHri v u.params }

/-- UserModel.hpp:1024-1026, SimulationSettings.hpp:44-46 -/
def phiIntFractionToAirNode (v : α) (u : Object α) : Object α :=
  { u with params := setPhiIntFractionToAirNode v u.params }

/-- UserModel.hpp:1034-1036, SimulationSettings.hpp:60-62 -/
def phiSolFractionToAirNode (v : α) (u : Object α) : Object α :=
  { u with params := setPhiSolFractionToAirNode v u.params }

/-- UserModel.hpp:1054-1056, Structure.hpp:213-215 -/
def exteriorHeatCapacity (v : α) (u : Object α) : Object α :=
  { u with params := setExteriorHeatCapacity v u.params }

/-- UserModel.hpp:1064-1066, Structure.hpp:45-47 -/
def floorArea (v : α) (u : Object α) : Object α :=
  { u with params := setFloorArea v u.params }

/-- UserModel.hpp:1074-1076, Structure.hpp:202-204 -/
def interiorHeatCapacity (v : α) (u : Object α) : Object α :=
  { u with params := setInteriorHeatCapacity v u.params }

/-- UserModel.hpp:1084-1086, Structure.hpp:259-261 -/
def irradianceForMaxShadingUse (v : α) (u : Object α) : Object α :=
  { u with params := setIrradianceForMaxShadingUse v u.params }

/-- UserModel.hpp:1094-1096, Structure.hpp:316-318 -/
def R_sc_ext (v : α) (u : Object α) : Object α :=
  { u with params := setR_sc_ext v u.params }

/-- UserModel.hpp:1104-1106, Structure.hpp:246-248 -/
def R_se (v : α) (u : Object α) : Object α :=
  { u with params := setR_se v u.params }

/-- UserModel.hpp:1114-1116, Structure.hpp:61-63 -/
def roofArea (v : α) (u : Object α) : Object α :=
  { u with params := { u.params with bldg := { u.params.bldg with wallArea := Function.update u.params.bldg.wallArea 8 v } } }

/-- UserModel.hpp:1124-1126, Structure.hpp:143-145 -/
def roofSolarAbsorption (v : α) (u : Object α) : Object α :=
  { u with params := { u.params with bldg := { u.params.bldg with wallSolarAbsorption := Function.update u.params.bldg.wallSolarAbsorption 8 v } } }

/-- UserModel.hpp:1134-1136, Structure.hpp:126-128 -/
def roofThermalEmissivity (v : α) (u : Object α) : Object α :=
  { u with params := { u.params with bldg := { u.params.bldg with wallThermalEmissivity := Function.update u.params.bldg.wallThermalEmissivity 8 v } } }

/-- UserModel.hpp:1144-1146, Structure.hpp:93-95 -/
def roofUValue (v : α) (u : Object α) : Object α :=
  { u with params := { u.params with bldg := { u.params.bldg with wallUniform := Function.update u.params.bldg.wallUniform 8 v } } }

/-- UserModel.hpp:1154-1156, Structure.hpp:272-274 -/
def shadingFactorAtMaxUse (v : α) (u : Object α) : Object α :=
  { u with params := setShadingFactorAtMaxUse v u.params }

/-- UserModel.hpp:1164-1166, Structure.hpp:77-79 -/
def skylightArea (v : α) (u : Object α) : Object α :=
  { u with params := { u.params with bldg := { u.params.bldg with windowArea := Function.update u.params.bldg.windowArea 8 v } } }

/-- UserModel.hpp:1174-1176, Structure.hpp:191-193 -/
def skylightSCF (v : α) (u : Object α) : Object α :=
  { u with params := { u.params with bldg := { u.params.bldg with windowShadingCorrectionFactor := Function.update u.params.bldg.windowShadingCorrectionFactor 8 v } } }

/-- UserModel.hpp:1184-1186, Structure.hpp:160-162 -/
def skylightSDF (v : α) (u : Object α) : Object α :=
  { u with params := { u.params with bldg := { u.params.bldg with windowShadingDevice := Function.update u.params.bldg.windowShadingDevice 8 v } } }

/-- UserModel.hpp:1194-1196, Structure.hpp:176-178 -/
def skylightSHGC (v : α) (u : Object α) : Object α :=
  { u with params := { u.params with bldg := { u.params.bldg with windowNormalIncidenceSolarEnergyTransmittance := Function.update u.params.bldg.windowNormalIncidenceSolarEnergyTransmittance 8 v } } }

/-- UserModel.hpp:1204-1206, Structure.hpp:109-111 -/
def skylightUvalue (v : α) (u : Object α) : Object α :=
  { u with params := { u.params with bldg := { u.params.bldg with windowUniform := Function.update u.params.bldg.windowUniform 8 v } } }

/-- UserModel.hpp:1214-1216, Structure.hpp:283-285 -/
def totalAreaPerFloorArea (v : α) (u : Object α) : Object α :=
  { u with params := setTotalAreaPerFloorArea v u.params }

/-- UserModel.hpp:1232-1234, Structure.hpp:61-63 -/
def wallAreaE (v : α) (u : Object α) : Object α :=
  { u with params := { u.params with bldg := { u.params.bldg with wallArea := Function.update u.params.bldg.wallArea 2 v } } }

/-- UserModel.hpp:1242-1244, Structure.hpp:61-63 -/
def wallAreaN (v : α) (u : Object α) : Object α :=
  { u with params := { u.params with bldg := { u.params.bldg with wallArea := Function.update u.params.bldg.wallArea 4 v } } }

/-- UserModel.hpp:1252-1254, Structure.hpp:61-63 -/
def wallAreaNE (v : α) (u : Object α) : Object α :=
  { u with params := { u.params with bldg := { u.params.bldg with wallArea := Function.update u.params.bldg.wallArea 3 v } } }

/-- UserModel.hpp:1262-1264, Structure.hpp:61-63 -/
def wallAreaNW (v : α) (u : Object α) : Object α :=
  { u with params := { u.params with bldg := { u.params.bldg with wallArea := Function.update u.params.bldg.wallArea 5 v } } }

/-- UserModel.hpp:1272-1274, Structure.hpp:61-63 -/
def wallAreaS (v : α) (u : Object α) : Object α :=
  { u with params := { u.params with bldg := { u.params.bldg with wallArea := Function.update u.params.bldg.wallArea 0 v } } }

/-- UserModel.hpp:1282-1284, Structure.hpp:61-63 -/
def wallAreaSE (v : α) (u : Object α) : Object α :=
  { u with params := { u.params with bldg := { u.params.bldg with wallArea := Function.update u.params.bldg.wallArea 1 v } } }

/-- UserModel.hpp:1292-1294, Structure.hpp:61-63 -/
def wallAreaSW (v : α) (u : Object α) : Object α :=
  { u with params := { u.params with bldg := { u.params.bldg with wallArea := Function.update u.params.bldg.wallArea 7 v } } }

/-- UserModel.hpp:1302-1304, Structure.hpp:61-63 -/
def wallAreaW (v : α) (u : Object α) : Object α :=
  { u with params := { u.params with bldg := { u.params.bldg with wallArea := Function.update u.params.bldg.wallArea 6 v } } }

/-- UserModel.hpp:1320-1322, Structure.hpp:143-145 -/
def wallSolarAbsorptionE (v : α) (u : Object α) : Object α :=
  { u with params := { u.params with bldg := { u.params.bldg with wallSolarAbsorption := Function.update u.params.bldg.wallSolarAbsorption 2 v } } }

/-- UserModel.hpp:1330-1332, Structure.hpp:143-145 -/
def wallSolarAbsorptionN (v : α) (u : Object α) : Object α :=
  { u with params := { u.params with bldg := { u.params.bldg with wallSolarAbsorption := Function.update u.params.bldg.wallSolarAbsorption 4 v } } }

/-- UserModel.hpp:1340-1342, Structure.hpp:143-145 -/
def wallSolarAbsorptionNE (v : α) (u : Object α) : Object α :=
  { u with params := { u.params with bldg := { u.params.bldg with wallSolarAbsorption := Function.update u.params.bldg.wallSolarAbsorption 3 v } } }

/-- UserModel.hpp:1350-1352, Structure.hpp:143-145 -/
def wallSolarAbsorptionNW (v : α) (u : Object α) : Object α :=
  { u with params := { u.params with bldg := { u.params.bldg with wallSolarAbsorption := Function.update u.params.bldg.wallSolarAbsorption 5 v } } }

/-- UserModel.hpp:1360-1362, Structure.hpp:143-145 -/
def wallSolarAbsorptionS (v : α) (u : Object α) : Object α :=
  { u with params := { u.params with bldg := { u.params.bldg with wallSolarAbsorption := Function.update u.params.bldg.wallSolarAbsorption 0 v } } }

/-- UserModel.hpp:1370-1372, Structure.hpp:143-145 -/
def wallSolarAbsorptionSE (v : α) (u : Object α) : Object α :=
  { u with params := { u.params with bldg := { u.params.bldg with wallSolarAbsorption := Function.update u.params.bldg.wallSolarAbsorption 1 v } } }

/-- UserModel.hpp:1380-1382, Structure.hpp:143-145 -/
def wallSolarAbsorptionSW (v : α) (u : Object α) : Object α :=
  { u with params := { u.params with bldg := { u.params.bldg with wallSolarAbsorption := Function.update u.params.bldg.wallSolarAbsorption 7 v } } }

/-- UserModel.hpp:1390-1392, Structure.hpp:143-145 -/
def wallSolarAbsorptionW (v : α) (u : Object α) : Object α :=
  { u with params := { u.params with bldg := { u.params.bldg with wallSolarAbsorption := Function.update u.params.bldg.wallSolarAbsorption 6 v } } }

/-- UserModel.hpp:1408-1410, Structure.hpp:126-128 -/
def wallThermalEmissivityE (v : α) (u : Object α) : Object α :=
  { u with params := { u.params with bldg := { u.params.bldg with wallThermalEmissivity := Function.update u.params.bldg.wallThermalEmissivity 2 v } } }

/-- UserModel.hpp:1418-1420, Structure.hpp:126-128 -/
def wallThermalEmissivityN (v : α) (u : Object α) : Object α :=
  { u with params := { u.params with bldg := { u.params.bldg with wallThermalEmissivity := Function.update u.params.bldg.wallThermalEmissivity 4 v } } }

/-- UserModel.hpp:1428-1430, Structure.hpp:126-128 -/
def wallThermalEmissivityNE (v : α) (u : Object α) : Object α :=
  { u with params := { u.params with bldg := { u.params.bldg with wallThermalEmissivity := Function.update u.params.bldg.wallThermalEmissivity 3 v } } }

/-- UserModel.hpp:1438-1440, Structure.hpp:126-128 -/
def wallThermalEmissivityNW (v : α) (u : Object α) : Object α :=
  { u with params := { u.params with bldg := { u.params.bldg with wallThermalEmissivity := Function.update u.params.bldg.wallThermalEmissivity 5 v } } }

/-- UserModel.hpp:1448-1450, Structure.hpp:126-128 -/
def wallThermalEmissivityS (v : α) (u : Object α) : Object α :=
  { u with params := { u.params with bldg := { u.params.bldg with wallThermalEmissivity := Function.update u.params.bldg.wallThermalEmissivity 0 v } } }

/-- UserModel.hpp:1458-1460, Structure.hpp:126-128 -/
def wallThermalEmissivitySE (v : α) (u : Object α) : Object α :=
  { u with params := { u.params with bldg := { u.params.bldg with wallThermalEmissivity := Function.update u.params.bldg.wallThermalEmissivity 1 v } } }

/-- UserModel.hpp:1468-1470, Structure.hpp:126-128 -/
def wallThermalEmissivitySW (v : α) (u : Object α) : Object α :=
  { u with params := { u.params with bldg := { u.params.bldg with wallThermalEmissivity := Function.update u.params.bldg.wallThermalEmissivity 7 v } } }

/-- UserModel.hpp:1478-1480, Structure.hpp:126-128 -/
def wallThermalEmissivityW (v : α) (u : Object α) : Object α :=
  { u with params := { u.params with bldg := { u.params.bldg with wallThermalEmissivity := Function.update u.params.bldg.wallThermalEmissivity 6 v } } }

/-- UserModel.hpp:1496-1498, Structure.hpp:93-95 -/
def wallUvalueE (v : α) (u : Object α) : Object α :=
  { u with params := { u.params with bldg := { u.params.bldg with wallUniform := Function.update u.params.bldg.wallUniform 2 v } } }

/-- UserModel.hpp:1506-1508, Structure.hpp:93-95 -/
def wallUvalueN (v : α) (u : Object α) : Object α :=
  { u with params := { u.params with bldg := { u.params.bldg with wallUniform := Function.update u.params.bldg.wallUniform 4 v } } }

/-- UserModel.hpp:1516-1518, Structure.hpp:93-95 -/
def wallUvalueNE (v : α) (u : Object α) : Object α :=
  { u with params := { u.params with bldg := { u.params.bldg with wallUniform := Function.update u.params.bldg.wallUniform 3 v } } }

/-- UserModel.hpp:1526-1528, Structure.hpp:93-95 -/
def wallUvalueNW (v : α) (u : Object α) : Object α :=
  { u with params := { u.params with bldg := { u.params.bldg with wallUniform := Function.update u.params.bldg.wallUniform 5 v } } }

/-- UserModel.hpp:1536-1538, Structure.hpp:93-95 -/
def wallUvalueS (v : α) (u : Object α) : Object α :=
  { u with params := { u.params with bldg := { u.params.bldg with wallUniform := Function.update u.params.bldg.wallUniform 0 v } } }

/-- UserModel.hpp:1546-1548, Structure.hpp:93-95 -/
def wallUvalueSE (v : α) (u : Object α) : Object α :=
  { u with params := { u.params with bldg := { u.params.bldg with wallUniform := Function.update u.params.bldg.wallUniform 1 v } } }

/-- UserModel.hpp:1556-1558, Structure.hpp:93-95 -/
def wallUvalueSW (v : α) (u : Object α) : Object α :=
  { u with params := { u.params with bldg := { u.params.bldg with wallUniform := Function.update u.params.bldg.wallUniform 7 v } } }

/-- UserModel.hpp:1566-1568, Structure.hpp:93-95 -/
def wallUvalueW (v : α) (u : Object α) : Object α :=
  { u with params := { u.params with bldg := { u.params.bldg with wallUniform := Function.update u.params.bldg.wallUniform 6 v } } }

/-- UserModel.hpp:1576-1578, Structure.hpp:305-307 -/
def win_F_W (v : α) (u : Object α) : Object α :=
  { u with params := setWin_F_W v u.params }

/-- UserModel.hpp:1586-1588, Structure.hpp:294-296 -/
def win_ff (v : α) (u : Object α) : Object α :=
  { u with params := setWin_ff v u.params }

/-- UserModel.hpp:1604-1606, Structure.hpp:77-79 -/
def windowAreaE (v : α) (u : Object α) : Object α :=
  { u with params := { u.params with bldg := { u.params.bldg with windowArea := Function.update u.params.bldg.windowArea 2 v } } }

/-- UserModel.hpp:1614-1616, Structure.hpp:77-79 -/
def windowAreaN (v : α) (u : Object α) : Object α :=
  { u with params := { u.params with bldg := { u.params.bldg with windowArea := Function.update u.params.bldg.windowArea 4 v } } }

/-- UserModel.hpp:1624-1626, Structure.hpp:77-79 -/
def windowAreaNE (v : α) (u : Object α) : Object α :=
  { u with params := { u.params with bldg := { u.params.bldg with windowArea := Function.update u.params.bldg.windowArea 3 v } } }

/-- UserModel.hpp:1634-1636, Structure.hpp:77-79 -/
def windowAreaNW (v : α) (u : Object α) : Object α :=
  { u with params := { u.params with bldg := { u.params.bldg with windowArea := Function.update u.params.bldg.windowArea 5 v } } }

/-- UserModel.hpp:1644-1646, Structure.hpp:77-79 -/
def windowAreaS (v : α) (u : Object α) : Object α :=
  { u with params := { u.params with bldg := { u.params.bldg with windowArea := Function.update u.params.bldg.windowArea 0 v } } }

/-- UserModel.hpp:1654-1656, Structure.hpp:77-79 -/
def windowAreaSE (v : α) (u : Object α) : Object α :=
  { u with params := { u.params with bldg := { u.params.bldg with windowArea := Function.update u.params.bldg.windowArea 1 v } } }

/-- UserModel.hpp:1664-1666, Structure.hpp:77-79 -/
def windowAreaSW (v : α) (u : Object α) : Object α :=
  { u with params := { u.params with bldg := { u.params.bldg with windowArea := Function.update u.params.bldg.windowArea 7 v } } }

/-- UserModel.hpp:1674-1676, Structure.hpp:77-79 -/
def windowAreaW (v : α) (u : Object α) : Object α :=
  { u with params := { u.params with bldg := { u.params.bldg with windowArea := Function.update u.params.bldg.windowArea 6 v } } }

/-- UserModel.hpp:1692-1694, Structure.hpp:191-193 -/
def windowSCFE (v : α) (u : Object α) : Object α :=
  { u with params := { u.params with bldg := { u.params.bldg with windowShadingCorrectionFactor := Function.update u.params.bldg.windowShadingCorrectionFactor 2 v } } }

/-- UserModel.hpp:1702-1704, Structure.hpp:191-193 -/
def windowSCFN (v : α) (u : Object α) : Object α :=
  { u with params := { u.params with bldg := { u.params.bldg with windowShadingCorrectionFactor := Function.update u.params.bldg.windowShadingCorrectionFactor 4 v } } }

/-- UserModel.hpp:1712-1714, Structure.hpp:191-193 -/
def windowSCFNE (v : α) (u : Object α) : Object α :=
  { u with params := { u.params with bldg := { u.params.bldg with windowShadingCorrectionFactor := Function.update u.params.bldg.windowShadingCorrectionFactor 3 v } } }

/-- UserModel.hpp:1722-1724, Structure.hpp:191-193 -/
def windowSCFNW (v : α) (u : Object α) : Object α :=
  { u with params := { u.params with bldg := { u.params.bldg with windowShadingCorrectionFactor := Function.update u.params.bldg.windowShadingCorrectionFactor 5 v } } }

/-- UserModel.hpp:1732-1734, Structure.hpp:191-193 -/
def windowSCFS (v : α) (u : Object α) : Object α :=
  { u with params := { u.params with bldg := { u.params.bldg with windowShadingCorrectionFactor := Function.update u.params.bldg.windowShadingCorrectionFactor 0 v } } }

/-- UserModel.hpp:1742-1744, Structure.hpp:191-193 -/
def windowSCFSE (v : α) (u : Object α) : Object α :=
  { u with params := { u.params with bldg := { u.params.bldg with windowShadingCorrectionFactor := Function.update u.params.bldg.windowShadingCorrectionFactor 1 v } } }

/-- UserModel.hpp:1752-1754, Structure.hpp:191-193 -/
def windowSCFSW (v : α) (u : Object α) : Object α :=
  { u with params := { u.params with bldg := { u.params.bldg with windowShadingCorrectionFactor := Function.update u.params.bldg.windowShadingCorrectionFactor 7 v } } }

/-- UserModel.hpp:1762-1764, Structure.hpp:191-193 -/
def windowSCFW (v : α) (u : Object α) : Object α :=
  { u with params := { u.params with bldg := { u.params.bldg with windowShadingCorrectionFactor := Function.update u.params.bldg.windowShadingCorrectionFactor 6 v } } }

/-- UserModel.hpp:1780-1782, Structure.hpp:160-162 -/
def windowSDFE (v : α) (u : Object α) : Object α :=
  { u with params := { u.params with bldg := { u.params.bldg with windowShadingDevice := Function.update u.params.bldg.windowShadingDevice 2 v } } }

/-- UserModel.hpp:1790-1792, Structure.hpp:160-162 -/
def windowSDFN (v : α) (u : Object α) : Object α :=
  { u with params := { u.params with bldg := { u.params.bldg with windowShadingDevice := Function.update u.params.bldg.windowShadingDevice 4 v } } }

/-- UserModel.hpp:1800-1802, Structure.hpp:160-162 -/
def windowSDFNE (v : α) (u : Object α) : Object α :=
  { u with params := { u.params with bldg := { u.params.bldg with windowShadingDevice := Function.update u.params.bldg.windowShadingDevice 3 v } } }

/-- UserModel.hpp:1810-1812, Structure.hpp:160-162 -/
def windowSDFNW (v : α) (u : Object α) : Object α :=
  { u with params := { u.params with bldg := { u.params.bldg with windowShadingDevice := Function.update u.params.bldg.windowShadingDevice 5 v } } }

/-- UserModel.hpp:1820-1822, Structure.hpp:160-162 -/
def windowSDFS (v : α) (u : Object α) : Object α :=
  { u with params := { u.params with bldg := { u.params.bldg with windowShadingDevice := Function.update u.params.bldg.windowShadingDevice 0 v } } }

/-- UserModel.hpp:1830-1832, Structure.hpp:160-162 -/
def windowSDFSE (v : α) (u : Object α) : Object α :=
  { u with params := { u.params with bldg := { u.params.bldg with windowShadingDevice := Function.update u.params.bldg.windowShadingDevice 1 v } } }

/-- UserModel.hpp:1840-1842, Structure.hpp:160-162 -/
def windowSDFSW (v : α) (u : Object α) : Object α :=
  { u with params := { u.params with bldg := { u.params.bldg with windowShadingDevice := Function.update u.params.bldg.windowShadingDevice 7 v } } }

/-- UserModel.hpp:1850-1852, Structure.hpp:160-162 -/
def windowSDFW (v : α) (u : Object α) : Object α :=
  { u with params := { u.params with bldg := { u.params.bldg with windowShadingDevice := Function.update u.params.bldg.windowShadingDevice 6 v } } }

/-- UserModel.hpp:1868-1870, Structure.hpp:176-178 -/
def windowSHGCE (v : α) (u : Object α) : Object α :=
  { u with params := { u.params with bldg := { u.params.bldg with windowNormalIncidenceSolarEnergyTransmittance := Function.update u.params.bldg.windowNormalIncidenceSolarEnergyTransmittance 2 v } } }

/-- UserModel.hpp:1878-1880, Structure.hpp:176-178 -/
def windowSHGCN (v : α) (u : Object α) : Object α :=
  { u with params := { u.params with bldg := { u.params.bldg with windowNormalIncidenceSolarEnergyTransmittance := Function.update u.params.bldg.windowNormalIncidenceSolarEnergyTransmittance 4 v } } }

/-- UserModel.hpp:1888-1890, Structure.hpp:176-178 -/
def windowSHGCNE (v : α) (u : Object α) : Object α :=
  { u with params := { u.params with bldg := { u.params.bldg with windowNormalIncidenceSolarEnergyTransmittance := Function.update u.params.bldg.windowNormalIncidenceSolarEnergyTransmittance 3 v } } }

/-- UserModel.hpp:1898-1900, Structure.hpp:176-178 -/
def windowSHGCNW (v : α) (u : Object α) : Object α :=
  { u with params := { u.params with bldg := { u.params.bldg with windowNormalIncidenceSolarEnergyTransmittance := Function.update u.params.bldg.windowNormalIncidenceSolarEnergyTransmittance 5 v } } }

/-- UserModel.hpp:1908-1910, Structure.hpp:176-178 -/
def windowSHGCS (v : α) (u : Object α) : Object α :=
  { u with params := { u.params with bldg := { u.params.bldg with windowNormalIncidenceSolarEnergyTransmittance := Function.update u.params.bldg.windowNormalIncidenceSolarEnergyTransmittance 0 v } } }

/-- UserModel.hpp:1918-1920, Structure.hpp:176-178 -/
def windowSHGCSE (v : α) (u : Object α) : Object α :=
  { u with params := { u.params with bldg := { u.params.bldg with windowNormalIncidenceSolarEnergyTransmittance := Function.update u.params.bldg.windowNormalIncidenceSolarEnergyTransmittance 1 v } } }

/-- UserModel.hpp:1928-1930, Structure.hpp:176-178 -/
def windowSHGCSW (v : α) (u : Object α) : Object α :=
  { u with params := { u.params with bldg := { u.params.bldg with windowNormalIncidenceSolarEnergyTransmittance := Function.update u.params.bldg.windowNormalIncidenceSolarEnergyTransmittance 7 v } } }

/-- UserModel.hpp:1938-1940, Structure.hpp:176-178 -/
def windowSHGCW (v : α) (u : Object α) : Object α :=
  { u with params := { u.params with bldg := { u.params.bldg with windowNormalIncidenceSolarEnergyTransmittance := Function.update u.params.bldg.windowNormalIncidenceSolarEnergyTransmittance 6 v } } }

/-- UserModel.hpp:1956-1958, Structure.hpp:109-111 -/
def windowUvalueE (v : α) (u : Object α) : Object α :=
  { u with params := { u.params with bldg := { u.params.bldg with windowUniform := Function.update u.params.bldg.windowUniform 2 v } } }

/-- UserModel.hpp:1966-1968, Structure.hpp:109-111 -/
def windowUvalueN (v : α) (u : Object α) : Object α :=
  { u with params := { u.params with bldg := { u.params.bldg with windowUniform := Function.update u.params.bldg.windowUniform 4 v } } }

/-- UserModel.hpp:1976-1978, Structure.hpp:109-111 -/
def windowUvalueNE (v : α) (u : Object α) : Object α :=
  { u with params := { u.params with bldg := { u.params.bldg with windowUniform := Function.update u.params.bldg.windowUniform 3 v } } }

/-- UserModel.hpp:1986-1988, Structure.hpp:109-111 -/
def windowUvalueNW (v : α) (u : Object α) : Object α :=
  { u with params := { u.params with bldg := { u.params.bldg with windowUniform := Function.update u.params.bldg.windowUniform 5 v } } }

/-- UserModel.hpp:1996-1998, Structure.hpp:109-111 -/
def windowUvalueS (v : α) (u : Object α) : Object α :=
  { u with params := { u.params with bldg := { u.params.bldg with windowUniform := Function.update u.params.bldg.windowUniform 0 v } } }

/-- UserModel.hpp:2006-2008, Structure.hpp:109-111 -/
def windowUvalueSE (v : α) (u : Object α) : Object α :=
  { u with params := { u.params with bldg := { u.params.bldg with windowUniform := Function.update u.params.bldg.windowUniform 1 v } } }

/-- UserModel.hpp:2016-2018, Structure.hpp:109-111 -/
def windowUvalueSW (v : α) (u : Object α) : Object α :=
  { u with params := { u.params with bldg := { u.params.bldg with windowUniform := Function.update u.params.bldg.windowUniform 7 v } } }

/-- UserModel.hpp:2026-2028, Structure.hpp:109-111 -/
def windowUvalueW (v : α) (u : Object α) : Object α :=
  { u with params := { u.params with bldg := { u.params.bldg with windowUniform := Function.update u.params.bldg.windowUniform 6 v } } }

/-- UserModel.hpp:2036-2038, Ventilation.hpp:246-248 -/
def dCp (v : α) (u : Object α) : Object α :=
  { u with params := setDCp v u.params }

/-- UserModel.hpp:2046-2048, Ventilation.hpp:72-74 -/
def exhaustAirRecirclation (v : α) (u : Object α) : Object α :=
  { u with params := setExhaustAirRecirclation v u.params }

/-- UserModel.hpp:2056-2058, Ventilation.hpp:107-109 -/
def fanFlowControlFactor (v : α) (u : Object α) : Object α :=
  { u with params := setFanFlowControlFactor v u.params }

/-- UserModel.hpp:2066-2068, Ventilation.hpp:39-41 -/
def freshAirFlowRate (v : α) (u : Object α) : Object α :=
  { u with params := setFreshAirFlowRate v u.params }

/-- UserModel.hpp:2076-2078, Ventilation.hpp:268-270 -/
def H_ve (v : α) (u : Object α) : Object α :=
  { u with params := setH_ve v u.params }

/-- UserModel.hpp:2086-2088, Ventilation.hpp:61-63 -/
def heatRecovery (v : α) (u : Object α) : Object α :=
  { u with params := setHeatRecovery v u.params }

/-- UserModel.hpp:2096-2098, Ventilation.hpp:140-142 -/
def hzone (v : α) (u : Object α) : Object α :=
  { u with params := setHzone v u.params }

/-- UserModel.hpp:2106-2108, Ventilation.hpp:280-282 -/
def infiltrationRateUnoccupied (v : α) (u : Object α) : Object α :=
  { u with extra := { u.extra with infiltrationRateUnoccupied := v } }

/-- UserModel.hpp:2116-2118, Ventilation.hpp:129-131 -/
def n50 (v : α) (u : Object α) : Object α :=
  { u with params := setN50 v u.params }

/-- UserModel.hpp:2126-2128, Ventilation.hpp:162-164 -/
def p_exp (v : α) (u : Object α) : Object α :=
  { u with params := setP_exp v u.params }

/-- UserModel.hpp:2136-2138, Ventilation.hpp:95-97 -/
def specificFanPower (v : α) (u : Object α) : Object α :=
  { u with params := setSpecificFanPower v u.params }

/-- UserModel.hpp:2146-2148, Ventilation.hpp:204-206 -/
def stack_coeff (v : α) (u : Object α) : Object α :=
  { u with params := setStack_coeff v u.params }

/-- UserModel.hpp:2156-2158, Ventilation.hpp:190-192 -/
def stack_exp (v : α) (u : Object α) : Object α :=
  { u with params := setStack_exp v u.params }

/-- UserModel.hpp:2166-2168, Ventilation.hpp:50-52 -/
def supplyExhaustRate (v : α) (u : Object α) : Object α :=
  { u with params := setSupplyExhaustRate v u.params }

/-- UserModel.hpp:2176-2178, Ventilation.hpp:257-259 -/
def vent_rate_flag (v : Int) (u : Object α) : Object α :=
  { u with params := setVent_rate_flag v u.params }

/-- UserModel.hpp:2186-2188, Ventilation.hpp:291-293 -/
def ventilationExhaustRateUnoccupied (v : α) (u : Object α) : Object α :=
  { u with extra := { u.extra with ventilationExhaustRateUnoccupied := v } }

/-- UserModel.hpp:2196-2198, Ventilation.hpp:302-304 -/
def ventilationIntakeRateUnoccupied (v : α) (u : Object α) : Object α :=
  { u with extra := { u.extra with ventilationIntakeRateUnoccupied := v } }

/-- UserModel.hpp:2224-2226, Ventilation.hpp:118-120 -/
def ventPreheatDegC (v : α) (u : Object α) : Object α :=
  { u with params := setVentPreheatDegC v u.params }

/-- UserModel.hpp:2234-2236, Ventilation.hpp:232-234 -/
def wind_coeff (v : α) (u : Object α) : Object α :=
  { u with params := setWind_coeff v u.params }

/-- UserModel.hpp:2244-2246, Ventilation.hpp:218-220 -/
def wind_exp (v : α) (u : Object α) : Object α :=
  { u with params := setWind_exp v u.params }

/-- UserModel.hpp:2254-2256, Ventilation.hpp:176-178 -/
def zone_frac (v : α) (u : Object α) : Object α :=
  { u with params := setZone_frac v u.params }

/-- UserModel.hpp:137-139 -/
def weatherFilePath (v : Str) (u : Object α) : Object α :=
  { u with params := { u.params with weatherFilePath := v } }

end Set

/-- pairs of getter and setter: Building -/
inductive BuildingAccessor where
  | constantIlluminationControl | elecPowerAppliancesOccupied | elecPowerAppliancesUnoccupied | externalEquipment
  | gasPowerAppliancesOccupied | gasPowerAppliancesUnoccupied | lightingOccupancySensorSystem
  deriving DecidableEq

/-- pairs of getter and setter: Cooling -/
inductive CoolingAccessor where
  | coolingOccupiedSetpoint | coolingPumpControl | coolingSystemCOP | coolingSystemIPLVToCOPRatio
  | coolingUnoccupiedSetpoint | DC_YesNo | dT_supp_cl | E_pumps_cl | eta_DC_COP_abs | eta_DC_COP | eta_DC_frac_abs
  | eta_DC_network | forcedAirCooling | frac_DC_free | hvacCoolingLossFactor | T_cl_ctrl_flag
  deriving DecidableEq

/-- pairs of getter and setter: Heating -/
inductive HeatingAccessor where
  | a_H0 | DH_YesNo | dhw_tset | dhw_tsupply | dhwDemand | dhwDistributionEfficiency | dhwEfficiency | dT_supp_ht
  | E_pumps_ht | eta_DH_network | eta_DH_sys | forcedAirHeating | frac_DH_free | heatingOccupiedSetpoint
  | heatingPumpControl | heatingSystemEfficiency | heatingUnoccupiedSetpoint | hvacHeatingLossFactor | hvacWasteFactor
  | T_ht_ctrl_flag | tau_H0
  deriving DecidableEq

/-- pairs of getter and setter: Lighting -/
inductive LightingAccessor where
  | automaticAd | automaticLux | daylightSensorSystem | elecInternalGains | exteriorLightingPower
  | lightingPowerIntensityOccupied | lightingPowerIntensityUnoccupied | manualSwitchAd | manualSwitchLux | n_day_end
  | n_day_start | n_weeks | naturallyLightedArea | permLightPowerDensity | presenceAutoAd | presenceAutoLux
  | presenceSensorAd | presenceSensorLux
  deriving DecidableEq

/-- pairs of getter and setter: PhysicalQuantities -/
inductive PhysicalAccessor where
  | rhoCpAir | rhoCpWater
  deriving DecidableEq

/-- pairs of getter and setter: Population -/
inductive PopulationAccessor where
  | buildingOccupancyFrom | buildingOccupancyTo | equivFullLoadOccupancyFrom | equivFullLoadOccupancyTo
  | heatGainPerPerson | peopleDensityOccupied | peopleDensityUnoccupied
  deriving DecidableEq

/-- pairs of getter and setter: SimulationSettings -/
inductive SettingsAccessor where
  | hci | hri | phiIntFractionToAirNode | phiSolFractionToAirNode
  deriving DecidableEq

/-- pairs of getter and setter: Ventilation -/
inductive VentilationAccessor where
  | dCp | exhaustAirRecirclation | fanFlowControlFactor | freshAirFlowRate | H_ve | heatRecovery | hzone | n50 | p_exp
  | specificFanPower | stack_coeff | stack_exp | supplyExhaustRate | vent_rate_flag | ventPreheatDegC | wind_coeff
  | wind_exp | zone_frac
  deriving DecidableEq

/-- pairs of getter and setter: Structure (single values) -/
inductive StructureAccessor where
  | buildingAirLeakage | buildingHeight | exteriorHeatCapacity | floorArea | interiorHeatCapacity
  | irradianceForMaxShadingUse | R_sc_ext | R_se | shadingFactorAtMaxUse | totalAreaPerFloorArea | win_F_W | win_ff
  deriving DecidableEq

/-- pairs of getter and setter: members no simulation reads -/
inductive FixedAccessor where
  | electricAppliancePowerFixedOccupied | electricAppliancePowerFixedUnoccupied | gasAppliancePowerFixedOccupied
  | gasAppliancePowerFixedUnoccupied | lightingPowerFixedOccupied | lightingPowerFixedUnoccupied | scheduleFilePath
  | infiltrationRateUnoccupied | ventilationExhaustRateUnoccupied | ventilationIntakeRateUnoccupied
  deriving DecidableEq

/-- the nine vectors of Structure -/
inductive NineVector where
  | wallArea | wallU | wallThermalEmissivity | wallSolarAbsorption | windowArea | windowU | windowSHGC | windowSCF
  | windowSDF
  deriving DecidableEq

/-- The pairs of a getter and a setter of UserModel.hpp, by the name of the getter.  The pairs named after an orientation (`wallAreaN`,
`windowSHGCSE`, ...; `roof...` and `skylight...` for the ninth entry) are listed by vector and orientation. -/
inductive Accessor where
  | building (n : BuildingAccessor)
  | cooling (n : CoolingAccessor)
  | heating (n : HeatingAccessor)
  | lights (n : LightingAccessor)
  | phys (n : PhysicalAccessor)
  | pop (n : PopulationAccessor)
  | simSettings (n : SettingsAccessor)
  | ventilation (n : VentilationAccessor)
  | bldg (n : StructureAccessor)
  | extra (n : FixedAccessor)
  | facade (v : NineVector) (f : Facade)
  | terrainClass
  | weatherFilePath
  deriving DecidableEq

/-- what a getter returns -/
inductive Reading (α : Type) where
  | num (v : α)
  | flag (v : Bool)
  | text (v : Str)

namespace Accessor

/-- the type of the argument of the setter -/
def Arg (α : Type) : Accessor → Type
  | .cooling .forcedAirCooling => Bool
  | .heating .forcedAirHeating => Bool
  | .ventilation .vent_rate_flag => Int
  | .extra .scheduleFilePath => Str
  | .weatherFilePath => Str
  | _ => α

/-- the getter of a pair -/
def get : Accessor → Object α → Reading α
  | .building .constantIlluminationControl, u => .num (Get.constantIlluminationControl u)
  | .building .elecPowerAppliancesOccupied, u => .num (Get.elecPowerAppliancesOccupied u)
  | .building .elecPowerAppliancesUnoccupied, u => .num (Get.elecPowerAppliancesUnoccupied u)
  | .building .externalEquipment, u => .num (Get.externalEquipment u)
  | .building .gasPowerAppliancesOccupied, u => .num (Get.gasPowerAppliancesOccupied u)
  | .building .gasPowerAppliancesUnoccupied, u => .num (Get.gasPowerAppliancesUnoccupied u)
  | .building .lightingOccupancySensorSystem, u => .num (Get.lightingOccupancySensorSystem u)
  | .cooling .coolingOccupiedSetpoint, u => .num (Get.coolingOccupiedSetpoint u)
  | .cooling .coolingPumpControl, u => .num (Get.coolingPumpControl u)
  | .cooling .coolingSystemCOP, u => .num (Get.coolingSystemCOP u)
  | .cooling .coolingSystemIPLVToCOPRatio, u => .num (Get.coolingSystemIPLVToCOPRatio u)
  | .cooling .coolingUnoccupiedSetpoint, u => .num (Get.coolingUnoccupiedSetpoint u)
  | .cooling .DC_YesNo, u => .num (Get.DC_YesNo u)
  | .cooling .dT_supp_cl, u => .num (Get.dT_supp_cl u)
  | .cooling .E_pumps_cl, u => .num (Get.E_pumps_cl u)
  | .cooling .eta_DC_COP_abs, u => .num (Get.eta_DC_COP_abs u)
  | .cooling .eta_DC_COP, u => .num (Get.eta_DC_COP u)
  | .cooling .eta_DC_frac_abs, u => .num (Get.eta_DC_frac_abs u)
  | .cooling .eta_DC_network, u => .num (Get.eta_DC_network u)
  | .cooling .forcedAirCooling, u => .flag (Get.forcedAirCooling u)
  | .cooling .frac_DC_free, u => .num (Get.frac_DC_free u)
  | .cooling .hvacCoolingLossFactor, u => .num (Get.hvacCoolingLossFactor u)
  | .cooling .T_cl_ctrl_flag, u => .num (Get.T_cl_ctrl_flag u)
  | .heating .a_H0, u => .num (Get.a_H0 u)
  | .heating .DH_YesNo, u => .num (Get.DH_YesNo u)
  | .heating .dhw_tset, u => .num (Get.dhw_tset u)
  | .heating .dhw_tsupply, u => .num (Get.dhw_tsupply u)
  | .heating .dhwDemand, u => .num (Get.dhwDemand u)
  | .heating .dhwDistributionEfficiency, u => .num (Get.dhwDistributionEfficiency u)
  | .heating .dhwEfficiency, u => .num (Get.dhwEfficiency u)
  | .heating .dT_supp_ht, u => .num (Get.dT_supp_ht u)
  | .heating .E_pumps_ht, u => .num (Get.E_pumps_ht u)
  | .heating .eta_DH_network, u => .num (Get.eta_DH_network u)
  | .heating .eta_DH_sys, u => .num (Get.eta_DH_sys u)
  | .heating .forcedAirHeating, u => .flag (Get.forcedAirHeating u)
  | .heating .frac_DH_free, u => .num (Get.frac_DH_free u)
  | .heating .heatingOccupiedSetpoint, u => .num (Get.heatingOccupiedSetpoint u)
  | .heating .heatingPumpControl, u => .num (Get.heatingPumpControl u)
  | .heating .heatingSystemEfficiency, u => .num (Get.heatingSystemEfficiency u)
  | .heating .heatingUnoccupiedSetpoint, u => .num (Get.heatingUnoccupiedSetpoint u)
  | .heating .hvacHeatingLossFactor, u => .num (Get.hvacHeatingLossFactor u)
  | .heating .hvacWasteFactor, u => .num (Get.hvacWasteFactor u)
  | .heating .T_ht_ctrl_flag, u => .num (Get.T_ht_ctrl_flag u)
  | .heating .tau_H0, u => .num (Get.tau_H0 u)
  | .lights .automaticAd, u => .num (Get.automaticAd u)
  | .lights .automaticLux, u => .num (Get.automaticLux u)
  | .lights .daylightSensorSystem, u => .num (Get.daylightSensorSystem u)
  | .lights .elecInternalGains, u => .num (Get.elecInternalGains u)
  | .lights .exteriorLightingPower, u => .num (Get.exteriorLightingPower u)
  | .lights .lightingPowerIntensityOccupied, u => .num (Get.lightingPowerIntensityOccupied u)
  | .lights .lightingPowerIntensityUnoccupied, u => .num (Get.lightingPowerIntensityUnoccupied u)
  | .lights .manualSwitchAd, u => .num (Get.manualSwitchAd u)
  | .lights .manualSwitchLux, u => .num (Get.manualSwitchLux u)
  | .lights .n_day_end, u => .num (Get.n_day_end u)
  | .lights .n_day_start, u => .num (Get.n_day_start u)
  | .lights .n_weeks, u => .num (Get.n_weeks u)
  | .lights .naturallyLightedArea, u => .num (Get.naturallyLightedArea u)
  | .lights .permLightPowerDensity, u => .num (Get.permLightPowerDensity u)
  | .lights .presenceAutoAd, u => .num (Get.presenceAutoAd u)
  | .lights .presenceAutoLux, u => .num (Get.presenceAutoLux u)
  | .lights .presenceSensorAd, u => .num (Get.presenceSensorAd u)
  | .lights .presenceSensorLux, u => .num (Get.presenceSensorLux u)
  | .phys .rhoCpAir, u => .num (Get.rhoCpAir u)
  | .phys .rhoCpWater, u => .num (Get.rhoCpWater u)
  | .pop .buildingOccupancyFrom, u => .num (Get.buildingOccupancyFrom u)
  | .pop .buildingOccupancyTo, u => .num (Get.buildingOccupancyTo u)
  | .pop .equivFullLoadOccupancyFrom, u => .num (Get.equivFullLoadOccupancyFrom u)
  | .pop .equivFullLoadOccupancyTo, u => .num (Get.equivFullLoadOccupancyTo u)
  | .pop .heatGainPerPerson, u => .num (Get.heatGainPerPerson u)
  | .pop .peopleDensityOccupied, u => .num (Get.peopleDensityOccupied u)
  | .pop .peopleDensityUnoccupied, u => .num (Get.peopleDensityUnoccupied u)
  | .simSettings .hci, u => .num (Get.hci u)
  | .simSettings .hri, u => .num (Get.hri u)
  | .simSettings .phiIntFractionToAirNode, u => .num (Get.phiIntFractionToAirNode u)
  | .simSettings .phiSolFractionToAirNode, u => .num (Get.phiSolFractionToAirNode u)
  | .ventilation .dCp, u => .num (Get.dCp u)
  | .ventilation .exhaustAirRecirclation, u => .num (Get.exhaustAirRecirclation u)
  | .ventilation .fanFlowControlFactor, u => .num (Get.fanFlowControlFactor u)
  | .ventilation .freshAirFlowRate, u => .num (Get.freshAirFlowRate u)
  | .ventilation .H_ve, u => .num (Get.H_ve u)
  | .ventilation .heatRecovery, u => .num (Get.heatRecovery u)
  | .ventilation .hzone, u => .num (Get.hzone u)
  | .ventilation .n50, u => .num (Get.n50 u)
  | .ventilation .p_exp, u => .num (Get.p_exp u)
  | .ventilation .specificFanPower, u => .num (Get.specificFanPower u)
  | .ventilation .stack_coeff, u => .num (Get.stack_coeff u)
  | .ventilation .stack_exp, u => .num (Get.stack_exp u)
  | .ventilation .supplyExhaustRate, u => .num (Get.supplyExhaustRate u)
  | .ventilation .vent_rate_flag, u => .num (Get.vent_rate_flag u)
  | .ventilation .ventPreheatDegC, u => .num (Get.ventPreheatDegC u)
  | .ventilation .wind_coeff, u => .num (Get.wind_coeff u)
  | .ventilation .wind_exp, u => .num (Get.wind_exp u)
  | .ventilation .zone_frac, u => .num (Get.zone_frac u)
  | .bldg .buildingAirLeakage, u => .num (Get.buildingAirLeakage u)
  | .bldg .buildingHeight, u => .num (Get.buildingHeight u)
  | .bldg .exteriorHeatCapacity, u => .num (Get.exteriorHeatCapacity u)
  | .bldg .floorArea, u => .num (Get.floorArea u)
  | .bldg .interiorHeatCapacity, u => .num (Get.interiorHeatCapacity u)
  | .bldg .irradianceForMaxShadingUse, u => .num (Get.irradianceForMaxShadingUse u)
  | .bldg .R_sc_ext, u => .num (Get.R_sc_ext u)
  | .bldg .R_se, u => .num (Get.R_se u)
  | .bldg .shadingFactorAtMaxUse, u => .num (Get.shadingFactorAtMaxUse u)
  | .bldg .totalAreaPerFloorArea, u => .num (Get.totalAreaPerFloorArea u)
  | .bldg .win_F_W, u => .num (Get.win_F_W u)
  | .bldg .win_ff, u => .num (Get.win_ff u)
  | .extra .electricAppliancePowerFixedOccupied, u => .num (Get.electricAppliancePowerFixedOccupied u)
  | .extra .electricAppliancePowerFixedUnoccupied, u => .num (Get.electricAppliancePowerFixedUnoccupied u)
  | .extra .gasAppliancePowerFixedOccupied, u => .num (Get.gasAppliancePowerFixedOccupied u)
  | .extra .gasAppliancePowerFixedUnoccupied, u => .num (Get.gasAppliancePowerFixedUnoccupied u)
  | .extra .lightingPowerFixedOccupied, u => .num (Get.lightingPowerFixedOccupied u)
  | .extra .lightingPowerFixedUnoccupied, u => .num (Get.lightingPowerFixedUnoccupied u)
  | .extra .scheduleFilePath, u => .text (Get.scheduleFilePath u)
  | .extra .infiltrationRateUnoccupied, u => .num (Get.infiltrationRateUnoccupied u)
  | .extra .ventilationExhaustRateUnoccupied, u => .num (Get.ventilationExhaustRateUnoccupied u)
  | .extra .ventilationIntakeRateUnoccupied, u => .num (Get.ventilationIntakeRateUnoccupied u)
  | .facade .wallArea .S, u => .num (Get.wallAreaS u)
  | .facade .wallArea .SE, u => .num (Get.wallAreaSE u)
  | .facade .wallArea .E, u => .num (Get.wallAreaE u)
  | .facade .wallArea .NE, u => .num (Get.wallAreaNE u)
  | .facade .wallArea .N, u => .num (Get.wallAreaN u)
  | .facade .wallArea .NW, u => .num (Get.wallAreaNW u)
  | .facade .wallArea .W, u => .num (Get.wallAreaW u)
  | .facade .wallArea .SW, u => .num (Get.wallAreaSW u)
  | .facade .wallArea .roof, u => .num (Get.roofArea u)
  | .facade .wallU .S, u => .num (Get.wallUvalueS u)
  | .facade .wallU .SE, u => .num (Get.wallUvalueSE u)
  | .facade .wallU .E, u => .num (Get.wallUvalueE u)
  | .facade .wallU .NE, u => .num (Get.wallUvalueNE u)
  | .facade .wallU .N, u => .num (Get.wallUvalueN u)
  | .facade .wallU .NW, u => .num (Get.wallUvalueNW u)
  | .facade .wallU .W, u => .num (Get.wallUvalueW u)
  | .facade .wallU .SW, u => .num (Get.wallUvalueSW u)
  | .facade .wallU .roof, u => .num (Get.roofUValue u)
  | .facade .wallThermalEmissivity .S, u => .num (Get.wallThermalEmissivityS u)
  | .facade .wallThermalEmissivity .SE, u => .num (Get.wallThermalEmissivitySE u)
  | .facade .wallThermalEmissivity .E, u => .num (Get.wallThermalEmissivityE u)
  | .facade .wallThermalEmissivity .NE, u => .num (Get.wallThermalEmissivityNE u)
  | .facade .wallThermalEmissivity .N, u => .num (Get.wallThermalEmissivityN u)
  | .facade .wallThermalEmissivity .NW, u => .num (Get.wallThermalEmissivityNW u)
  | .facade .wallThermalEmissivity .W, u => .num (Get.wallThermalEmissivityW u)
  | .facade .wallThermalEmissivity .SW, u => .num (Get.wallThermalEmissivitySW u)
  | .facade .wallThermalEmissivity .roof, u => .num (Get.roofThermalEmissivity u)
  | .facade .wallSolarAbsorption .S, u => .num (Get.wallSolarAbsorptionS u)
  | .facade .wallSolarAbsorption .SE, u => .num (Get.wallSolarAbsorptionSE u)
  | .facade .wallSolarAbsorption .E, u => .num (Get.wallSolarAbsorptionE u)
  | .facade .wallSolarAbsorption .NE, u => .num (Get.wallSolarAbsorptionNE u)
  | .facade .wallSolarAbsorption .N, u => .num (Get.wallSolarAbsorptionN u)
  | .facade .wallSolarAbsorption .NW, u => .num (Get.wallSolarAbsorptionNW u)
  | .facade .wallSolarAbsorption .W, u => .num (Get.wallSolarAbsorptionW u)
  | .facade .wallSolarAbsorption .SW, u => .num (Get.wallSolarAbsorptionSW u)
  | .facade .wallSolarAbsorption .roof, u => .num (Get.roofSolarAbsorption u)
  | .facade .windowArea .S, u => .num (Get.windowAreaS u)
  | .facade .windowArea .SE, u => .num (Get.windowAreaSE u)
  | .facade .windowArea .E, u => .num (Get.windowAreaE u)
  | .facade .windowArea .NE, u => .num (Get.windowAreaNE u)
  | .facade .windowArea .N, u => .num (Get.windowAreaN u)
  | .facade .windowArea .NW, u => .num (Get.windowAreaNW u)
  | .facade .windowArea .W, u => .num (Get.windowAreaW u)
  | .facade .windowArea .SW, u => .num (Get.windowAreaSW u)
  | .facade .windowArea .roof, u => .num (Get.skylightArea u)
  | .facade .windowU .S, u => .num (Get.windowUvalueS u)
  | .facade .windowU .SE, u => .num (Get.windowUvalueSE u)
  | .facade .windowU .E, u => .num (Get.windowUvalueE u)
  | .facade .windowU .NE, u => .num (Get.windowUvalueNE u)
  | .facade .windowU .N, u => .num (Get.windowUvalueN u)
  | .facade .windowU .NW, u => .num (Get.windowUvalueNW u)
  | .facade .windowU .W, u => .num (Get.windowUvalueW u)
  | .facade .windowU .SW, u => .num (Get.windowUvalueSW u)
  | .facade .windowU .roof, u => .num (Get.skylightUvalue u)
  | .facade .windowSHGC .S, u => .num (Get.windowSHGCS u)
  | .facade .windowSHGC .SE, u => .num (Get.windowSHGCSE u)
  | .facade .windowSHGC .E, u => .num (Get.windowSHGCE u)
  | .facade .windowSHGC .NE, u => .num (Get.windowSHGCNE u)
  | .facade .windowSHGC .N, u => .num (Get.windowSHGCN u)
  | .facade .windowSHGC .NW, u => .num (Get.windowSHGCNW u)
  | .facade .windowSHGC .W, u => .num (Get.windowSHGCW u)
  | .facade .windowSHGC .SW, u => .num (Get.windowSHGCSW u)
  | .facade .windowSHGC .roof, u => .num (Get.skylightSHGC u)
  | .facade .windowSCF .S, u => .num (Get.windowSCFS u)
  | .facade .windowSCF .SE, u => .num (Get.windowSCFSE u)
  | .facade .windowSCF .E, u => .num (Get.windowSCFE u)
  | .facade .windowSCF .NE, u => .num (Get.windowSCFNE u)
  | .facade .windowSCF .N, u => .num (Get.windowSCFN u)
  | .facade .windowSCF .NW, u => .num (Get.windowSCFNW u)
  | .facade .windowSCF .W, u => .num (Get.windowSCFW u)
  | .facade .windowSCF .SW, u => .num (Get.windowSCFSW u)
  | .facade .windowSCF .roof, u => .num (Get.skylightSCF u)
  | .facade .windowSDF .S, u => .num (Get.windowSDFS u)
  | .facade .windowSDF .SE, u => .num (Get.windowSDFSE u)
  | .facade .windowSDF .E, u => .num (Get.windowSDFE u)
  | .facade .windowSDF .NE, u => .num (Get.windowSDFNE u)
  | .facade .windowSDF .N, u => .num (Get.windowSDFN u)
  | .facade .windowSDF .NW, u => .num (Get.windowSDFNW u)
  | .facade .windowSDF .W, u => .num (Get.windowSDFW u)
  | .facade .windowSDF .SW, u => .num (Get.windowSDFSW u)
  | .facade .windowSDF .roof, u => .num (Get.skylightSDF u)
  | .terrainClass, u => .num (Get.terrainClass u)
  | .weatherFilePath, u => .text (Get.weatherFilePath u)

/-- the setter of a pair -/
def set : (a : Accessor) → a.Arg α → Object α → Object α
  | .building .constantIlluminationControl, v, u => Set.constantIlluminationControl v u
  | .building .elecPowerAppliancesOccupied, v, u => Set.elecPowerAppliancesOccupied v u
  | .building .elecPowerAppliancesUnoccupied, v, u => Set.elecPowerAppliancesUnoccupied v u
  | .building .externalEquipment, v, u => Set.externalEquipment v u
  | .building .gasPowerAppliancesOccupied, v, u => Set.gasPowerAppliancesOccupied v u
  | .building .gasPowerAppliancesUnoccupied, v, u => Set.gasPowerAppliancesUnoccupied v u
  | .building .lightingOccupancySensorSystem, v, u => Set.lightingOccupancySensorSystem v u
  | .cooling .coolingOccupiedSetpoint, v, u => Set.coolingOccupiedSetpoint v u
  | .cooling .coolingPumpControl, v, u => Set.coolingPumpControl v u
  | .cooling .coolingSystemCOP, v, u => Set.coolingSystemCOP v u
  | .cooling .coolingSystemIPLVToCOPRatio, v, u => Set.coolingSystemIPLVToCOPRatio v u
  | .cooling .coolingUnoccupiedSetpoint, v, u => Set.coolingUnoccupiedSetpoint v u
  | .cooling .DC_YesNo, v, u => Set.DC_YesNo v u
  | .cooling .dT_supp_cl, v, u => Set.dT_supp_cl v u
  | .cooling .E_pumps_cl, v, u => Set.E_pumps_cl v u
  | .cooling .eta_DC_COP_abs, v, u => Set.eta_DC_COP_abs v u
  | .cooling .eta_DC_COP, v, u => Set.eta_DC_COP v u
  | .cooling .eta_DC_frac_abs, v, u => Set.eta_DC_frac_abs v u
  | .cooling .eta_DC_network, v, u => Set.eta_DC_network v u
  | .cooling .forcedAirCooling, v, u => Set.forcedAirCooling v u
  | .cooling .frac_DC_free, v, u => Set.frac_DC_free v u
  | .cooling .hvacCoolingLossFactor, v, u => Set.hvacCoolingLossFactor v u
  | .cooling .T_cl_ctrl_flag, v, u => Set.T_cl_ctrl_flag v u
  | .heating .a_H0, v, u => Set.a_H0 v u
  | .heating .DH_YesNo, v, u => Set.DH_YesNo v u
  | .heating .dhw_tset, v, u => Set.dhw_tset v u
  | .heating .dhw_tsupply, v, u => Set.dhw_tsupply v u
  | .heating .dhwDemand, v, u => Set.dhwDemand v u
  | .heating .dhwDistributionEfficiency, v, u => Set.dhwDistributionEfficiency v u
  | .heating .dhwEfficiency, v, u => Set.dhwEfficiency v u
  | .heating .dT_supp_ht, v, u => Set.dT_supp_ht v u
  | .heating .E_pumps_ht, v, u => Set.E_pumps_ht v u
  | .heating .eta_DH_network, v, u => Set.eta_DH_network v u
  | .heating .eta_DH_sys, v, u => Set.eta_DH_sys v u
  | .heating .forcedAirHeating, v, u => Set.forcedAirHeating v u
  | .heating .frac_DH_free, v, u => Set.frac_DH_free v u
  | .heating .heatingOccupiedSetpoint, v, u => Set.heatingOccupiedSetpoint v u
  | .heating .heatingPumpControl, v, u => Set.heatingPumpControl v u
  | .heating .heatingSystemEfficiency, v, u => Set.heatingSystemEfficiency v u
  | .heating .heatingUnoccupiedSetpoint, v, u => Set.heatingUnoccupiedSetpoint v u
  | .heating .hvacHeatingLossFactor, v, u => Set.hvacHeatingLossFactor v u
  | .heating .hvacWasteFactor, v, u => Set.hvacWasteFactor v u
  | .heating .T_ht_ctrl_flag, v, u => Set.T_ht_ctrl_flag v u
  | .heating .tau_H0, v, u => Set.tau_H0 v u
  | .lights .automaticAd, v, u => Set.automaticAd v u
  | .lights .automaticLux, v, u => Set.automaticLux v u
  | .lights .daylightSensorSystem, v, u => Set.daylightSensorSystem v u
  | .lights .elecInternalGains, v, u => Set.elecInternalGains v u
  | .lights .exteriorLightingPower, v, u => Set.exteriorLightingPower v u
  | .lights .lightingPowerIntensityOccupied, v, u => Set.lightingPowerIntensityOccupied v u
  | .lights .lightingPowerIntensityUnoccupied, v, u => Set.lightingPowerIntensityUnoccupied v u
  | .lights .manualSwitchAd, v, u => Set.manualSwitchAd v u
  | .lights .manualSwitchLux, v, u => Set.manualSwitchLux v u
  | .lights .n_day_end, v, u => Set.n_day_end v u
  | .lights .n_day_start, v, u => Set.n_day_start v u
  | .lights .n_weeks, v, u => Set.n_weeks v u
  | .lights .naturallyLightedArea, v, u => Set.naturallyLightedArea v u
  | .lights .permLightPowerDensity, v, u => Set.permLightPowerDensity v u
  | .lights .presenceAutoAd, v, u => Set.presenceAutoAd v u
  | .lights .presenceAutoLux, v, u => Set.presenceAutoLux v u
  | .lights .presenceSensorAd, v, u => Set.presenceSensorAd v u
  | .lights .presenceSensorLux, v, u => Set.presenceSensorLux v u
  | .phys .rhoCpAir, v, u => Set.rhoCpAir v u
  | .phys .rhoCpWater, v, u => Set.rhoCpWater v u
  | .pop .buildingOccupancyFrom, v, u => Set.buildingOccupancyFrom v u
  | .pop .buildingOccupancyTo, v, u => Set.buildingOccupancyTo v u
  | .pop .equivFullLoadOccupancyFrom, v, u => Set.equivFullLoadOccupancyFrom v u
  | .pop .equivFullLoadOccupancyTo, v, u => Set.equivFullLoadOccupancyTo v u
  | .pop .heatGainPerPerson, v, u => Set.heatGainPerPerson v u
  | .pop .peopleDensityOccupied, v, u => Set.peopleDensityOccupied v u
  | .pop .peopleDensityUnoccupied, v, u => Set.peopleDensityUnoccupied v u
  | .simSettings .hci, v, u => Set.hci v u
  | .simSettings .hri, v, u => Set.hri v u
  | .simSettings .phiIntFractionToAirNode, v, u => Set.phiIntFractionToAirNode v u
  | .simSettings .phiSolFractionToAirNode, v, u => Set.phiSolFractionToAirNode v u
  | .ventilation .dCp, v, u => Set.dCp v u
  | .ventilation .exhaustAirRecirclation, v, u => Set.exhaustAirRecirclation v u
  | .ventilation .fanFlowControlFactor, v, u => Set.fanFlowControlFactor v u
  | .ventilation .freshAirFlowRate, v, u => Set.freshAirFlowRate v u
  | .ventilation .H_ve, v, u => Set.H_ve v u
  | .ventilation .heatRecovery, v, u => Set.heatRecovery v u
  | .ventilation .hzone, v, u => Set.hzone v u
  | .ventilation .n50, v, u => Set.n50 v u
  | .ventilation .p_exp, v, u => Set.p_exp v u
  | .ventilation .specificFanPower, v, u => Set.specificFanPower v u
  | .ventilation .stack_coeff, v, u => Set.stack_coeff v u
  | .ventilation .stack_exp, v, u => Set.stack_exp v u
  | .ventilation .supplyExhaustRate, v, u => Set.supplyExhaustRate v u
  | .ventilation .vent_rate_flag, v, u => Set.vent_rate_flag v u
  | .ventilation .ventPreheatDegC, v, u => Set.ventPreheatDegC v u
  | .ventilation .wind_coeff, v, u => Set.wind_coeff v u
  | .ventilation .wind_exp, v, u => Set.wind_exp v u
  | .ventilation .zone_frac, v, u => Set.zone_frac v u
  | .bldg .buildingAirLeakage, v, u => Set.buildingAirLeakage v u
  | .bldg .buildingHeight, v, u => Set.buildingHeight v u
  | .bldg .exteriorHeatCapacity, v, u => Set.exteriorHeatCapacity v u
  | .bldg .floorArea, v, u => Set.floorArea v u
  | .bldg .interiorHeatCapacity, v, u => Set.interiorHeatCapacity v u
  | .bldg .irradianceForMaxShadingUse, v, u => Set.irradianceForMaxShadingUse v u
  | .bldg .R_sc_ext, v, u => Set.R_sc_ext v u
  | .bldg .R_se, v, u => Set.R_se v u
  | .bldg .shadingFactorAtMaxUse, v, u => Set.shadingFactorAtMaxUse v u
  | .bldg .totalAreaPerFloorArea, v, u => Set.totalAreaPerFloorArea v u
  | .bldg .win_F_W, v, u => Set.win_F_W v u
  | .bldg .win_ff, v, u => Set.win_ff v u
  | .extra .electricAppliancePowerFixedOccupied, v, u => Set.electricAppliancePowerFixedOccupied v u
  | .extra .electricAppliancePowerFixedUnoccupied, v, u => Set.electricAppliancePowerFixedUnoccupied v u
  | .extra .gasAppliancePowerFixedOccupied, v, u => Set.gasAppliancePowerFixedOccupied v u
  | .extra .gasAppliancePowerFixedUnoccupied, v, u => Set.gasAppliancePowerFixedUnoccupied v u
  | .extra .lightingPowerFixedOccupied, v, u => Set.lightingPowerFixedOccupied v u
  | .extra .lightingPowerFixedUnoccupied, v, u => Set.lightingPowerFixedUnoccupied v u
  | .extra .scheduleFilePath, v, u => Set.scheduleFilePath v u
  | .extra .infiltrationRateUnoccupied, v, u => Set.infiltrationRateUnoccupied v u
  | .extra .ventilationExhaustRateUnoccupied, v, u => Set.ventilationExhaustRateUnoccupied v u
  | .extra .ventilationIntakeRateUnoccupied, v, u => Set.ventilationIntakeRateUnoccupied v u
  | .facade .wallArea .S, v, u => Set.wallAreaS v u
  | .facade .wallArea .SE, v, u => Set.wallAreaSE v u
  | .facade .wallArea .E, v, u => Set.wallAreaE v u
  | .facade .wallArea .NE, v, u => Set.wallAreaNE v u
  | .facade .wallArea .N, v, u => Set.wallAreaN v u
  | .facade .wallArea .NW, v, u => Set.wallAreaNW v u
  | .facade .wallArea .W, v, u => Set.wallAreaW v u
  | .facade .wallArea .SW, v, u => Set.wallAreaSW v u
  | .facade .wallArea .roof, v, u => Set.roofArea v u
  | .facade .wallU .S, v, u => Set.wallUvalueS v u
  | .facade .wallU .SE, v, u => Set.wallUvalueSE v u
  | .facade .wallU .E, v, u => Set.wallUvalueE v u
  | .facade .wallU .NE, v, u => Set.wallUvalueNE v u
  | .facade .wallU .N, v, u => Set.wallUvalueN v u
  | .facade .wallU .NW, v, u => Set.wallUvalueNW v u
  | .facade .wallU .W, v, u => Set.wallUvalueW v u
  | .facade .wallU .SW, v, u => Set.wallUvalueSW v u
  | .facade .wallU .roof, v, u => Set.roofUValue v u
  | .facade .wallThermalEmissivity .S, v, u => Set.wallThermalEmissivityS v u
  | .facade .wallThermalEmissivity .SE, v, u => Set.wallThermalEmissivitySE v u
  | .facade .wallThermalEmissivity .E, v, u => Set.wallThermalEmissivityE v u
  | .facade .wallThermalEmissivity .NE, v, u => Set.wallThermalEmissivityNE v u
  | .facade .wallThermalEmissivity .N, v, u => Set.wallThermalEmissivityN v u
  | .facade .wallThermalEmissivity .NW, v, u => Set.wallThermalEmissivityNW v u
  | .facade .wallThermalEmissivity .W, v, u => Set.wallThermalEmissivityW v u
  | .facade .wallThermalEmissivity .SW, v, u => Set.wallThermalEmissivitySW v u
  | .facade .wallThermalEmissivity .roof, v, u => Set.roofThermalEmissivity v u
  | .facade .wallSolarAbsorption .S, v, u => Set.wallSolarAbsorptionS v u
  | .facade .wallSolarAbsorption .SE, v, u => Set.wallSolarAbsorptionSE v u
  | .facade .wallSolarAbsorption .E, v, u => Set.wallSolarAbsorptionE v u
  | .facade .wallSolarAbsorption .NE, v, u => Set.wallSolarAbsorptionNE v u
  | .facade .wallSolarAbsorption .N, v, u => Set.wallSolarAbsorptionN v u
  | .facade .wallSolarAbsorption .NW, v, u => Set.wallSolarAbsorptionNW v u
  | .facade .wallSolarAbsorption .W, v, u => Set.wallSolarAbsorptionW v u
  | .facade .wallSolarAbsorption .SW, v, u => Set.wallSolarAbsorptionSW v u
  | .facade .wallSolarAbsorption .roof, v, u => Set.roofSolarAbsorption v u
  | .facade .windowArea .S, v, u => Set.windowAreaS v u
  | .facade .windowArea .SE, v, u => Set.windowAreaSE v u
  | .facade .windowArea .E, v, u => Set.windowAreaE v u
  | .facade .windowArea .NE, v, u => Set.windowAreaNE v u
  | .facade .windowArea .N, v, u => Set.windowAreaN v u
  | .facade .windowArea .NW, v, u => Set.windowAreaNW v u
  | .facade .windowArea .W, v, u => Set.windowAreaW v u
  | .facade .windowArea .SW, v, u => Set.windowAreaSW v u
  | .facade .windowArea .roof, v, u => Set.skylightArea v u
  | .facade .windowU .S, v, u => Set.windowUvalueS v u
  | .facade .windowU .SE, v, u => Set.windowUvalueSE v u
  | .facade .windowU .E, v, u => Set.windowUvalueE v u
  | .facade .windowU .NE, v, u => Set.windowUvalueNE v u
  | .facade .windowU .N, v, u => Set.windowUvalueN v u
  | .facade .windowU .NW, v, u => Set.windowUvalueNW v u
  | .facade .windowU .W, v, u => Set.windowUvalueW v u
  | .facade .windowU .SW, v, u => Set.windowUvalueSW v u
  | .facade .windowU .roof, v, u => Set.skylightUvalue v u
  | .facade .windowSHGC .S, v, u => Set.windowSHGCS v u
  | .facade .windowSHGC .SE, v, u => Set.windowSHGCSE v u
  | .facade .windowSHGC .E, v, u => Set.windowSHGCE v u
  | .facade .windowSHGC .NE, v, u => Set.windowSHGCNE v u
  | .facade .windowSHGC .N, v, u => Set.windowSHGCN v u
  | .facade .windowSHGC .NW, v, u => Set.windowSHGCNW v u
  | .facade .windowSHGC .W, v, u => Set.windowSHGCW v u
  | .facade .windowSHGC .SW, v, u => Set.windowSHGCSW v u
  | .facade .windowSHGC .roof, v, u => Set.skylightSHGC v u
  | .facade .windowSCF .S, v, u => Set.windowSCFS v u
  | .facade .windowSCF .SE, v, u => Set.windowSCFSE v u
  | .facade .windowSCF .E, v, u => Set.windowSCFE v u
  | .facade .windowSCF .NE, v, u => Set.windowSCFNE v u
  | .facade .windowSCF .N, v, u => Set.windowSCFN v u
  | .facade .windowSCF .NW, v, u => Set.windowSCFNW v u
  | .facade .windowSCF .W, v, u => Set.windowSCFW v u
  | .facade .windowSCF .SW, v, u => Set.windowSCFSW v u
  | .facade .windowSCF .roof, v, u => Set.skylightSCF v u
  | .facade .windowSDF .S, v, u => Set.windowSDFS v u
  | .facade .windowSDF .SE, v, u => Set.windowSDFSE v u
  | .facade .windowSDF .E, v, u => Set.windowSDFE v u
  | .facade .windowSDF .NE, v, u => Set.windowSDFNE v u
  | .facade .windowSDF .N, v, u => Set.windowSDFN v u
  | .facade .windowSDF .NW, v, u => Set.windowSDFNW v u
  | .facade .windowSDF .W, v, u => Set.windowSDFW v u
  | .facade .windowSDF .SW, v, u => Set.windowSDFSW v u
  | .facade .windowSDF .roof, v, u => Set.skylightSDF v u
  | .terrainClass, v, u => Set.terrainClass v u
  | .weatherFilePath, v, u => Set.weatherFilePath v u

/-- an argument of a setter as its getter shows it; the flag of `setVent_rate_flag` is an `int`, the getter returns `double` -/
def shown : (a : Accessor) → a.Arg α → Reading α
  | .building .constantIlluminationControl, v => .num v
  | .building .elecPowerAppliancesOccupied, v => .num v
  | .building .elecPowerAppliancesUnoccupied, v => .num v
  | .building .externalEquipment, v => .num v
  | .building .gasPowerAppliancesOccupied, v => .num v
  | .building .gasPowerAppliancesUnoccupied, v => .num v
  | .building .lightingOccupancySensorSystem, v => .num v
  | .cooling .coolingOccupiedSetpoint, v => .num v
  | .cooling .coolingPumpControl, v => .num v
  | .cooling .coolingSystemCOP, v => .num v
  | .cooling .coolingSystemIPLVToCOPRatio, v => .num v
  | .cooling .coolingUnoccupiedSetpoint, v => .num v
  | .cooling .DC_YesNo, v => .num v
  | .cooling .dT_supp_cl, v => .num v
  | .cooling .E_pumps_cl, v => .num v
  | .cooling .eta_DC_COP_abs, v => .num v
  | .cooling .eta_DC_COP, v => .num v
  | .cooling .eta_DC_frac_abs, v => .num v
  | .cooling .eta_DC_network, v => .num v
  | .cooling .forcedAirCooling, v => .flag v
  | .cooling .frac_DC_free, v => .num v
  | .cooling .hvacCoolingLossFactor, v => .num v
  | .cooling .T_cl_ctrl_flag, v => .num v
  | .heating .a_H0, v => .num v
  | .heating .DH_YesNo, v => .num v
  | .heating .dhw_tset, v => .num v
  | .heating .dhw_tsupply, v => .num v
  | .heating .dhwDemand, v => .num v
  | .heating .dhwDistributionEfficiency, v => .num v
  | .heating .dhwEfficiency, v => .num v
  | .heating .dT_supp_ht, v => .num v
  | .heating .E_pumps_ht, v => .num v
  | .heating .eta_DH_network, v => .num v
  | .heating .eta_DH_sys, v => .num v
  | .heating .forcedAirHeating, v => .flag v
  | .heating .frac_DH_free, v => .num v
  | .heating .heatingOccupiedSetpoint, v => .num v
  | .heating .heatingPumpControl, v => .num v
  | .heating .heatingSystemEfficiency, v => .num v
  | .heating .heatingUnoccupiedSetpoint, v => .num v
  | .heating .hvacHeatingLossFactor, v => .num v
  | .heating .hvacWasteFactor, v => .num v
  | .heating .T_ht_ctrl_flag, v => .num v
  | .heating .tau_H0, v => .num v
  | .lights .automaticAd, v => .num v
  | .lights .automaticLux, v => .num v
  | .lights .daylightSensorSystem, v => .num v
  | .lights .elecInternalGains, v => .num v
  | .lights .exteriorLightingPower, v => .num v
  | .lights .lightingPowerIntensityOccupied, v => .num v
  | .lights .lightingPowerIntensityUnoccupied, v => .num v
  | .lights .manualSwitchAd, v => .num v
  | .lights .manualSwitchLux, v => .num v
  | .lights .n_day_end, v => .num v
  | .lights .n_day_start, v => .num v
  | .lights .n_weeks, v => .num v
  | .lights .naturallyLightedArea, v => .num v
  | .lights .permLightPowerDensity, v => .num v
  | .lights .presenceAutoAd, v => .num v
  | .lights .presenceAutoLux, v => .num v
  | .lights .presenceSensorAd, v => .num v
  | .lights .presenceSensorLux, v => .num v
  | .phys .rhoCpAir, v => .num v
  | .phys .rhoCpWater, v => .num v
  | .pop .buildingOccupancyFrom, v => .num v
  | .pop .buildingOccupancyTo, v => .num v
  | .pop .equivFullLoadOccupancyFrom, v => .num v
  | .pop .equivFullLoadOccupancyTo, v => .num v
  | .pop .heatGainPerPerson, v => .num v
  | .pop .peopleDensityOccupied, v => .num v
  | .pop .peopleDensityUnoccupied, v => .num v
  | .simSettings .hci, v => .num v
  | .simSettings .hri, v => .num v
  | .simSettings .phiIntFractionToAirNode, v => .num v
  | .simSettings .phiSolFractionToAirNode, v => .num v
  | .ventilation .dCp, v => .num v
  | .ventilation .exhaustAirRecirclation, v => .num v
  | .ventilation .fanFlowControlFactor, v => .num v
  | .ventilation .freshAirFlowRate, v => .num v
  | .ventilation .H_ve, v => .num v
  | .ventilation .heatRecovery, v => .num v
  | .ventilation .hzone, v => .num v
  | .ventilation .n50, v => .num v
  | .ventilation .p_exp, v => .num v
  | .ventilation .specificFanPower, v => .num v
  | .ventilation .stack_coeff, v => .num v
  | .ventilation .stack_exp, v => .num v
  | .ventilation .supplyExhaustRate, v => .num v
  | .ventilation .vent_rate_flag, v => .num (OfInt.ofInt v : α)
  | .ventilation .ventPreheatDegC, v => .num v
  | .ventilation .wind_coeff, v => .num v
  | .ventilation .wind_exp, v => .num v
  | .ventilation .zone_frac, v => .num v
  | .bldg .buildingAirLeakage, v => .num v
  | .bldg .buildingHeight, v => .num v
  | .bldg .exteriorHeatCapacity, v => .num v
  | .bldg .floorArea, v => .num v
  | .bldg .interiorHeatCapacity, v => .num v
  | .bldg .irradianceForMaxShadingUse, v => .num v
  | .bldg .R_sc_ext, v => .num v
  | .bldg .R_se, v => .num v
  | .bldg .shadingFactorAtMaxUse, v => .num v
  | .bldg .totalAreaPerFloorArea, v => .num v
  | .bldg .win_F_W, v => .num v
  | .bldg .win_ff, v => .num v
  | .extra .electricAppliancePowerFixedOccupied, v => .num v
  | .extra .electricAppliancePowerFixedUnoccupied, v => .num v
  | .extra .gasAppliancePowerFixedOccupied, v => .num v
  | .extra .gasAppliancePowerFixedUnoccupied, v => .num v
  | .extra .lightingPowerFixedOccupied, v => .num v
  | .extra .lightingPowerFixedUnoccupied, v => .num v
  | .extra .scheduleFilePath, v => .text v
  | .extra .infiltrationRateUnoccupied, v => .num v
  | .extra .ventilationExhaustRateUnoccupied, v => .num v
  | .extra .ventilationIntakeRateUnoccupied, v => .num v
  | .facade .wallArea .S, v => .num v
  | .facade .wallArea .SE, v => .num v
  | .facade .wallArea .E, v => .num v
  | .facade .wallArea .NE, v => .num v
  | .facade .wallArea .N, v => .num v
  | .facade .wallArea .NW, v => .num v
  | .facade .wallArea .W, v => .num v
  | .facade .wallArea .SW, v => .num v
  | .facade .wallArea .roof, v => .num v
  | .facade .wallU .S, v => .num v
  | .facade .wallU .SE, v => .num v
  | .facade .wallU .E, v => .num v
  | .facade .wallU .NE, v => .num v
  | .facade .wallU .N, v => .num v
  | .facade .wallU .NW, v => .num v
  | .facade .wallU .W, v => .num v
  | .facade .wallU .SW, v => .num v
  | .facade .wallU .roof, v => .num v
  | .facade .wallThermalEmissivity .S, v => .num v
  | .facade .wallThermalEmissivity .SE, v => .num v
  | .facade .wallThermalEmissivity .E, v => .num v
  | .facade .wallThermalEmissivity .NE, v => .num v
  | .facade .wallThermalEmissivity .N, v => .num v
  | .facade .wallThermalEmissivity .NW, v => .num v
  | .facade .wallThermalEmissivity .W, v => .num v
  | .facade .wallThermalEmissivity .SW, v => .num v
  | .facade .wallThermalEmissivity .roof, v => .num v
  | .facade .wallSolarAbsorption .S, v => .num v
  | .facade .wallSolarAbsorption .SE, v => .num v
  | .facade .wallSolarAbsorption .E, v => .num v
  | .facade .wallSolarAbsorption .NE, v => .num v
  | .facade .wallSolarAbsorption .N, v => .num v
  | .facade .wallSolarAbsorption .NW, v => .num v
  | .facade .wallSolarAbsorption .W, v => .num v
  | .facade .wallSolarAbsorption .SW, v => .num v
  | .facade .wallSolarAbsorption .roof, v => .num v
  | .facade .windowArea .S, v => .num v
  | .facade .windowArea .SE, v => .num v
  | .facade .windowArea .E, v => .num v
  | .facade .windowArea .NE, v => .num v
  | .facade .windowArea .N, v => .num v
  | .facade .windowArea .NW, v => .num v
  | .facade .windowArea .W, v => .num v
  | .facade .windowArea .SW, v => .num v
  | .facade .windowArea .roof, v => .num v
  | .facade .windowU .S, v => .num v
  | .facade .windowU .SE, v => .num v
  | .facade .windowU .E, v => .num v
  | .facade .windowU .NE, v => .num v
  | .facade .windowU .N, v => .num v
  | .facade .windowU .NW, v => .num v
  | .facade .windowU .W, v => .num v
  | .facade .windowU .SW, v => .num v
  | .facade .windowU .roof, v => .num v
  | .facade .windowSHGC .S, v => .num v
  | .facade .windowSHGC .SE, v => .num v
  | .facade .windowSHGC .E, v => .num v
  | .facade .windowSHGC .NE, v => .num v
  | .facade .windowSHGC .N, v => .num v
  | .facade .windowSHGC .NW, v => .num v
  | .facade .windowSHGC .W, v => .num v
  | .facade .windowSHGC .SW, v => .num v
  | .facade .windowSHGC .roof, v => .num v
  | .facade .windowSCF .S, v => .num v
  | .facade .windowSCF .SE, v => .num v
  | .facade .windowSCF .E, v => .num v
  | .facade .windowSCF .NE, v => .num v
  | .facade .windowSCF .N, v => .num v
  | .facade .windowSCF .NW, v => .num v
  | .facade .windowSCF .W, v => .num v
  | .facade .windowSCF .SW, v => .num v
  | .facade .windowSCF .roof, v => .num v
  | .facade .windowSDF .S, v => .num v
  | .facade .windowSDF .SE, v => .num v
  | .facade .windowSDF .E, v => .num v
  | .facade .windowSDF .NE, v => .num v
  | .facade .windowSDF .N, v => .num v
  | .facade .windowSDF .NW, v => .num v
  | .facade .windowSDF .W, v => .num v
  | .facade .windowSDF .SW, v => .num v
  | .facade .windowSDF .roof, v => .num v
  | .terrainClass, v => .num v
  | .weatherFilePath, v => .text v

end Accessor

/-- the four settings written as a keyword and read as a number -/
inductive Code where
  | bemType | dhwEnergyCarrier | heatingEnergyCarrier | ventilationType
  deriving DecidableEq

namespace Code

/-- the getter -/
def get : Code → Object α → α
  | .bemType, u => Get.bemType u
  | .dhwEnergyCarrier, u => Get.dhwEnergyCarrier u
  | .heatingEnergyCarrier, u => Get.heatingEnergyCarrier u
  | .ventilationType, u => Get.ventilationType u

/-- the setter of the parameters (UserModel.hpp:147-157, 530-538, 606-614, 2206-2216, see `Model/Parameters`) -/
def setParams : Code → Str → Params α → Except LoadError (Params α)
  | .bemType => setBemType
  | .dhwEnergyCarrier => setDhwEnergyCarrier
  | .heatingEnergyCarrier => setHeatingEnergyCarrier
  | .ventilationType => setVentilationType

/-- the setter: the object afterwards, also when it throws -/
def set (c : Code) (s : Str) (u : Object α) : Except LoadError Unit × Object α :=
  match c.setParams s u.params with
  | .ok p => (.ok (), { u with params := p })
  | .error e => (.error e, u)

end Code

namespace NineVector

/-- the setters that take a whole vector (UserModel.hpp, see `Model/Parameters`) -/
def setParams : NineVector → List α → Params α → Except LoadError (Params α)
  | .wallArea => setWallArea
  | .wallU => setWallU
  | .wallThermalEmissivity => setWallThermalEmissivity
  | .wallSolarAbsorption => setWallSolarAbsorption
  | .windowArea => setWindowArea
  | .windowU => setWindowU
  | .windowSHGC => setWindowSHGC
  | .windowSCF => setWindowSCF
  | .windowSDF => setWindowSDF

/-- the setter: the object afterwards, also when it throws -/
def set (n : NineVector) (v : List α) (u : Object α) : Except LoadError Unit × Object α :=
  match n.setParams v u.params with
  | .ok p => (.ok (), { u with params := p })
  | .error e => (.error e, u)

end NineVector

namespace Set

/-- UserModel.hpp:510-512, a second setter for the efficiency of the hot water distribution -/
def dhwDistributionSystem (v : α) (u : Object α) : Object α :=
  { u with params := setDhwDistributionEfficiency v u.params }

end Set

/-- A call of one of the setters of a `UserModel`: one of the pairs, one of the four that take a keyword, one of the nine that take a
whole vector, or the second setter of the hot water distribution efficiency. -/
inductive SetterCall (α : Type) where
  | value (a : Accessor) (v : a.Arg α)
  | keyword (c : Code) (text : Str)
  | vector (n : NineVector) (v : List α)
  | dhwDistributionSystem (v : α)

/-- what the call does: how it ends, and the object afterwards -/
def SetterCall.run : SetterCall α → Object α → Except LoadError Unit × Object α
  | .value a v, u => (.ok (), a.set v u)
  | .keyword c text, u => c.set text u
  | .vector n v, u => n.set v u
  | .dhwDistributionSystem v, u => (.ok (), Set.dhwDistributionSystem v u)

/-- the object after a history of calls; an exception of a setter is caught by the caller, who goes on with the object -/
def runAll (calls : List (SetterCall α)) (u : Object α) : Object α := calls.foldl (fun u c => (c.run u).2) u

end ISO.User
