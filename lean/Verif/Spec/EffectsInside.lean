import Verif.Spec.Effects

/-! # Specification: the lights and the appliances inside, as groups of parameters that a change can touch -/

namespace ISO.Spec
open ISO

variable {α : Type}

/-- the lights inside: their power, their control, daylight and their hours -/
def takeInteriorLights (x y : Sim α) : Sim α :=
  { x with
    lights := { x.lights with
      powerDensityOccupied := y.lights.powerDensityOccupied
      powerDensityUnoccupied := y.lights.powerDensityUnoccupied
      dimmingFraction := y.lights.dimmingFraction
      n_day_start := y.lights.n_day_start
      n_day_end := y.lights.n_day_end
      n_weeks := y.lights.n_weeks
      elecInternalGains := y.lights.elecInternalGains
      permLightPowerDensity := y.lights.permLightPowerDensity
      presenceSensorAd := y.lights.presenceSensorAd
      automaticAd := y.lights.automaticAd
      presenceAutoAd := y.lights.presenceAutoAd
      manualSwitchAd := y.lights.manualSwitchAd
      presenceSensorLux := y.lights.presenceSensorLux
      automaticLux := y.lights.automaticLux
      presenceAutoLux := y.lights.presenceAutoLux
      manualSwitchLux := y.lights.manualSwitchLux
      naturallyLightedArea := y.lights.naturallyLightedArea }
    building := { x.building with
      lightingOccupancySensor := y.building.lightingOccupancySensor
      constantIllumination := y.building.constantIllumination } }

/-- the electric appliances inside -/
def takeElectricAppliances (x y : Sim α) : Sim α :=
  { x with
    building := { x.building with
      electricApplianceHeatGainOccupied := y.building.electricApplianceHeatGainOccupied
      electricApplianceHeatGainUnoccupied := y.building.electricApplianceHeatGainUnoccupied } }

/-- the gas appliances inside -/
def takeGasAppliances (x y : Sim α) : Sim α :=
  { x with
    building := { x.building with
      gasApplianceHeatGainOccupied := y.building.gasApplianceHeatGainOccupied
      gasApplianceHeatGainUnoccupied := y.building.gasApplianceHeatGainUnoccupied } }

/-- the days and hours at which the building is in use -/
def takeOccupancy (x y : Sim α) : Sim α :=
  { x with
    pop := { x.pop with
      daysStart := y.pop.daysStart
      daysEnd := y.pop.daysEnd
      hoursStart := y.pop.hoursStart
      hoursEnd := y.pop.hoursEnd } }

/-- the floor area -/
def takeFloor (x y : Sim α) : Sim α :=
  { x with bldg := { x.bldg with floorArea := y.bldg.floorArea } }

/-- the windows and their shading -/
def takeWindows (x y : Sim α) : Sim α :=
  { x with
    bldg := { x.bldg with
      windowArea := y.bldg.windowArea
      windowShadingDevice := y.bldg.windowShadingDevice
      irradianceForMaxShadingUse := y.bldg.irradianceForMaxShadingUse
      shadingFactorAtMaxUse := y.bldg.shadingFactorAtMaxUse } }

/-- the energy management -/
def takeManagement (x y : Sim α) : Sim α :=
  { x with building := { x.building with buildingEnergyManagement := y.building.buildingEnergyManagement } }

/-- the shading devices -/
def takeShades (x y : Sim α) : Sim α :=
  { x with bldg := { x.bldg with windowShadingDevice := y.bldg.windowShadingDevice } }

end ISO.Spec
