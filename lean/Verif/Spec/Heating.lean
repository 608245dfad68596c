import Verif.Model.Heating

/-! # Specifications for the heating simulators -/

namespace Demod

/-- The heat stored in the four thermal nodes, relative to 0 °C. -/
def storedHeat (b : Building) (T : Temps) : Rat := b.cB * T.building + b.cI * T.interior + b.cEm * T.emitter + b.cCyl * T.cylinder

/-- The net heat flow into the building: from outside through the walls and by ventilation, from the sun, the internal gains and the heating
system, minus the heat leaving with the hot water. -/
def netFlow (b : Building) (T : Temps) (i : BuildingInput) : Rat :=
  b.hOb * (i.outside - T.building) + b.hV * (i.outside - T.interior) + i.irradiance * b.irradianceMultiplier +
    (i.occupancyGains + i.lightingGains + i.applianceGains) + i.spaceHeating + i.dhw - i.dhwDemand * (T.cylinder - T.coldWater)

/-- A physical building: positive capacitances and non-negative transfer coefficients. -/
structure Building.Physical (b : Building) : Prop where
  cB : 0 < b.cB
  cI : 0 < b.cI
  cEm : 0 < b.cEm
  cCyl : 0 < b.cCyl
  hEm : 0 ≤ b.hEm
  hBi : 0 ≤ b.hBi
  hOb : 0 ≤ b.hOb
  hV : 0 ≤ b.hV
  hLoss : 0 ≤ b.hLoss
  irr : 0 ≤ b.irradianceMultiplier

/-- The step size is small enough at each node, for hot water demands up to `maxDhw`. -/
structure Building.Stable (b : Building) (dt maxDhw : Rat) : Prop where
  building : dt * (b.hOb + b.hBi) ≤ b.cB
  interior : dt * (b.hV + b.hBi + b.hEm + b.hLoss) ≤ b.cI
  emitter : dt * b.hEm ≤ b.cEm
  cylinder : dt * (b.hLoss + maxDhw) ≤ b.cCyl

/-- All temperatures are at most `M`. -/
structure Temps.LE (T : Temps) (M : Rat) : Prop where
  building : T.building ≤ M
  interior : T.interior ≤ M
  emitter : T.emitter ≤ M
  cylinder : T.cylinder ≤ M
  coldWater : T.coldWater ≤ M

/-- All temperatures are at least `m`. -/
structure Temps.GE (T : Temps) (m : Rat) : Prop where
  building : m ≤ T.building
  interior : m ≤ T.interior
  emitter : m ≤ T.emitter
  cylinder : m ≤ T.cylinder
  coldWater : m ≤ T.coldWater

/-- The household gets hot water from outside: an output for hot water is given and not NaN, or none is given and the external heat output (array, or dictionary with
hot water) is not NaN. -/
def FiveInput.externalDhw (i : FiveInput) : Prop :=
  match i.extDhw, i.extHeat with
  | some v, _ => v ≠ none
  | none, .array v => v ≠ none
  | none, .dict w _ => ∃ x, w = some (some x)
  | none, .none => False

/-- The same for space heating. -/
def FiveInput.externalSpace (i : FiveInput) : Prop :=
  match i.extSh, i.extHeat with
  | some v, _ => v ≠ none
  | none, .array v => v ≠ none
  | none, .dict _ w => ∃ x, w = some (some x)
  | none, .none => False

end Demod
