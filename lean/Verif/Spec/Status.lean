/-!
# Specification: the status reply (SAE J1979, PIDs 01 and 41)

Name of each monitor and the position of its bits: for the base monitors the supported bit
in byte B (the not-complete bit is four positions higher); for the others the supported bit
in byte C and the not-complete bit in byte D.
-/
namespace Spec

def baseMonitors : List (String × Nat) :=
  [("MISFIRE_MONITORING", 0), ("FUEL_SYSTEM_MONITORING", 1), ("COMPONENT_MONITORING", 2)]

def sparkMonitors : List (String × Nat) :=
  [("CATALYST_MONITORING", 0), ("HEATED_CATALYST_MONITORING", 1), ("EVAPORATIVE_SYSTEM_MONITORING", 2),
   ("SECONDARY_AIR_SYSTEM_MONITORING", 3), ("OXYGEN_SENSOR_MONITORING", 5), ("OXYGEN_SENSOR_HEATER_MONITORING", 6),
   ("EGR_VVT_SYSTEM_MONITORING", 7)]

def compressionMonitors : List (String × Nat) :=
  [("NMHC_CATALYST_MONITORING", 0), ("NOX_SCR_AFTERTREATMENT_MONITORING", 1), ("BOOST_PRESSURE_MONITORING", 3),
   ("EXHAUST_GAS_SENSOR_MONITORING", 5), ("PM_FILTER_MONITORING", 6), ("EGR_VVT_SYSTEM_MONITORING", 7)]

/-- The monitors of the engine type that a status reply announces, and of the other type. -/
def ownMonitors (compression : Bool) : List (String × Nat) := if compression then compressionMonitors else sparkMonitors
def otherMonitors (compression : Bool) : List (String × Nat) := if compression then sparkMonitors else compressionMonitors

end Spec
