import Verif.Py.Basic
/-!
# Model of `obd/codes.py` (all tables except `DTC`, which is in `Model/DtcTable.lean`)
-/
namespace Model
open Py

/-- `IGNITION_TYPE`, obd/codes.py:2103-2106. -/
def ignitionType : List String := ["spark", "compression"]

/-- `BASE_TESTS`, obd/codes.py:2108-2112. -/
def baseTests : List (Option String) :=
  [some "MISFIRE_MONITORING", some "FUEL_SYSTEM_MONITORING", some "COMPONENT_MONITORING"]

/-- `SPARK_TESTS`, obd/codes.py:2114-2123. -/
def sparkTests : List (Option String) :=
  [some "CATALYST_MONITORING", some "HEATED_CATALYST_MONITORING",
   some "EVAPORATIVE_SYSTEM_MONITORING", some "SECONDARY_AIR_SYSTEM_MONITORING",
   none, some "OXYGEN_SENSOR_MONITORING", some "OXYGEN_SENSOR_HEATER_MONITORING",
   some "EGR_VVT_SYSTEM_MONITORING"]

/-- `COMPRESSION_TESTS`, obd/codes.py:2125-2134. -/
def compressionTests : List (Option String) :=
  [some "NMHC_CATALYST_MONITORING", some "NOX_SCR_AFTERTREATMENT_MONITORING", none,
   some "BOOST_PRESSURE_MONITORING", none, some "EXHAUST_GAS_SENSOR_MONITORING",
   some "PM_FILTER_MONITORING", some "EGR_VVT_SYSTEM_MONITORING"]

/-- `FUEL_STATUS`, obd/codes.py:2136-2142. -/
def fuelStatusTable : List String :=
  ["Open loop due to insufficient engine temperature",
   "Closed loop, using oxygen sensor feedback to determine fuel mix",
   "Open loop due to engine load OR fuel cut due to deceleration",
   "Open loop due to system failure",
   "Closed loop, using at least one oxygen sensor but there is a fault in the feedback system"]

/-- `AIR_STATUS`, obd/codes.py:2144-2149. -/
def airStatusTable : List String :=
  ["Upstream", "Downstream of catalytic converter",
   "From the outside atmosphere or off", "Pump commanded on for diagnostics"]

/-- `OBD_COMPLIANCE`, obd/codes.py:2151-2186. -/
def obdComplianceTable : List String :=
  ["Undefined", "OBD-II as defined by the CARB", "OBD as defined by the EPA",
   "OBD and OBD-II", "OBD-I", "Not OBD compliant", "EOBD (Europe)", "EOBD and OBD-II",
   "EOBD and OBD", "EOBD, OBD and OBD II", "JOBD (Japan)", "JOBD and OBD II",
   "JOBD and EOBD", "JOBD, EOBD, and OBD II", "Reserved", "Reserved", "Reserved",
   "Engine Manufacturer Diagnostics (EMD)",
   "Engine Manufacturer Diagnostics Enhanced (EMD+)",
   "Heavy Duty On-Board Diagnostics (Child/Partial) (HD OBD-C)",
   "Heavy Duty On-Board Diagnostics (HD OBD)",
   "World Wide Harmonized OBD (WWH OBD)", "Reserved",
   "Heavy Duty Euro OBD Stage I without NOx control (HD EOBD-I)",
   "Heavy Duty Euro OBD Stage I with NOx control (HD EOBD-I N)",
   "Heavy Duty Euro OBD Stage II without NOx control (HD EOBD-II)",
   "Heavy Duty Euro OBD Stage II with NOx control (HD EOBD-II N)",
   "Reserved", "Brazil OBD Phase 1 (OBDBr-1)", "Brazil OBD Phase 2 (OBDBr-2)",
   "Korean OBD (KOBD)", "India OBD I (IOBD I)", "India OBD II (IOBD II)",
   "Heavy Duty Euro OBD Stage VI (HD EOBD-IV)"]

/-- `FUEL_TYPES`, obd/codes.py:2188-2213. -/
def fuelTypesTable : List String :=
  ["Not available", "Gasoline", "Methanol", "Ethanol", "Diesel", "LPG", "CNG", "Propane",
   "Electric", "Bifuel running Gasoline", "Bifuel running Methanol",
   "Bifuel running Ethanol", "Bifuel running LPG", "Bifuel running CNG",
   "Bifuel running Propane", "Bifuel running Electricity",
   "Bifuel running electric and combustion engine", "Hybrid gasoline", "Hybrid Ethanol",
   "Hybrid Diesel", "Hybrid Electric", "Hybrid running electric and combustion engine",
   "Hybrid Regenerative", "Bifuel running diesel"]

/-- `TEST_IDS`, obd/codes.py:2215-2230. -/
def testIds : List (Nat × String × String) :=
  [(0x01, "RTL_THRESHOLD_VOLTAGE", "Rich to lean sensor threshold voltage"),
   (0x02, "LTR_THRESHOLD_VOLTAGE", "Lean to rich sensor threshold voltage"),
   (0x03, "LOW_VOLTAGE_SWITCH_TIME", "Low sensor voltage for switch time calculation"),
   (0x04, "HIGH_VOLTAGE_SWITCH_TIME", "High sensor voltage for switch time calculation"),
   (0x05, "RTL_SWITCH_TIME", "Rich to lean sensor switch time"),
   (0x06, "LTR_SWITCH_TIME", "Lean to rich sensor switch time"),
   (0x07, "MIN_VOLTAGE", "Minimum sensor voltage for test cycle"),
   (0x08, "MAX_VOLTAGE", "Maximum sensor voltage for test cycle"),
   (0x09, "TRANSITION_TIME", "Time between sensor transitions"),
   (0x0A, "SENSOR_PERIOD", "Sensor period"),
   (0x0B, "MISFIRE_AVERAGE", "Average misfire counts for last ten driving cycles"),
   (0x0C, "MISFIRE_COUNT", "Misfire counts for last/current driving cycles")]

end Model
