/-!
# The tables of `docs/Command Tables.md`, and the lists of `docs/Responses.md`

Generated by `tools/gen_docs.py` from the text of the file: the rows of the tables of the
adapter commands and of modes 01, 03, 04, 06, 07 and 09, without the columns of descriptions.
-/
namespace Spec

/-- The column "Response Value".  `open` is `TODO` or `N/A`; `banks` are the nested tuples
shown at `docs/Responses.md`:164-182, with the number of sensors of each bank. -/
inductive DocType where
  | unit (name : String)
  | banks (sizes : List Nat)
  | bitArray | boolean | string | hexString | fuelStatus | airStatus | status | monitor | dtc | dtcs | open
  deriving DecidableEq, Repr

/-- A row: the mode (`none` for adapter commands), the PID (`none` for `N/A`), the name and the type. -/
structure DocRow where
  mode : Option Nat
  pid : Option Nat
  name : String
  type : DocType
  deriving DecidableEq, Repr

/-- `docs/Command Tables.md`:7-285. -/
def docTable : List DocRow :=
  [⟨none, none, "ELM_VERSION", .string⟩,
   ⟨none, none, "ELM_VOLTAGE", .unit "volt"⟩,
   ⟨some 1, some 0x00, "PIDS_A", .bitArray⟩,
   ⟨some 1, some 0x01, "STATUS", .status⟩,
   ⟨some 1, some 0x02, "FREEZE_DTC", .dtc⟩,
   ⟨some 1, some 0x03, "FUEL_STATUS", .fuelStatus⟩,
   ⟨some 1, some 0x04, "ENGINE_LOAD", .unit "percent"⟩,
   ⟨some 1, some 0x05, "COOLANT_TEMP", .unit "celsius"⟩,
   ⟨some 1, some 0x06, "SHORT_FUEL_TRIM_1", .unit "percent"⟩,
   ⟨some 1, some 0x07, "LONG_FUEL_TRIM_1", .unit "percent"⟩,
   ⟨some 1, some 0x08, "SHORT_FUEL_TRIM_2", .unit "percent"⟩,
   ⟨some 1, some 0x09, "LONG_FUEL_TRIM_2", .unit "percent"⟩,
   ⟨some 1, some 0x0A, "FUEL_PRESSURE", .unit "kilopascal"⟩,
   ⟨some 1, some 0x0B, "INTAKE_PRESSURE", .unit "kilopascal"⟩,
   ⟨some 1, some 0x0C, "RPM", .unit "rpm"⟩,
   ⟨some 1, some 0x0D, "SPEED", .unit "kph"⟩,
   ⟨some 1, some 0x0E, "TIMING_ADVANCE", .unit "degree"⟩,
   ⟨some 1, some 0x0F, "INTAKE_TEMP", .unit "celsius"⟩,
   ⟨some 1, some 0x10, "MAF", .unit "grams_per_second"⟩,
   ⟨some 1, some 0x11, "THROTTLE_POS", .unit "percent"⟩,
   ⟨some 1, some 0x12, "AIR_STATUS", .airStatus⟩,
   ⟨some 1, some 0x13, "O2_SENSORS", .banks [4, 4]⟩,
   ⟨some 1, some 0x14, "O2_B1S1", .unit "volt"⟩,
   ⟨some 1, some 0x15, "O2_B1S2", .unit "volt"⟩,
   ⟨some 1, some 0x16, "O2_B1S3", .unit "volt"⟩,
   ⟨some 1, some 0x17, "O2_B1S4", .unit "volt"⟩,
   ⟨some 1, some 0x18, "O2_B2S1", .unit "volt"⟩,
   ⟨some 1, some 0x19, "O2_B2S2", .unit "volt"⟩,
   ⟨some 1, some 0x1A, "O2_B2S3", .unit "volt"⟩,
   ⟨some 1, some 0x1B, "O2_B2S4", .unit "volt"⟩,
   ⟨some 1, some 0x1C, "OBD_COMPLIANCE", .string⟩,
   ⟨some 1, some 0x1D, "O2_SENSORS_ALT", .banks [2, 2, 2, 2]⟩,
   ⟨some 1, some 0x1E, "AUX_INPUT_STATUS", .boolean⟩,
   ⟨some 1, some 0x1F, "RUN_TIME", .unit "second"⟩,
   ⟨some 1, some 0x20, "PIDS_B", .bitArray⟩,
   ⟨some 1, some 0x21, "DISTANCE_W_MIL", .unit "kilometer"⟩,
   ⟨some 1, some 0x22, "FUEL_RAIL_PRESSURE_VAC", .unit "kilopascal"⟩,
   ⟨some 1, some 0x23, "FUEL_RAIL_PRESSURE_DIRECT", .unit "kilopascal"⟩,
   ⟨some 1, some 0x24, "O2_S1_WR_VOLTAGE", .unit "volt"⟩,
   ⟨some 1, some 0x25, "O2_S2_WR_VOLTAGE", .unit "volt"⟩,
   ⟨some 1, some 0x26, "O2_S3_WR_VOLTAGE", .unit "volt"⟩,
   ⟨some 1, some 0x27, "O2_S4_WR_VOLTAGE", .unit "volt"⟩,
   ⟨some 1, some 0x28, "O2_S5_WR_VOLTAGE", .unit "volt"⟩,
   ⟨some 1, some 0x29, "O2_S6_WR_VOLTAGE", .unit "volt"⟩,
   ⟨some 1, some 0x2A, "O2_S7_WR_VOLTAGE", .unit "volt"⟩,
   ⟨some 1, some 0x2B, "O2_S8_WR_VOLTAGE", .unit "volt"⟩,
   ⟨some 1, some 0x2C, "COMMANDED_EGR", .unit "percent"⟩,
   ⟨some 1, some 0x2D, "EGR_ERROR", .unit "percent"⟩,
   ⟨some 1, some 0x2E, "EVAPORATIVE_PURGE", .unit "percent"⟩,
   ⟨some 1, some 0x2F, "FUEL_LEVEL", .unit "percent"⟩,
   ⟨some 1, some 0x30, "WARMUPS_SINCE_DTC_CLEAR", .unit "count"⟩,
   ⟨some 1, some 0x31, "DISTANCE_SINCE_DTC_CLEAR", .unit "kilometer"⟩,
   ⟨some 1, some 0x32, "EVAP_VAPOR_PRESSURE", .unit "pascal"⟩,
   ⟨some 1, some 0x33, "BAROMETRIC_PRESSURE", .unit "kilopascal"⟩,
   ⟨some 1, some 0x34, "O2_S1_WR_CURRENT", .unit "milliampere"⟩,
   ⟨some 1, some 0x35, "O2_S2_WR_CURRENT", .unit "milliampere"⟩,
   ⟨some 1, some 0x36, "O2_S3_WR_CURRENT", .unit "milliampere"⟩,
   ⟨some 1, some 0x37, "O2_S4_WR_CURRENT", .unit "milliampere"⟩,
   ⟨some 1, some 0x38, "O2_S5_WR_CURRENT", .unit "milliampere"⟩,
   ⟨some 1, some 0x39, "O2_S6_WR_CURRENT", .unit "milliampere"⟩,
   ⟨some 1, some 0x3A, "O2_S7_WR_CURRENT", .unit "milliampere"⟩,
   ⟨some 1, some 0x3B, "O2_S8_WR_CURRENT", .unit "milliampere"⟩,
   ⟨some 1, some 0x3C, "CATALYST_TEMP_B1S1", .unit "celsius"⟩,
   ⟨some 1, some 0x3D, "CATALYST_TEMP_B2S1", .unit "celsius"⟩,
   ⟨some 1, some 0x3E, "CATALYST_TEMP_B1S2", .unit "celsius"⟩,
   ⟨some 1, some 0x3F, "CATALYST_TEMP_B2S2", .unit "celsius"⟩,
   ⟨some 1, some 0x40, "PIDS_C", .bitArray⟩,
   ⟨some 1, some 0x41, "STATUS_DRIVE_CYCLE", .status⟩,
   ⟨some 1, some 0x42, "CONTROL_MODULE_VOLTAGE", .unit "volt"⟩,
   ⟨some 1, some 0x43, "ABSOLUTE_LOAD", .unit "percent"⟩,
   ⟨some 1, some 0x44, "COMMANDED_EQUIV_RATIO", .unit "ratio"⟩,
   ⟨some 1, some 0x45, "RELATIVE_THROTTLE_POS", .unit "percent"⟩,
   ⟨some 1, some 0x46, "AMBIANT_AIR_TEMP", .unit "celsius"⟩,
   ⟨some 1, some 0x47, "THROTTLE_POS_B", .unit "percent"⟩,
   ⟨some 1, some 0x48, "THROTTLE_POS_C", .unit "percent"⟩,
   ⟨some 1, some 0x49, "ACCELERATOR_POS_D", .unit "percent"⟩,
   ⟨some 1, some 0x4A, "ACCELERATOR_POS_E", .unit "percent"⟩,
   ⟨some 1, some 0x4B, "ACCELERATOR_POS_F", .unit "percent"⟩,
   ⟨some 1, some 0x4C, "THROTTLE_ACTUATOR", .unit "percent"⟩,
   ⟨some 1, some 0x4D, "RUN_TIME_MIL", .unit "minute"⟩,
   ⟨some 1, some 0x4E, "TIME_SINCE_DTC_CLEARED", .unit "minute"⟩,
   ⟨some 1, some 0x50, "MAX_MAF", .unit "grams_per_second"⟩,
   ⟨some 1, some 0x51, "FUEL_TYPE", .string⟩,
   ⟨some 1, some 0x52, "ETHANOL_PERCENT", .unit "percent"⟩,
   ⟨some 1, some 0x53, "EVAP_VAPOR_PRESSURE_ABS", .unit "kilopascal"⟩,
   ⟨some 1, some 0x54, "EVAP_VAPOR_PRESSURE_ALT", .unit "pascal"⟩,
   ⟨some 1, some 0x55, "SHORT_O2_TRIM_B1", .unit "percent"⟩,
   ⟨some 1, some 0x56, "LONG_O2_TRIM_B1", .unit "percent"⟩,
   ⟨some 1, some 0x57, "SHORT_O2_TRIM_B2", .unit "percent"⟩,
   ⟨some 1, some 0x58, "LONG_O2_TRIM_B2", .unit "percent"⟩,
   ⟨some 1, some 0x59, "FUEL_RAIL_PRESSURE_ABS", .unit "kilopascal"⟩,
   ⟨some 1, some 0x5A, "RELATIVE_ACCEL_POS", .unit "percent"⟩,
   ⟨some 1, some 0x5B, "HYBRID_BATTERY_REMAINING", .unit "percent"⟩,
   ⟨some 1, some 0x5C, "OIL_TEMP", .unit "celsius"⟩,
   ⟨some 1, some 0x5D, "FUEL_INJECT_TIMING", .unit "degree"⟩,
   ⟨some 1, some 0x5E, "FUEL_RATE", .unit "liters_per_hour"⟩,
   ⟨some 3, none, "GET_DTC", .dtcs⟩,
   ⟨some 4, none, "CLEAR_DTC", .open⟩,
   ⟨some 6, some 0x00, "MIDS_A", .bitArray⟩,
   ⟨some 6, some 0x01, "MONITOR_O2_B1S1", .monitor⟩,
   ⟨some 6, some 0x02, "MONITOR_O2_B1S2", .monitor⟩,
   ⟨some 6, some 0x03, "MONITOR_O2_B1S3", .monitor⟩,
   ⟨some 6, some 0x04, "MONITOR_O2_B1S4", .monitor⟩,
   ⟨some 6, some 0x05, "MONITOR_O2_B2S1", .monitor⟩,
   ⟨some 6, some 0x06, "MONITOR_O2_B2S2", .monitor⟩,
   ⟨some 6, some 0x07, "MONITOR_O2_B2S3", .monitor⟩,
   ⟨some 6, some 0x08, "MONITOR_O2_B2S4", .monitor⟩,
   ⟨some 6, some 0x09, "MONITOR_O2_B3S1", .monitor⟩,
   ⟨some 6, some 0x0A, "MONITOR_O2_B3S2", .monitor⟩,
   ⟨some 6, some 0x0B, "MONITOR_O2_B3S3", .monitor⟩,
   ⟨some 6, some 0x0C, "MONITOR_O2_B3S4", .monitor⟩,
   ⟨some 6, some 0x0D, "MONITOR_O2_B4S1", .monitor⟩,
   ⟨some 6, some 0x0E, "MONITOR_O2_B4S2", .monitor⟩,
   ⟨some 6, some 0x0F, "MONITOR_O2_B4S3", .monitor⟩,
   ⟨some 6, some 0x10, "MONITOR_O2_B4S4", .monitor⟩,
   ⟨some 6, some 0x20, "MIDS_B", .bitArray⟩,
   ⟨some 6, some 0x21, "MONITOR_CATALYST_B1", .monitor⟩,
   ⟨some 6, some 0x22, "MONITOR_CATALYST_B2", .monitor⟩,
   ⟨some 6, some 0x23, "MONITOR_CATALYST_B3", .monitor⟩,
   ⟨some 6, some 0x24, "MONITOR_CATALYST_B4", .monitor⟩,
   ⟨some 6, some 0x31, "MONITOR_EGR_B1", .monitor⟩,
   ⟨some 6, some 0x32, "MONITOR_EGR_B2", .monitor⟩,
   ⟨some 6, some 0x33, "MONITOR_EGR_B3", .monitor⟩,
   ⟨some 6, some 0x34, "MONITOR_EGR_B4", .monitor⟩,
   ⟨some 6, some 0x35, "MONITOR_VVT_B1", .monitor⟩,
   ⟨some 6, some 0x36, "MONITOR_VVT_B2", .monitor⟩,
   ⟨some 6, some 0x37, "MONITOR_VVT_B3", .monitor⟩,
   ⟨some 6, some 0x38, "MONITOR_VVT_B4", .monitor⟩,
   ⟨some 6, some 0x39, "MONITOR_EVAP_150", .monitor⟩,
   ⟨some 6, some 0x3A, "MONITOR_EVAP_090", .monitor⟩,
   ⟨some 6, some 0x3B, "MONITOR_EVAP_040", .monitor⟩,
   ⟨some 6, some 0x3C, "MONITOR_EVAP_020", .monitor⟩,
   ⟨some 6, some 0x3D, "MONITOR_PURGE_FLOW", .monitor⟩,
   ⟨some 6, some 0x40, "MIDS_C", .bitArray⟩,
   ⟨some 6, some 0x41, "MONITOR_O2_HEATER_B1S1", .monitor⟩,
   ⟨some 6, some 0x42, "MONITOR_O2_HEATER_B1S2", .monitor⟩,
   ⟨some 6, some 0x43, "MONITOR_O2_HEATER_B1S3", .monitor⟩,
   ⟨some 6, some 0x44, "MONITOR_O2_HEATER_B1S4", .monitor⟩,
   ⟨some 6, some 0x45, "MONITOR_O2_HEATER_B2S1", .monitor⟩,
   ⟨some 6, some 0x46, "MONITOR_O2_HEATER_B2S2", .monitor⟩,
   ⟨some 6, some 0x47, "MONITOR_O2_HEATER_B2S3", .monitor⟩,
   ⟨some 6, some 0x48, "MONITOR_O2_HEATER_B2S4", .monitor⟩,
   ⟨some 6, some 0x49, "MONITOR_O2_HEATER_B3S1", .monitor⟩,
   ⟨some 6, some 0x4A, "MONITOR_O2_HEATER_B3S2", .monitor⟩,
   ⟨some 6, some 0x4B, "MONITOR_O2_HEATER_B3S3", .monitor⟩,
   ⟨some 6, some 0x4C, "MONITOR_O2_HEATER_B3S4", .monitor⟩,
   ⟨some 6, some 0x4D, "MONITOR_O2_HEATER_B4S1", .monitor⟩,
   ⟨some 6, some 0x4E, "MONITOR_O2_HEATER_B4S2", .monitor⟩,
   ⟨some 6, some 0x4F, "MONITOR_O2_HEATER_B4S3", .monitor⟩,
   ⟨some 6, some 0x50, "MONITOR_O2_HEATER_B4S4", .monitor⟩,
   ⟨some 6, some 0x60, "MIDS_D", .bitArray⟩,
   ⟨some 6, some 0x61, "MONITOR_HEATED_CATALYST_B1", .monitor⟩,
   ⟨some 6, some 0x62, "MONITOR_HEATED_CATALYST_B2", .monitor⟩,
   ⟨some 6, some 0x63, "MONITOR_HEATED_CATALYST_B3", .monitor⟩,
   ⟨some 6, some 0x64, "MONITOR_HEATED_CATALYST_B4", .monitor⟩,
   ⟨some 6, some 0x71, "MONITOR_SECONDARY_AIR_1", .monitor⟩,
   ⟨some 6, some 0x72, "MONITOR_SECONDARY_AIR_2", .monitor⟩,
   ⟨some 6, some 0x73, "MONITOR_SECONDARY_AIR_3", .monitor⟩,
   ⟨some 6, some 0x74, "MONITOR_SECONDARY_AIR_4", .monitor⟩,
   ⟨some 6, some 0x80, "MIDS_E", .bitArray⟩,
   ⟨some 6, some 0x81, "MONITOR_FUEL_SYSTEM_B1", .monitor⟩,
   ⟨some 6, some 0x82, "MONITOR_FUEL_SYSTEM_B2", .monitor⟩,
   ⟨some 6, some 0x83, "MONITOR_FUEL_SYSTEM_B3", .monitor⟩,
   ⟨some 6, some 0x84, "MONITOR_FUEL_SYSTEM_B4", .monitor⟩,
   ⟨some 6, some 0x85, "MONITOR_BOOST_PRESSURE_B1", .monitor⟩,
   ⟨some 6, some 0x86, "MONITOR_BOOST_PRESSURE_B2", .monitor⟩,
   ⟨some 6, some 0x90, "MONITOR_NOX_ABSORBER_B1", .monitor⟩,
   ⟨some 6, some 0x91, "MONITOR_NOX_ABSORBER_B2", .monitor⟩,
   ⟨some 6, some 0x98, "MONITOR_NOX_CATALYST_B1", .monitor⟩,
   ⟨some 6, some 0x99, "MONITOR_NOX_CATALYST_B2", .monitor⟩,
   ⟨some 6, some 0xA0, "MIDS_F", .bitArray⟩,
   ⟨some 6, some 0xA1, "MONITOR_MISFIRE_GENERAL", .monitor⟩,
   ⟨some 6, some 0xA2, "MONITOR_MISFIRE_CYLINDER_1", .monitor⟩,
   ⟨some 6, some 0xA3, "MONITOR_MISFIRE_CYLINDER_2", .monitor⟩,
   ⟨some 6, some 0xA4, "MONITOR_MISFIRE_CYLINDER_3", .monitor⟩,
   ⟨some 6, some 0xA5, "MONITOR_MISFIRE_CYLINDER_4", .monitor⟩,
   ⟨some 6, some 0xA6, "MONITOR_MISFIRE_CYLINDER_5", .monitor⟩,
   ⟨some 6, some 0xA7, "MONITOR_MISFIRE_CYLINDER_6", .monitor⟩,
   ⟨some 6, some 0xA8, "MONITOR_MISFIRE_CYLINDER_7", .monitor⟩,
   ⟨some 6, some 0xA9, "MONITOR_MISFIRE_CYLINDER_8", .monitor⟩,
   ⟨some 6, some 0xAA, "MONITOR_MISFIRE_CYLINDER_9", .monitor⟩,
   ⟨some 6, some 0xAB, "MONITOR_MISFIRE_CYLINDER_10", .monitor⟩,
   ⟨some 6, some 0xAC, "MONITOR_MISFIRE_CYLINDER_11", .monitor⟩,
   ⟨some 6, some 0xAD, "MONITOR_MISFIRE_CYLINDER_12", .monitor⟩,
   ⟨some 6, some 0xB0, "MONITOR_PM_FILTER_B1", .monitor⟩,
   ⟨some 6, some 0xB1, "MONITOR_PM_FILTER_B2", .monitor⟩,
   ⟨some 7, none, "GET_CURRENT_DTC", .dtcs⟩,
   ⟨some 9, some 0x00, "PIDS_9A", .bitArray⟩,
   ⟨some 9, some 0x01, "VIN_MESSAGE_COUNT", .unit "count"⟩,
   ⟨some 9, some 0x02, "VIN", .string⟩,
   ⟨some 9, some 0x03, "CALIBRATION_ID_MESSAGE_COUNT", .unit "count"⟩,
   ⟨some 9, some 0x04, "CALIBRATION_ID", .string⟩,
   ⟨some 9, some 0x05, "CVN_MESSAGE_COUNT", .unit "count"⟩,
   ⟨some 9, some 0x06, "CVN", .hexString⟩,
   ⟨some 9, some 0x07, "PERF_TRACKING_MESSAGE_COUNT", .open⟩,
   ⟨some 9, some 0x08, "PERF_TRACKING_SPARK", .open⟩,
   ⟨some 9, some 0x09, "ECU_NAME_MESSAGE_COUNT", .open⟩,
   ⟨some 9, some 0x0A, "ECU_NAME", .open⟩,
   ⟨some 9, some 0x0B, "PERF_TRACKING_COMPRESSION", .open⟩]

/-- `docs/Responses.md`:140-145. -/
def docFuel : List String :=
  ["",
   "Open loop due to insufficient engine temperature",
   "Closed loop, using oxygen sensor feedback to determine fuel mix",
   "Open loop due to engine load OR fuel cut due to deceleration",
   "Open loop due to system failure",
   "Closed loop, using at least one oxygen sensor but there is a fault in the feedback system"]

/-- `docs/Responses.md`:155-158. -/
def docAir : List String :=
  ["Upstream",
   "Downstream of catalytic converter",
   "From the outside atmosphere or off",
   "Pump commanded on for diagnostics"]

/-- `docs/Responses.md`:97-111. -/
def docTests : List String :=
  ["MISFIRE_MONITORING",
   "FUEL_SYSTEM_MONITORING",
   "COMPONENT_MONITORING",
   "CATALYST_MONITORING",
   "HEATED_CATALYST_MONITORING",
   "EVAPORATIVE_SYSTEM_MONITORING",
   "SECONDARY_AIR_SYSTEM_MONITORING",
   "OXYGEN_SENSOR_MONITORING",
   "OXYGEN_SENSOR_HEATER_MONITORING",
   "EGR_VVT_SYSTEM_MONITORING",
   "NMHC_CATALYST_MONITORING",
   "NOX_SCR_AFTERTREATMENT_MONITORING",
   "BOOST_PRESSURE_MONITORING",
   "EXHAUST_GAS_SENSOR_MONITORING",
   "PM_FILTER_MONITORING"]

/-- `docs/Responses.md`:194-205. -/
def docTids : List (Nat × String × String) :=
  [(0x01, "RTL_THRESHOLD_VOLTAGE", "Rich to lean sensor threshold voltage"),
   (0x02, "LTR_THRESHOLD_VOLTAGE", "Lean to rich sensor threshold voltage"),
   (0x03, "LOW_VOLTAGE_SWITCH_TIME", "Low sensor voltage for switch time calculation"),
   (0x04, "HIGH_VOLTAGE_SWITCH_TIME", "High sensor voltage for switch time calculation"),
   (0x05, "RTL_SWITCH_TIME", "Rich to lean sensor switch time"),
   (0x06, "LTR_SWITCH_TIME", "Lean to rich sensor switch time"),
   (0x07, "MIN_VOLTAGE", "Minimum sensor voltage for test cycle"),
   (0x08, "MAX_VOLTAGE", "Maximum sensor voltage for test cycle"),
   (0x09, "TRANSITION_TIME", "Time between sensor transitions"),
   (0x0A, "SENSOR_PERIOD", "Sensor period"),
   (0x0B, "MISFIRE_AVERAGE", "Average misfire counts for last ten driving cycles"),
   (0x0C, "MISFIRE_COUNT", "Misfire counts for last/current driving cycles")]

end Spec
