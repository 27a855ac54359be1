import Verif.Props.Utils
import Verif.Props.Lines
import Verif.Props.Can
import Verif.Props.Legacy
import Verif.Props.EcuMap
import Verif.Props.Commands
import Verif.Props.Sensors
import Verif.Props.Dtc
import Verif.Props.Status
import Verif.Props.Monitor
import Verif.Props.Enums
import Verif.Props.Vin
import Verif.Props.Total
import Verif.Props.Serial
import Verif.Props.Connect
import Verif.Props.Query
import Verif.Props.Header
import Verif.Props.Fast
import Verif.Props.Supported
import Verif.Props.Ports
import Verif.Props.Robust
import Verif.Props.Async
import Verif.Props.EndToEnd
import Verif.Props.Docs
import Verif.Props.Lookup
import Verif.Props.Scan
import Verif.Props.TroubleCodes
import Verif.Props.Optimise
import Verif.Props.Readings
import Verif.Props.Start
import Verif.Props.Sessions
import Verif.Props.Traffic
import Verif.Props.Stateless
import Verif.Props.Erase
import Verif.Props.Verdict
import Verif.Props.AdapterInfo
import Verif.Props.Opening
import Verif.Props.Refine
import Verif.Props.Unconnected
import Verif.Props.Repr
import Verif.Props.Printed
import Verif.Props.Chunks
import Verif.Props.Custom
import Verif.Props.Shown
import Verif.Props.Fine
import Verif.Props.States
import Verif.Props.Units
import Verif.Props.Rounds
import Verif.Props.Raw
import Verif.Props.Works
import Verif.Props.Live
import Verif.Props.Volts
import Verif.Props.Rest
import Verif.Props.FloatText
import Verif.Props.Reading
import Verif.Props.Banks
import Verif.Props.Lost
import Verif.Props.Tracking
import Verif.Props.StopRaises
import Verif.Props.Interleaving
import Verif.Props.Freeze
import Verif.Props.OneCall
import Verif.Props.DtcLetters
import Verif.Props.OptimiseHeaders
import Verif.Props.InForce
import Verif.Props.AsyncActual
import Verif.Props.PendingLegacy
import Verif.Props.CanExact
import Verif.Props.Raises
import Verif.Props.Utf8
import Verif.Props.ShowResponse
import Verif.Props.Identity
import Verif.Props.Names
import Verif.Props.Lesser
import Verif.Props.LowPower
/-!
# The axioms of every property theorem (generated by tools/audit.py)
-/
#print axioms Props.C01_decode_encode
#print axioms Props.C01_unique
#print axioms Props.C01_injective
#print axioms Props.C02_digits
#print axioms Props.C02_roundtrip
#print axioms Props.C02_message_hex
#print axioms Props.C03_twos_comp
#print axioms Props.C03_width_zero
#print axioms Props.C04_text
#print axioms Props.C04_length
#print axioms Props.C04_get
#print axioms Props.C04_outside
#print axioms Props.C04_counts
#print axioms Props.C04_value
#print axioms Props.C04_slice
#print axioms Props.C04_step
#print axioms Props.C04_iter
#print axioms Props.C05_contiguous
#print axioms Props.C05_counted
#print axioms Props.C06_single_frame
#print axioms Props.C06_among_others
#print axioms Props.C07_in_order
#print axioms Props.C07_among_others
#print axioms Props.C07_nonvacuous
#print axioms Props.C08_trackable_order_partial
#print axioms Props.C08_short_any_order_partial
#print axioms Props.C08_refuted
#print axioms Props.C08_exactly
#print axioms Props.C08_refuted_corrupt
#print axioms Props.C09_exact_partial
#print axioms Props.C09_lost_first_partial
#print axioms Props.C09_lost_inner_partial
#print axioms Props.C09_duplicate_partial
#print axioms Props.C09_refuted
#print axioms Props.C09_refuted_corrupt
#print axioms Props.C09_outcome
#print axioms Props.C09_outcome_total
#print axioms Props.C10_sound
#print axioms Props.C10_has_sender
#print axioms Props.C10_exact
#print axioms Props.C10_unique
#print axioms Props.C11_interleaving
#print axioms Props.C11_own_lines
#print axioms Props.C11_noninterference
#print axioms Props.C11_raises_iff
#print axioms Props.C11_order
#print axioms Props.C12_chatter
#print axioms Props.C13_malformed
#print axioms Props.C13_digits
#print axioms Props.C14_can_exact
#print axioms Props.C14_can_partial
#print axioms Props.C14_legacy_exact
#print axioms Props.C14_unknown
#print axioms Props.C14_refuted_can
#print axioms Props.C14_refuted_legacy
#print axioms Props.C14_exact
#print axioms Props.C15_single
#print axioms Props.C15_segmented
#print axioms Props.C15_any
#print axioms Props.C16_single_line
#print axioms Props.C16_text
#print axioms Props.C17_any_order
#print axioms Props.C17_no_raise
#print axioms Props.C18_mixed_modes_partial
#print axioms Props.C18_bad_order_bytes_partial
#print axioms Props.C18_exact_partial
#print axioms Props.C18_lost_inner_partial
#print axioms Props.C18_refuted
#print axioms Props.C19_dtc_lines
#print axioms Props.C20_engine_partial
#print axioms Props.C20_no_answer
#print axioms Props.C20_raises
#print axioms Props.C20_refuted
#print axioms Props.C21_tags
#print axioms Props.C21_unseen
#print axioms Props.C22_messages
#print axioms Props.C22_null
#print axioms Props.C23_custom
#print axioms Props.C23_size
#print axioms Props.C23_data
#print axioms Props.C24_eq
#print axioms Props.C24_equivalence
#print axioms Props.C24_hash
#print axioms Props.C24_clone
#print axioms Props.C25_hex
#print axioms Props.C25_other
#print axioms Props.C26_has_pid
#print axioms Props.C26_position
#print axioms Props.C26_mode2
#print axioms Props.C26_distinct
#print axioms Props.C26_names
#print axioms Props.C26_by_name
#print axioms Props.C27_raises_iff_partial
#print axioms Props.C27_total_partial
#print axioms Props.C27_refuted
#print axioms Props.C28_range_partial
#print axioms Props.C28_accuracy
#print axioms Props.C28_evap_partial
#print axioms Props.C28_inject_fuel_partial
#print axioms Props.C28_pid
#print axioms Props.C28_refuted
#print axioms Props.C29_strict_partial
#print axioms Props.C29_function
#print axioms Props.C29_refuted
#print axioms Props.C30_linear
#print axioms Props.C30_exact
#print axioms Props.C30_monotone
#print axioms Props.C30_nonneg
#print axioms Props.C30_minimum
#print axioms Props.C30_any_bit
#print axioms Props.C30_decoder
#print axioms Props.C31_unambiguous
#print axioms Props.C31_single_partial
#print axioms Props.C31_length
#print axioms Props.C31_refuted
#print axioms Props.C32_concatenated
#print axioms Props.C32_even_partial
#print axioms Props.C32_refuted
#print axioms Props.C33_decimal_partial
#print axioms Props.C33_refuted
#print axioms Props.C33_letters_partial
#print axioms Props.C33_lists_partial
#print axioms Props.C34_status
#print axioms Props.C34_commands
#print axioms Props.C35_by_tid
#print axioms Props.C35_by_name
#print axioms Props.C35_passed
#print axioms Props.C35_null
#print axioms Props.C35_list
#print axioms Props.C36_fuel_status
#print axioms Props.C36_air_status_partial
#print axioms Props.C36_refuted
#print axioms Props.C36_obd_compliance
#print axioms Props.C36_fuel_type
#print axioms Props.C36_o2_sensors
#print axioms Props.C36_o2_sensors_alt
#print axioms Props.C36_aux_input
#print axioms Props.C37_vin_partial
#print axioms Props.C37_kept_partial
#print axioms Props.C37_refuted
#print axioms Props.C38_cvn_partial
#print axioms Props.C38_legacy_partial
#print axioms Props.C38_kept_partial
#print axioms Props.C38_any_partial
#print axioms Props.C38_several_refuted
#print axioms Props.C38_refuted
#print axioms Props.C39_lines
#print axioms Props.C39_clean
#print axioms Props.C39_unique
#print axioms Props.C39_chunks
#print axioms Props.C39_prompt
#print axioms Props.C39_timeout
#print axioms Props.C40_lost
#print axioms Props.C40_construct
#print axioms Props.C40_stays
#print axioms Props.C40_null
#print axioms Props.C40_open
#print axioms Props.C41_partial
#print axioms Props.C41_port
#print axioms Props.C41_refuted
#print axioms Props.C42_requested
#print axioms Props.C42_unknown
#print axioms Props.C42_automatic
#print axioms Props.C43_detection
#print axioms Props.C43_found
#print axioms Props.C43_connected
#print axioms Props.C44_no_prompt
#print axioms Props.C44_query
#print axioms Props.C44_sleep
#print axioms Props.C45_unconnected
#print axioms Props.C45_unsupported
#print axioms Props.C45_mode06
#print axioms Props.C46_lines
#print axioms Props.C46_last
#print axioms Props.C47_refuted
#print axioms Props.C47_refuted_power
#print axioms Props.C47_partial
#print axioms Props.C48_refuted
#print axioms Props.C48_refuted_ten
#print axioms Props.C48_partial
#print axioms Props.C48_once_partial
#print axioms Props.C49_refuted
#print axioms Props.C49_partial
#print axioms Props.C49_any_partial
#print axioms Props.C50_names
#print axioms Props.C50_supported
#print axioms Props.C50_sound
#print axioms Props.C51_refuted
#print axioms Props.C51_refuted_car
#print axioms Props.C51_actual
#print axioms Props.C51_partial
#print axioms Props.C51_given
#print axioms Props.C52_partial
#print axioms Props.C52_succeeds
#print axioms Props.C52_refuted
#print axioms Props.C53_raises_partial
#print axioms Props.C53_table_exact
#print axioms Props.C53_partial
#print axioms Props.C53_table_partial
#print axioms Props.C53_refuted
#print axioms Props.C53_refuted_unplugged
#print axioms Props.C54_frozen
#print axioms Props.C54_refuted
#print axioms Props.C54_partial
#print axioms Props.C55_refuted
#print axioms Props.C55_partial
#print axioms Props.C55_any_partial
#print axioms Props.C55_query_local
#print axioms Props.C55_source
#print axioms Props.C55_exact_partial
#print axioms Props.C56_refuted
#print axioms Props.C56_fired_partial
#print axioms Props.C56_all_partial
#print axioms Props.C56_once
#print axioms Props.C56_exact_partial
#print axioms Props.C57_refuted
#print axioms Props.C57_partial
#print axioms Props.C57_exact_partial
#print axioms Props.C58_refuted
#print axioms Props.C58_partial
#print axioms Props.C58_exact_partial
#print axioms Props.C58_call_partial
#print axioms Props.C58_bound_partial
#print axioms Props.C59_one
#print axioms Props.C59_final
#print axioms Props.C60_refuted
#print axioms Props.C60_partial
#print axioms Props.C60_start
#print axioms Props.C60_ends
#print axioms Props.C60_returns_partial
#print axioms Props.C60_raises_partial
#print axioms Props.C61_partial
#print axioms Props.C61_rpm_partial
#print axioms Props.C61_sensor_partial
#print axioms Props.C61_refuted
#print axioms Props.C62_fresh
#print axioms Props.C62_partial
#print axioms Props.C62_refuted
#print axioms Props.C63_refuted
#print axioms Props.C63_partial
#print axioms Props.C63_closed
#print axioms Props.C63_failed
#print axioms Props.C63_lost_partial
#print axioms Props.C63_no_port_partial
#print axioms Props.C65_calibration_partial
#print axioms Props.C65_refuted
#print axioms Props.C64_rows_partial
#print axioms Props.C64_freeze
#print axioms Props.C64_bytes_partial
#print axioms Props.C64_documented_partial
#print axioms Props.C64_refuted
#print axioms Props.C66_getitem
#print axioms Props.C66_has_name
#print axioms Props.C66_has_command
#print axioms Props.C66_getitem_int
#print axioms Props.C66_base_commands
#print axioms Props.C66_len_refuted
#print axioms Props.C66_len_partial
#print axioms Props.C67_refuted
#print axioms Props.C67_partial
#print axioms Props.C67_other
#print axioms Props.C68_stored_codes
#print axioms Props.C69_legacy_partial
#print axioms Props.C69_partial
#print axioms Props.C69_refuted
#print axioms Props.C70_text
#print axioms Props.C70_refuted
#print axioms Props.C70_partial
#print axioms Props.C70_codes_partial
#print axioms Props.C71_partial
#print axioms Props.C71_refuted
#print axioms Props.C71_refuted_late
#print axioms Props.C71_headers_partial
#print axioms Props.C72_check_engine
#print axioms Props.C73_partial
#print axioms Props.C73_refuted
#print axioms Props.C74_partial
#print axioms Props.C74_refuted
#print axioms Props.C75_any_partial
#print axioms Props.C75_partial
#print axioms Props.C75_refuted
#print axioms Props.C76_partial
#print axioms Props.C76_sturdy
#print axioms Props.C76_open_escapes
#print axioms Props.C76_refuted
#print axioms Props.C76_unplugged_refuted
#print axioms Props.C76_reply_refuted
#print axioms Props.C76_ecus_refuted
#print axioms Props.C77_status_text
#print axioms Props.C77_fixed
#print axioms Props.C78_exact
#print axioms Props.C78_partial
#print axioms Props.C78_refuted
#print axioms Props.C78_raised_refuted
#print axioms Props.C79_calls
#print axioms Props.C79_construct
#print axioms Props.C80_stateless
#print axioms Props.C81_never_partial
#print axioms Props.C81_connecting_partial
#print axioms Props.C81_partial
#print axioms Props.C81_refuted
#print axioms Props.C81_start_refuted
#print axioms Props.C82_verdict
#print axioms Props.C83_available
#print axioms Props.C83_version
#print axioms Props.C83_voltage
#print axioms Props.C84_asks
#print axioms Props.C85_refines
#print axioms Props.C85_delivered
#print axioms Props.C85_rpm
#print axioms Props.C86_repr
#print axioms Props.C86_injective
#print axioms Props.C86_equal
#print axioms Props.C87_report
#print axioms Props.C87_missing
#print axioms Props.C88_chunks
#print axioms Props.C88_async
#print axioms Props.C89_forced
#print axioms Props.C89_added
#print axioms Props.C89_decoder
#print axioms Props.C89_default_refuted
#print axioms Props.C89_default_partial
#print axioms Props.C90_command
#print axioms Props.C90_print
#print axioms Props.C90_tests
#print axioms Props.C90_apart_refuted
#print axioms Props.C90_apart_partial
#print axioms Props.C90_alike
#print axioms Props.C91_one_at_a_time
#print axioms Props.C91_constructor
#print axioms Props.C91_async_partial
#print axioms Props.C91_exclusive_partial
#print axioms Props.C91_atomic_partial
#print axioms Props.C91_refuted
#print axioms Props.C91_exclusive_refuted
#print axioms Props.C92_states
#print axioms Props.C93_identification
#print axioms Props.C94_stable
#print axioms Props.C94_none
#print axioms Props.C94_freeze
#print axioms Props.C94_sensor
#print axioms Props.C95_rounds
#print axioms Props.C95_once
#print axioms Props.C95_subscribed
#print axioms Props.C96_refreshed
#print axioms Props.C97_raw
#print axioms Props.C97_raw_unknown
#print axioms Props.C97_reparse
#print axioms Props.C97_query
#print axioms Props.C98_status
#print axioms Props.C98_returns
#print axioms Props.C98_stays
#print axioms Props.C99_subscribed
#print axioms Props.C99_sensor
#print axioms Props.C99_states
#print axioms Props.C99_check_engine
#print axioms Props.C99_trouble_codes
#print axioms Props.C100_float
#print axioms Props.C100_reading
#print axioms Props.C100_voltage
#print axioms Props.C100_ignition
#print axioms Props.C100_garbage
#print axioms Props.C101_engine
#print axioms Props.C102_ends_partial
#print axioms Props.C102_only
#print axioms Props.C102_ends_refuted
#print axioms Props.C103_partial
#print axioms Props.C103_refuted
#print axioms Props.C104_quiet
#print axioms Props.C104_silent
#print axioms Props.C104_ends
#print axioms Props.C105_text
#print axioms Props.C105_ascii
#print axioms Props.C105_encoded
#print axioms Props.C105_noise
#print axioms Props.C105_lines
#print axioms Props.C105_command
#print axioms Props.C106_codes
#print axioms Props.C106_pair
#print axioms Props.C106_banks
#print axioms Props.C106_bytes
#print axioms Props.C106_bits
#print axioms Props.C106_plain
#print axioms Props.C106_monitor
#print axioms Props.C107_messages
#print axioms Props.C107_refuted
#print axioms Props.C107_replies_partial
#print axioms Props.C107_same_partial
#print axioms Props.C108_partial
#print axioms Props.C108_before_close
#print axioms Props.C108_passed_back
#print axioms Props.C108_refuted
#print axioms Props.C108_refuted_unplugged
#print axioms Props.C109_obd_partial
#print axioms Props.C109_elm_partial
#print axioms Props.C109_last_partial
#print axioms Props.C109_refuted
