{
 "claims": [
  {
   "property": "C01",
   "status": "proved",
   "theorems": [
    "Vscp.DataCoding.C01_format_byte_fields",
    "Vscp.DataCoding.C01_format_byte_injective",
    "Vscp.DataCoding.C01_format_byte_masked"
   ],
   "note": ""
  },
  {
   "property": "C02",
   "status": "proved",
   "theorems": [
    "Vscp.DataCoding.C02_encode_exact",
    "Vscp.DataCoding.C02_size_exists",
    "Vscp.DataCoding.C02_int32_min_is_undefined"
   ],
   "note": "Values for which the C code is defined; INT32_MIN is shown to be undefined behaviour in C02_int32_min_is_undefined."
  },
  {
   "property": "C03",
   "status": "partial",
   "theorems": [
    "Vscp.DataCoding.C03_roundtrip_violated",
    "Vscp.DataCoding.C03_negative_small_values_decode_wrong",
    "Vscp.DataCoding.C03_roundtrip_partial"
   ],
   "note": "The round trip is false for negative values encoded in one or two bytes (C03_roundtrip_violated); proved for all other values (C03_roundtrip_partial)."
  },
  {
   "property": "C04",
   "status": "proved",
   "theorems": [
    "Vscp.DataCoding.C04_encode_within_buffer",
    "Vscp.DataCoding.C04_encode_refuses_short_buffer"
   ],
   "note": ""
  },
  {
   "property": "C05",
   "status": "proved",
   "theorems": [
    "Vscp.DataCoding.C05_decode_bad_length",
    "Vscp.DataCoding.C05_decode_total",
    "Vscp.DataCoding.C05_decode_value"
   ],
   "note": ""
  },
  {
   "property": "C06",
   "status": "proved",
   "theorems": [
    "Vscp.Util.C06_cyclic_buffer_is_fifo",
    "Vscp.Util.C06_no_slot_is_undefined",
    "Vscp.Util.C06_size_is_truncated"
   ],
   "note": ""
  },
  {
   "property": "C07",
   "status": "partial",
   "theorems": [
    "Vscp.Util.C07_multi_write_violated",
    "Vscp.Util.C07_multi_read_violated",
    "Vscp.Util.C07_multi_write_partial",
    "Vscp.Util.C07_multi_read_partial",
    "Vscp.Util.C07_multi_write_exact",
    "Vscp.Util.C07_multi_read_exact"
   ],
   "note": "False when the transfer crosses the end of the storage (undefined behaviour, C07_multi_*_violated); proved for all transfers that do not. C07_multi_*_exact: undefined behaviour exactly when the transfer crosses the end, after the number of elements given there."
  },
  {
   "property": "C08",
   "status": "proved",
   "theorems": [
    "Vscp.Util.C08_zone_index",
    "Vscp.Util.C08_zone_inside_payload"
   ],
   "note": ""
  },
  {
   "property": "C09",
   "status": "proved",
   "theorems": [
    "Vscp.Transport.C09_loopback_fifo",
    "Vscp.Transport.C09_without_loopback"
   ],
   "note": ""
  },
  {
   "property": "C10",
   "status": "proved",
   "theorems": [
    "Vscp.Transport.C10_transmit_errors"
   ],
   "note": ""
  },
  {
   "property": "C11",
   "status": "proved",
   "theorems": [
    "Vscp.Transport.C11_sent_to_adapter",
    "Vscp.Transport.C11_oversized_refused",
    "Vscp.Transport.C11_looped_back_iff",
    "Vscp.Transport.C11_no_loopback"
   ],
   "note": ""
  },
  {
   "property": "C12",
   "status": "proved",
   "theorems": [
    "Vscp.Ps.C12_packed",
    "Vscp.Ps.C12_partition"
   ],
   "note": ""
  },
  {
   "property": "C13",
   "status": "proved",
   "theorems": [
    "Vscp.Ps.C13_read_after_write",
    "Vscp.Ps.C13_effect",
    "Vscp.Ps.C13_out_of_range",
    "Vscp.Ps.C13_block"
   ],
   "note": ""
  },
  {
   "property": "C14",
   "status": "proved",
   "theorems": [
    "Vscp.DevData.C14_guid",
    "Vscp.DevData.C14_zone",
    "Vscp.DevData.C14_manufacturer",
    "Vscp.DevData.C14_mdfUrl"
   ],
   "note": ""
  },
  {
   "property": "C15",
   "status": "partial",
   "theorems": [
    "Vscp.DevData.C15_family_violated",
    "Vscp.DevData.C15_type_violated",
    "Vscp.DevData.C15_partial",
    "Vscp.DevData.C15_registers_partial"
   ],
   "note": "The configured value is shifted by the byte index instead of 8 times the index (C15_*_violated); proved for byte 0 and for the value 0."
  },
  {
   "property": "C16",
   "status": "proved",
   "theorems": [
    "Vscp.Registers.C16_register_map_complete",
    "Vscp.Registers.C16_register_map",
    "Vscp.Registers.C16_read_event",
    "Vscp.Registers.C16_other_registers"
   ],
   "note": ""
  },
  {
   "property": "C17",
   "status": "proved",
   "theorems": [
    "Vscp.Pages.C17_page_read_event",
    "Vscp.Registers.C17_read",
    "Vscp.Registers.C17_read_event"
   ],
   "note": ""
  },
  {
   "property": "C18",
   "status": "proved",
   "theorems": [
    "Vscp.Registers.C18_write_rejected",
    "Vscp.Registers.C18_write_event",
    "Vscp.Registers.C18_increment_event"
   ],
   "note": ""
  },
  {
   "property": "C19",
   "status": "proved",
   "theorems": [
    "Vscp.Safety.C19_write_protection",
    "Vscp.Safety.C19_event"
   ],
   "note": ""
  },
  {
   "property": "C20",
   "status": "partial",
   "theorems": [
    "Vscp.Registers.C20_rejected",
    "Vscp.Registers.C20_truthful_partial",
    "Vscp.Registers.C20_application",
    "Vscp.Registers.C20_stored",
    "Vscp.Registers.C20_violated_paged",
    "Vscp.Registers.C20_paged_index_exact",
    "Vscp.Registers.C20_paged_data_exact"
   ],
   "note": "False for the paged decision matrix: a write of an out-of-range index is confirmed with a value the register does not hold (C20_violated_paged). Proved for all other registers and configurations. C20_paged_*_exact say for every index what the paged matrix confirms and what it holds."
  },
  {
   "property": "C21",
   "status": "proved",
   "theorems": [
    "Vscp.States.C21_only_in_window",
    "Vscp.States.C21_register",
    "Vscp.States.C21_opens",
    "Vscp.States.C21_restores"
   ],
   "note": ""
  },
  {
   "property": "C22",
   "status": "partial",
   "theorems": [
    "Vscp.Pages.C22_page_read_partial",
    "Vscp.Pages.C22_violated",
    "Vscp.Pages.C22_page_read_exact"
   ],
   "note": "False for register 0xFF of a page, which a page read never reaches (C22_violated). Proved for all requests that end before it. C22_page_read_exact gives the answer to every request, including those which reach 0xFF."
  },
  {
   "property": "C23",
   "status": "partial",
   "theorems": [
    "Vscp.Pages.C23_page_write_partial",
    "Vscp.Pages.C23_ignored",
    "Vscp.Pages.C23_violated_end",
    "Vscp.Pages.C23_violated_select",
    "Vscp.Pages.C23_page_write_exact"
   ],
   "note": "False for register 0xFF (C23_violated_end) and for page writes that run over the page select registers (C23_violated_select). Proved for all others. C23_page_write_exact gives the effect and the answer for every request."
  },
  {
   "property": "C24",
   "status": "proved",
   "theorems": [
    "Vscp.Stream.C24_stream",
    "Vscp.Stream.C24_complete",
    "Vscp.Stream.C24_values"
   ],
   "note": ""
  },
  {
   "property": "C25",
   "status": "proved",
   "theorems": [
    "Vscp.Pages.C25_extended_page_write",
    "Vscp.Pages.C25_ignored"
   ],
   "note": ""
  },
  {
   "property": "C26",
   "status": "proved",
   "theorems": [
    "Vscp.Registers.C26_step",
    "Vscp.Registers.C26_application"
   ],
   "note": ""
  },
  {
   "property": "C27",
   "status": "proved",
   "theorems": [
    "Vscp.Registers.C27_answer",
    "Vscp.Registers.C27_ignored"
   ],
   "note": ""
  },
  {
   "property": "C28",
   "status": "proved",
   "theorems": [
    "Vscp.Registers.C28_answer",
    "Vscp.Registers.C28_ignored",
    "Vscp.Registers.C28_answer_paged"
   ],
   "note": ""
  },
  {
   "property": "C29",
   "status": "proved",
   "theorems": [
    "Vscp.States.C29_handler",
    "Vscp.States.C29_cycle"
   ],
   "note": ""
  },
  {
   "property": "C30",
   "status": "proved",
   "theorems": [
    "Vscp.States.C30_answers",
    "Vscp.States.C30_only_own"
   ],
   "note": ""
  },
  {
   "property": "C31",
   "status": "proved",
   "theorems": [
    "Vscp.Discovery.C31_found_free",
    "Vscp.Discovery.C31_give_up"
   ],
   "note": ""
  },
  {
   "property": "C32",
   "status": "proved",
   "theorems": [
    "Vscp.Discovery.C32_probes",
    "Vscp.Discovery.C32_count",
    "Vscp.Discovery.C32_ends",
    "Vscp.Discovery.C32_ends_any"
   ],
   "note": "C32_ends_any: whatever else is called between the cycles (other than initialisation and start of the discovery)."
  },
  {
   "property": "C33",
   "status": "partial",
   "theorems": [
    "Vscp.Nickname.C33_violated",
    "Vscp.Nickname.C33_valid_nickname_partial",
    "Vscp.SetNick.C33_told_violated",
    "Vscp.SetNick.C33_restored_violated"
   ],
   "note": "False in four ways (C33_violated): assigned 0xFF or 0, factory restore while active, stored 0. Proved for all histories without these. By every active node which is told 0xFF (C33_told_violated) and by every active node whose application restores the factory settings (C33_restored_violated)."
  },
  {
   "property": "C34",
   "status": "proved",
   "theorems": [
    "Vscp.Safety.C34_nickname_stored",
    "Vscp.Safety.C34_power_cycle"
   ],
   "note": ""
  },
  {
   "property": "C35",
   "status": "proved",
   "theorems": [
    "Vscp.Sleep.C35_silent",
    "Vscp.Sleep.C35_leave",
    "Vscp.Sleep.C35_restart"
   ],
   "note": ""
  },
  {
   "property": "C36",
   "status": "proved",
   "theorems": [
    "Vscp.Sleep.C36_once",
    "Vscp.Sleep.C36_requested",
    "Vscp.Sleep.C36_begins",
    "Vscp.Sleep.C36_fresh",
    "Vscp.Sleep.C36_lost"
   ],
   "note": "Holds for every history without startNodeSegmentInit after init; C36_lost shows a history with it in which a later reset is never requested (the flag which remembers the request stays set)."
  },
  {
   "property": "C37",
   "status": "proved",
   "theorems": [
    "Vscp.GuidDrop.C37_only",
    "Vscp.GuidDrop.C37_quiet",
    "Vscp.GuidDrop.C37_drops"
   ],
   "note": "A final frame 3 which does not match itself completes the drop if a matching frame 3 was received before in the same window (example in Props/GuidDrop.lean)."
  },
  {
   "property": "C38",
   "status": "proved",
   "theorems": [
    "Vscp.Drop.C38_plain",
    "Vscp.Drop.C38_options"
   ],
   "note": ""
  },
  {
   "property": "C39",
   "status": "partial",
   "theorems": [
    "Vscp.Time.C39_violated",
    "Vscp.Time.C39_cycle_partial",
    "Vscp.Time.C39_frame_partial",
    "Vscp.Time.C39_switch_partial",
    "Vscp.Time.C39_spacing_partial",
    "Vscp.Time.C39_due_partial"
   ],
   "note": "enableHeartbeat toggles instead of setting (C39_violated). Everything else about period, contents and gating is proved."
  },
  {
   "property": "C40",
   "status": "proved",
   "theorems": [
    "Vscp.Time.C40_cycle",
    "Vscp.Time.C40_set",
    "Vscp.Time.C40_get",
    "Vscp.Time.C40_rate",
    "Vscp.Time.C40_from_start"
   ],
   "note": ""
  },
  {
   "property": "C41",
   "status": "partial",
   "theorems": [
    "Vscp.Alarm.C41_set",
    "Vscp.Alarm.C41_sticky_partial",
    "Vscp.Alarm.C41_read",
    "Vscp.Alarm.C41_violated",
    "Vscp.Alarm.C41_lost",
    "Vscp.Registers.C41_step_violated"
   ],
   "note": "Increment/decrement events for the alarm register clear it unreported (C41_violated), and a lost response loses the alarm (C41_lost). Proved for all other histories. C41_step_violated: increment and decrement do nothing but clear it, in every state."
  },
  {
   "property": "C42",
   "status": "partial",
   "theorems": [
    "Vscp.Time.C42_violated",
    "Vscp.Time.C42_equal",
    "Vscp.Time.C42_changed_partial"
   ],
   "note": "A node that got its nickname from the segment master never reacts to a changed segment (C42_violated). Proved for all other nodes."
  },
  {
   "property": "C43",
   "status": "proved",
   "theorems": [
    "Vscp.States.C43_result"
   ],
   "note": ""
  },
  {
   "property": "C44",
   "status": "proved",
   "theorems": [
    "Vscp.Drop.C44_enters",
    "Vscp.Drop.C44_refuses",
    "Vscp.Drop.C44_only"
   ],
   "note": ""
  },
  {
   "property": "C45",
   "status": "partial",
   "theorems": [
    "Vscp.Safety.C45_frames_partial",
    "Vscp.Safety.C45_violated"
   ],
   "note": "A page write response behind a factory restore in the same page write carries the old nickname (C45_violated). Proved for all other frames of all histories."
  },
  {
   "property": "C46",
   "status": "partial",
   "theorems": [
    "Vscp.Restore.C46_restored_partial",
    "Vscp.Restore.C46_once_partial",
    "Vscp.Restore.C46_violated"
   ],
   "note": "Power loss in the window behind the write of the control flags leaves a partial restore (C46_violated). Proved for all crash points in front of it."
  },
  {
   "property": "C47",
   "status": "partial",
   "theorems": [
    "Vscp.Safety.C47_no_out_of_bounds_partial",
    "Vscp.Safety.C47_violated_uninitialised_rule"
   ],
   "note": "The rule buffer of the next generation decision matrix is used uninitialised (C47_violated_uninitialised_rule). Proved for all histories under the configuration limits of GoodCfg."
  },
  {
   "property": "C48",
   "status": "partial",
   "theorems": [
    "Vscp.DmProps.C48_row_partial",
    "Vscp.DmProps.C48_violated",
    "Vscp.DmProps.C48_row_exact",
    "Vscp.DmProps.C48_cycle_partial"
   ],
   "note": "Zones are taken from the array behind the payload for too short events (C48_violated). Proved for all rows and all events that carry the bytes the row asks for. C48_row_exact / C48_cycle_partial say for every event, also short ones, which rows fire."
  },
  {
   "property": "C49",
   "status": "proved",
   "theorems": [
    "Vscp.DmProps.C49_cycle",
    "Vscp.DmProps.C49_only"
   ],
   "note": ""
  },
  {
   "property": "C50",
   "status": "partial",
   "theorems": [
    "Vscp.DmProps.C50_rows_partial",
    "Vscp.DmProps.C50_single_partial",
    "Vscp.DmProps.C50_violated",
    "Vscp.DmProps.C50_action_violated"
   ],
   "note": "The restore clears only the first ROWS + 7 bytes (C50_violated, C50_action_violated). Proved which rows are cleared, and for a matrix of one row."
  },
  {
   "property": "C51",
   "status": "partial",
   "theorems": [
    "Vscp.DmRegs.C51_claimed_partial",
    "Vscp.DmRegs.C51_write_partial",
    "Vscp.DmRegs.C51_each_partial",
    "Vscp.DmRegs.C51_offset_violated",
    "Vscp.DmRegs.C51_pages_violated",
    "Vscp.DmRegs.C51_collision_violated",
    "Vscp.DmRegs.C51_extension_violated",
    "Vscp.DmRegs.C51_paged"
   ],
   "note": "False for offsets, more than one page and extension rows (C51_*_violated). Proved for a single page and for the paged feature."
  },
  {
   "property": "C52",
   "status": "partial",
   "theorems": [
    "Vscp.NgProps.C52_right_partial",
    "Vscp.NgProps.C52_rules_partial",
    "Vscp.NgProps.C52_violated",
    "Vscp.NgProps.C52_zone_violated"
   ],
   "note": "Mixed AND/OR chains are evaluated right-associatively (C52_violated) and zones are taken from behind the payload (C52_zone_violated). The exact meaning is proved for all rule sets (C52_right_partial), the claimed one for unmixed chains and complete events (C52_rules_partial)."
  },
  {
   "property": "C53",
   "status": "partial",
   "theorems": [
    "Vscp.NgProps.C53_partial",
    "Vscp.NgProps.C53_violated",
    "Vscp.NgProps.C53_zero_exact",
    "Vscp.NgProps.C53_any_violated"
   ],
   "note": "A first rule of size 0 executes uninitialised memory (C53_violated). Proved for all other byte contents. C53_zero_exact / C53_any_violated say what such a rule set does: the content of the buffer is executed as often as rules are announced."
  },
  {
   "property": "C54",
   "status": "partial",
   "theorems": [
    "Vscp.NgRegs.C54_claimed_exact",
    "Vscp.NgRegs.C54_register_exact",
    "Vscp.NgRegs.C54_read_partial",
    "Vscp.NgRegs.C54_write_partial",
    "Vscp.NgRegs.C54_other_partial",
    "Vscp.NgRegs.C54_each_partial",
    "Vscp.NgRegs.C54_index_violated",
    "Vscp.NgRegs.C54_page_violated"
   ],
   "note": "Index truncated to 8 bit: bytes from 256 on have no register, and one page too much is claimed (C54_*_violated). Proved for rule sets below 256 bytes. C54_*_exact give the pages claimed and the byte reached by every register, for every size."
  },
  {
   "property": "C55",
   "status": "proved",
   "theorems": [
    "Vscp.LogProps.C55_frames",
    "Vscp.LogProps.C55_lossless"
   ],
   "note": ""
  },
  {
   "property": "C56",
   "status": "proved",
   "theorems": [
    "Vscp.LogProps.C56_gate",
    "Vscp.LogProps.C56_control",
    "Vscp.LogProps.C56_level",
    "Vscp.LogProps.C56_calls"
   ],
   "note": ""
  },
  {
   "property": "C57",
   "status": "partial",
   "theorems": [
    "Vscp.LogProps.C57_once_partial",
    "Vscp.LogProps.C57_other",
    "Vscp.LogProps.C57_violated",
    "Vscp.LogProps.C57_again_exact",
    "Vscp.LogProps.C57_again_violated"
   ],
   "note": "False: the last received control event is applied again in every later cycle without a received event, so it overrides a later call of the application (C57_violated). Proved as long as the application does not change the logger settings after the event. C57_again_exact says what every such cycle does to the logger; C57_again_violated: a stop or level event always wins."
  },
  {
   "property": "C58",
   "status": "proved",
   "theorems": [
    "Vscp.DrvProps.C58_ids",
    "Vscp.DrvProps.C58_distinct",
    "Vscp.DrvProps.C58_expiry",
    "Vscp.DrvProps.C58_stop",
    "Vscp.DrvProps.C58_independent",
    "Vscp.DrvProps.C58_refines_init",
    "Vscp.DrvProps.C58_refines"
   ],
   "note": ""
  },
  {
   "property": "C59",
   "status": "proved",
   "theorems": [
    "Vscp.DrvProps.C59_manual",
    "Vscp.DrvProps.C59_auto",
    "Vscp.DrvProps.C59_interrupt"
   ],
   "note": ""
  },
  {
   "property": "C60",
   "status": "proved",
   "theorems": [
    "Vscp.CanProps.C60_roundtrip",
    "Vscp.CanProps.C60_onto",
    "Vscp.CanProps.C60_registers",
    "Vscp.CanProps.C60_refused"
   ],
   "note": ""
  },
  {
   "property": "C61",
   "status": "partial",
   "theorems": [
    "Vscp.ClockProps.C61_range",
    "Vscp.ClockProps.C61_set_range",
    "Vscp.ClockProps.C61_advance_partial",
    "Vscp.ClockProps.C61_keeps_partial",
    "Vscp.ClockProps.C61_lost_violated",
    "Vscp.ClockProps.C61_diff_partial",
    "Vscp.ClockProps.C61_diff_violated"
   ],
   "note": "False: with a period which does not divide 1000 the clock loses time at every second (C61_lost_violated); the difference is wrong for most pairs (C61_diff_violated). Proved: the fields stay in range, exact time for periods which divide 1000, and exactly for which pairs the difference is right."
  },
  {
   "property": "C62",
   "status": "partial",
   "theorems": [
    "Vscp.EvtProps.C62_types",
    "Vscp.EvtProps.C62_frame_partial",
    "Vscp.EvtProps.C62_page_violated",
    "Vscp.EvtProps.C62_service_violated",
    "Vscp.EvtProps.C62_interest_violated",
    "Vscp.EvtProps.C62_smallest_violated",
    "Vscp.EvtProps.C62_double_violated"
   ],
   "note": "False for three of the 889 functions (C62_page_violated: out-of-bounds write; C62_service_violated, C62_interest_violated: more than 8 bytes), for the smallest 32 bit value in functions with a normalized integer (C62_smallest_violated: signed overflow) and on platforms with a 4 byte double_t (C62_double_violated: out-of-bounds read). C62_frame_partial proves it for all other functions and all arguments on platforms with 4 byte float_t and 8 byte double_t; exponent -128 excluded."
  },
  {
   "property": "C63",
   "status": "partial",
   "theorems": [
    "Vscp.EvtProps.C63_measurement",
    "Vscp.EvtProps.C63_zoned",
    "Vscp.EvtProps.C63_layout_partial",
    "Vscp.EvtProps.C63_recover_partial",
    "Vscp.EvtProps.C63_level_violated",
    "Vscp.EvtProps.C63_preset_violated",
    "Vscp.EvtProps.C63_datetime_violated",
    "Vscp.EvtProps.C63_drop_violated",
    "Vscp.EvtProps.C63_drop_partial",
    "Vscp.EvtProps.C63_service_partial",
    "Vscp.EvtProps.C63_float_violated"
   ],
   "note": "False for seven of the 889 functions (C63_level_violated, C63_preset_violated, C63_datetime_violated, C63_drop_violated; the three of C62) and for float_t on big-endian platforms (C63_float_violated). Proved for all others and all arguments: layout and recovery of every scalar parameter (C63_layout_partial, C63_recover_partial), normalized integers (C63_measurement, C63_zoned)."
  },
  {
   "property": "C64",
   "status": "partial",
   "theorems": [
    "Vscp.Network.C64_distinct_partial",
    "Vscp.Network.C64_violated"
   ],
   "note": "False: two nodes which probe the same nickname at the same time both take it (C64_violated). Proved: a node does not take the nickname of a node which had it when the probe was sent, if all frames have been seen when it decides (C64_distinct_partial)."
  },
  {
   "property": "C65",
   "status": "partial",
   "theorems": [
    "Vscp.Transport.C65_loopback_size_violated",
    "Vscp.Transport.C65_loopback_lost_violated",
    "Vscp.Transport.C65_loopback_size_partial",
    "Vscp.Transport.C65_room_exact",
    "Vscp.Transport.C65_loopback_exact"
   ],
   "note": "The storage size in bytes is truncated to 8 bit: division by zero or lost events for some configurations (C65_*_violated); proved for storage of at most 255 bytes. C65_room_exact / C65_loopback_exact give the room for every configuration."
  },
  {
   "property": "C66",
   "status": "partial",
   "theorems": [
    "Vscp.CanProps.C66_standard_violated",
    "Vscp.CanProps.C66_remote_violated",
    "Vscp.CanProps.C66_partial"
   ],
   "note": "False: frames with 11 bit identifier become class 0 events (C66_standard_violated), remote frames are not told apart (C66_remote_violated). Proved: every extended frame is delivered as the event of its identifier."
  },
  {
   "property": "C67",
   "status": "partial",
   "theorems": [
    "Vscp.CanProps.C67_partial",
    "Vscp.CanProps.C67_violated"
   ],
   "note": "False for length codes 9 - 15 (C67_violated), provided the controller stores the received code. Proved for all others."
  },
  {
   "property": "C68",
   "status": "proved",
   "theorems": [
    "Vscp.CanProps.C68_attempts"
   ],
   "note": ""
  },
  {
   "property": "C69",
   "status": "partial",
   "theorems": [
    "Vscp.CanProps.C69_partial",
    "Vscp.CanProps.C69_write_violated",
    "Vscp.CanProps.C69_read_violated"
   ],
   "note": "False for every event with data: undefined shifts (C69_write_violated, C69_read_violated). Proved for events without data."
  },
  {
   "property": "C70",
   "status": "partial",
   "theorems": [
    "Vscp.CanProps.C70_range",
    "Vscp.CanProps.C70_eventually_partial",
    "Vscp.CanProps.C70_next_violated"
   ],
   "note": "False: a call looks at one buffer only (C70_next_violated). Proved: only receive buffers are read, and one of 15 calls reads a pending frame."
  },
  {
   "property": "C71",
   "status": "proved",
   "theorems": [
    "Vscp.Network.C71_no_duplicates"
   ],
   "note": "Over networks of any number of complete node models; frames on the way to a node and in its loopback queue count as not seen. No assumption on timing."
  },
  {
   "property": "C72",
   "status": "proved",
   "theorems": [
    "Vscp.SerialProps.C72_fifo",
    "Vscp.SerialProps.C72_order"
   ],
   "note": "Proved without restriction on the interrupt schedule (the reader and the interrupt use different indices)."
  },
  {
   "property": "C73",
   "status": "partial",
   "theorems": [
    "Vscp.SerialProps.C73_reports_partial",
    "Vscp.SerialProps.C73_violated",
    "Vscp.SerialProps.C73_alarm_partial"
   ],
   "note": "A loss between the load and the reset of the flag is not reported (C73_violated); proved if the interrupt does not report a loss there."
  },
  {
   "property": "C74",
   "status": "partial",
   "theorems": [
    "Vscp.SerialProps.C74_once_partial",
    "Vscp.SerialProps.C74_order_partial",
    "Vscp.SerialProps.C74_result_violated",
    "Vscp.SerialProps.C74_order_violated"
   ],
   "note": "The result for a byte written to the data register is 0 although it is sent (C74_result_violated). If the interrupt comes between the check of TXCIE and the storage of the byte, the byte is stuck and overtaken (C74_order_violated). Proved: each byte taken is on the line at most once, nothing is overwritten; order and progress without this interrupt."
  },
  {
   "property": "C75",
   "status": "partial",
   "theorems": [
    "Vscp.SerialProps.C75_complete_partial",
    "Vscp.SerialProps.C75_violated"
   ],
   "note": "The first byte is always sent twice if the transmitter is idle (C75_violated); proved: nothing is missing."
  },
  {
   "property": "C76",
   "status": "partial",
   "theorems": [
    "Vscp.MainProps.C76_rate",
    "Vscp.MainProps.C76_atleast",
    "Vscp.MainProps.C76_zero_violated",
    "Vscp.MainProps.C76_atmost_partial"
   ],
   "note": "A wait of 0 ticks lasts 256 ticks if a tick comes behind the calculation of the end (C76_zero_violated). Proved: rate, lower bound under every schedule, upper bound for n > 0 with three read accesses per tick."
  },
  {
   "property": "C77",
   "status": "partial",
   "theorems": [
    "Vscp.AvrProps.C77_firmware",
    "Vscp.MainProps.C77_only",
    "Vscp.MainProps.C77_once",
    "Vscp.MainProps.C77_exact_partial",
    "Vscp.MainProps.C77_lost_violated",
    "Vscp.MainProps.C77_arm_violated"
   ],
   "note": "AVR: a press is lost if the tick comes between the two read accesses of the main loop (C77_lost_violated). ARM: the state of the button is inverted, an initialisation is started without any press (C77_arm_violated). Proved for AVR: only after 101 ticks, once per press, under every schedule; exactly once without this interrupt. C77_firmware: what the main loop of the AVR example makes of the debounced button."
  },
  {
   "property": "C78",
   "status": "partial",
   "theorems": [
    "Vscp.MainProps.C78_early_partial",
    "Vscp.MainProps.C78_late_partial",
    "Vscp.MainProps.C78_violated"
   ],
   "note": "A timer may expire up to 250 ms too early, because the phase of the period is not considered (C78_violated). Proved: at most 250 ms early under every schedule, at most 249 ms late if the main loop runs in every millisecond."
  },
  {
   "property": "C79",
   "status": "proved",
   "theorems": [
    "Vscp.MainProps.C79_slow",
    "Vscp.MainProps.C79_fast",
    "Vscp.MainProps.C79_steady"
   ],
   "note": ""
  },
  {
   "property": "C80",
   "status": "partial",
   "theorems": [
    "Vscp.PsAccessProps.C80_avr",
    "Vscp.PsAccessProps.C80_core",
    "Vscp.PsAccessProps.C80_arm_partial",
    "Vscp.PsAccessProps.C80_busy_violated",
    "Vscp.PsAccessProps.C80_range_violated",
    "Vscp.PsAccessProps.C80_layout"
   ],
   "note": "AVR: proved for all histories inside of the 4096 bytes. ARM: proved if every write cycle of the EEPROM has ended before the next transfer; violated otherwise (only the first of several bytes arrives), and above address 0xFF."
  },
  {
   "property": "C81",
   "status": "partial",
   "theorems": [
    "Vscp.CanDrvProps.C81_once_partial",
    "Vscp.CanDrvProps.C81_sent_partial",
    "Vscp.CanDrvProps.C81_full",
    "Vscp.CanDrvProps.C81_order_violated",
    "Vscp.CanDrvProps.C81_remote_violated"
   ],
   "note": "Proved: sent exactly once, unchanged, refused only if 14 frames wait. Violated: the order (a later frame takes a lower free message object), and remote frames with 29 bit identifier are sent as data frames."
  },
  {
   "property": "C82",
   "status": "proved",
   "theorems": [
    "Vscp.CanDrvProps.C82_order",
    "Vscp.CanDrvProps.C82_lost",
    "Vscp.CanDrvProps.C82_transfer",
    "Vscp.CanDrvProps.C82_closed"
   ],
   "note": "Order, loss only if the frame in front has not been read, and transfer from node to node, for data frames and remote frames with 11 bit identifier."
  },
  {
   "property": "C83",
   "status": "partial",
   "theorems": [
    "Vscp.CanDrvProps.C83_first_partial",
    "Vscp.CanDrvProps.C83_lost_violated",
    "Vscp.CanDrvProps.C83_corrupt_violated"
   ],
   "note": "Proved up to the first frame which is stored. Violated: reading a frame clears filter and mask; setting a filter changes the identifier of a waiting frame."
  },
  {
   "property": "C84",
   "status": "partial",
   "theorems": [
    "Vscp.Callout.C84_none",
    "Vscp.Callout.C84_frames_partial",
    "Vscp.Callout.C84_nickname_stored",
    "Vscp.Callout.C84_write_protection",
    "Vscp.Callout.C84_no_out_of_bounds_partial",
    "Vscp.Callout.C84_reply",
    "Vscp.Callout.C84_actions",
    "Vscp.Callout.C84_once",
    "Vscp.Callout.C84_reg_none",
    "Vscp.Callout.C84_reg_frames_partial",
    "Vscp.Callout.C84_reg_nickname_stored",
    "Vscp.Callout.C84_reg_write_protection",
    "Vscp.Callout.C84_reg_no_out_of_bounds_partial",
    "Vscp.Callout.C84_reg_read",
    "Vscp.Callout.C84_reg_write",
    "Vscp.Callout.C84_reg_restore_violated",
    "Vscp.Callout.C84_reg_once"
   ],
   "note": "Proved for every sequence of calls other than init and process in each callback, with the limits of C45 and C47 (response behind a factory restore; configurations). The application gets control exactly in its callbacks, once in each (C84_once). The theorems C84_reg_* (C84_reg_once: once in each) add calls in the register functions of the application and in the notifications about idle state, error state, reset and boot loader. Violated there: restoring the factory settings while an extended page read calls the register function does not end the read, which goes on from page 0 and from a node without a nickname (C84_reg_restore_violated). Not modelled: calls in the lamp callback and in the two callbacks of the factory restore itself (these would recurse)."
  },
  {
   "property": "C85",
   "status": "partial",
   "theorems": [
    "Vscp.Probe.C85_no_nickname",
    "Vscp.Probe.C85_discovery_partial",
    "Vscp.Probe.C85_violated"
   ],
   "note": "Proved for every cycle which begins while the node looks for a nickname, and the nickname at any time. Violated in the rest of the cycle in which the discovery begins: a heartbeat which is due is sent with origin 0xFF."
  },
  {
   "property": "C86",
   "status": "proved",
   "theorems": [
    "Vscp.LampState.C86_lamp",
    "Vscp.LampState.C86_active",
    "Vscp.LampState.C86_only"
   ],
   "note": ""
  },
  {
   "property": "C87",
   "status": "proved",
   "theorems": [
    "Vscp.AvrProps.C87_zones",
    "Vscp.AvrProps.C87_read",
    "Vscp.AvrProps.C87_write",
    "Vscp.AvrProps.C87_protected"
   ],
   "note": ""
  },
  {
   "property": "C88",
   "status": "proved",
   "theorems": [
    "Vscp.AvrProps.C88_actions",
    "Vscp.AvrProps.C88_only",
    "Vscp.AvrProps.C88_answered",
    "Vscp.AvrProps.C88_info"
   ],
   "note": ""
  },
  {
   "property": "C89",
   "status": "proved",
   "theorems": [
    "Vscp.AvrProps.C89_actions",
    "Vscp.AvrProps.C89_only",
    "Vscp.AvrProps.C89_pass",
    "Vscp.AvrProps.C89_state"
   ],
   "note": ""
  },
  {
   "property": "C90",
   "status": "proved",
   "theorems": [
    "Vscp.AvrProps.C90_restart",
    "Vscp.AvrProps.C90_never",
    "Vscp.AvrProps.C90_kept",
    "Vscp.AvrProps.C90_time"
   ],
   "note": ""
  },
  {
   "property": "C91",
   "status": "partial",
   "theorems": [
    "Vscp.AvrProps.C91_registers_partial",
    "Vscp.AvrProps.C91_registers_violated",
    "Vscp.AvrProps.C91_matrix",
    "Vscp.AvrProps.C91_rows_violated",
    "Vscp.AvrProps.C91_version",
    "Vscp.AvrProps.C91_events_partial",
    "Vscp.AvrProps.C91_heartbeat_violated"
   ],
   "note": "Violated: twelve of the 18 registers are described with page 0 instead of 1, where writes are lost and reads return 0 (C91_registers_violated), and ten rows are described where the firmware has two (C91_rows_violated). Proved for the other six registers, and for all 16 bytes of the matrix if the page is 1. The heartbeat is described with priority 7 and every second, it has priority 3 and a period of 30 s (C91_heartbeat_violated). Version, boot loader algorithm, buffer size and the events are as described (C91_version, C91_events_partial)."
  },
  {
   "property": "C92",
   "status": "partial",
   "theorems": [
    "Vscp.FlexProps.C92_deaf_violated",
    "Vscp.FlexProps.C92_ignored_violated",
    "Vscp.FlexProps.C92_violated",
    "Vscp.FlexProps.C92_partial",
    "Vscp.FlexProps.C92_send",
    "Vscp.FlexProps.C92_defined",
    "Vscp.FlexProps.C92_no_invented"
   ],
   "note": "The adapter configures its receive buffers for identifier 0 and leaves the masks of the vendor driver, which compare all bits of the identifier: C92_deaf_violated, C92_ignored_violated. C92_partial: a frame with identifier 0 and without data arrives. Sending (C92_send) and no invented events (C92_no_invented) are proved for all histories in which the behaviour is defined (C92_defined; see C69 for events with data)."
  },
  {
   "property": "C93",
   "status": "partial",
   "theorems": [
    "Vscp.NgProps.C93_same",
    "Vscp.NgProps.C93_report_partial",
    "Vscp.NgProps.C93_good",
    "Vscp.NgProps.C93_empty_violated",
    "Vscp.NgProps.C93_large_violated",
    "Vscp.NgProps.C93_next_large_violated",
    "Vscp.NgProps.C93_hidden_violated",
    "Vscp.NgProps.C93_position_violated"
   ],
   "note": "Violated: an empty rule set, or one whose first rule is too large, leaves the last report (C93_empty_violated, C93_large_violated); a rule which is too large is not reported (C93_next_large_violated); a malformed condition behind the point where the result is known is not reported (C93_hidden_violated); the position is counted from the first condition, not from the start of the rule (C93_position_violated). Proved: same actions (C93_same), no error for well-formed rule sets (C93_good), soundness, the number of the rule, and reports of obviously wrong rules for arbitrary bytes (C93_report_partial)."
  },
  {
   "property": "C94",
   "status": "proved",
   "theorems": [
    "Vscp.Network.C94_lowest",
    "Vscp.Network.C94_joins"
   ],
   "note": "C94_lowest: at any time; C94_joins: after enough cycles. One node joins at a time: two which look for a nickname at the same time can choose the same one (C64_violated), which they notice afterwards (C71)."
  },
  {
   "property": "C95",
   "status": "proved",
   "theorems": [
    "Vscp.Wear.C95_event",
    "Vscp.Wear.C95_quiet",
    "Vscp.Wear.C95_calls",
    "Vscp.Wear.C95_start",
    "Vscp.Wear.C95_history",
    "Vscp.Wear.C95_inactive",
    "Vscp.Wear.C95_stopped",
    "Vscp.Wear.C95_segment"
   ],
   "note": ""
  },
  {
   "property": "C96",
   "status": "partial",
   "theorems": [
    "Vscp.ArmProps.C96_lost_violated",
    "Vscp.ArmProps.C96_same_violated",
    "Vscp.ArmProps.C96_kept_partial"
   ],
   "note": "The code violates this: 101 ms behind every power on the node gives up its nickname although nobody touches the button (C96_lost_violated), and, as it hears nothing (C92), it takes the nickname 1, like every other node of this kind (C96_same_violated). Proved: behind that moment the nickname is kept until somebody presses the button."
  },
  {
   "property": "C97",
   "status": "partial",
   "theorems": [
    "Vscp.ArmProps.C97_arm_violated",
    "Vscp.ArmProps.C97_button_partial"
   ],
   "note": "The code violates this: the node asks for the reset, the callback does nothing, and the node is silent for ever (C97_arm_violated). Proved: a press of the button gets it out, in every state. (The AVR example restarts, see C90.)"
  },
  {
   "property": "C98",
   "status": "proved",
   "theorems": [
    "Vscp.ArmProps.C98_update",
    "Vscp.ArmProps.C98_steady"
   ],
   "note": ""
  },
  {
   "property": "C99",
   "status": "proved",
   "theorems": [
    "Vscp.RestartProps.C99_power_loss",
    "Vscp.RestartProps.C99_registers",
    "Vscp.RestartProps.C99_volatile",
    "Vscp.RestartProps.C99_active"
   ],
   "note": "Application registers are covered if the application derives their values from the persistent memory."
  },
  {
   "property": "C100",
   "status": "proved",
   "theorems": [
    "Vscp.ProgramProps.C100_program",
    "Vscp.ProgramProps.C100_confirmed",
    "Vscp.ProgramProps.C100_in_force",
    "Vscp.ProgramProps.C100_restart",
    "Vscp.ProgramProps.C100_row"
   ],
   "note": "Larger matrices and matrices with extension rows can not be programmed correctly at all, see C51."
  },
  {
   "property": "C101",
   "status": "proved",
   "theorems": [
    "Vscp.Gate.C101_gate",
    "Vscp.Gate.C101_off"
   ],
   "note": "The logger functions exist only if the logger is configured; the model has the calls always."
  },
  {
   "property": "C102",
   "status": "proved",
   "theorems": [
    "Vscp.LastWrite.C102_history",
    "Vscp.LastWrite.C102_node",
    "Vscp.LastWrite.C102_read",
    "Vscp.LastWrite.C102_callbacks"
   ],
   "note": "Registers with other behaviour (alarm, page select, device data, decision matrix, application) have their own properties. With callbacks (C102_callbacks) the framework handles the protocol events, i.e. their notification is off: else the application could restore the factory settings or start the discovery between the reception and the write."
  },
  {
   "property": "C103",
   "status": "partial",
   "theorems": [
    "Vscp.PagesUsed.C103_avr",
    "Vscp.PagesUsed.C103_arm_partial",
    "Vscp.PagesUsed.C103_arm_violated"
   ],
   "note": "Holds in the AVR example. The ARM example reports one page, although its decision matrix is on page 1."
  },
  {
   "property": "C104",
   "status": "partial",
   "theorems": [
    "Vscp.Driver.Serial.Port.C104_open_partial",
    "Vscp.Driver.Serial.Port.C104_nine_violated",
    "Vscp.Driver.Serial.Port.C104_rate_violated",
    "Vscp.Driver.Serial.Port.C104_refuses",
    "Vscp.Driver.Serial.Port.C104_get",
    "Vscp.Driver.Serial.Port.C104_start",
    "Vscp.Driver.Serial.Port.C104_again_violated",
    "Vscp.Driver.Serial.Port.C104_close_partial",
    "Vscp.Driver.Serial.Port.C104_other",
    "Vscp.Driver.Serial.Port.C104_closed_violated",
    "Vscp.Driver.Serial.Port.C104_reopen_violated"
   ],
   "note": "Violated: nine data bits are accepted and eight used; 115200 and 230400 baud are off by 2.1 % and 3.6 %; a closed port still sends; a waiting byte is overtaken when the port is closed and opened again; new, smaller buffers keep the old indices. The baud rate is not checked (assumed valid)."
  },
  {
   "property": "C105",
   "status": "proved",
   "theorems": [
    "Vscp.Driver.CanNode.C105_defined",
    "Vscp.Driver.CanNode.C105_in",
    "Vscp.Driver.CanNode.C105_out",
    "Vscp.Driver.CanNode.C105_history",
    "Vscp.Driver.CanNode.C105_paced",
    "Vscp.Driver.CanNode.C105_answer",
    "Vscp.Driver.CanNode.C105_write",
    "Vscp.Driver.CanNode.C105_who",
    "Vscp.Driver.CanNode.C105_keeps",
    "Vscp.Driver.CanNode.C105_possible"
   ],
   "note": "The frames may overtake each other (see the CAN driver properties), so the order on the bus is not claimed. C105_out asks of the events which the application sends that priority and class fit their fields (see the adapter property for the others); those which the framework sends itself are proved to fit. C105_answer, C105_write, C105_who and C105_keeps assume the loopback and the notification of protocol events are off (as in the example); C105_write and C105_who need room for the answer in the controller (14 buffers)."
  },
  {
   "property": "C106",
   "status": "partial",
   "theorems": [
    "Vscp.TimerDrvProps.C106_clock",
    "Vscp.TimerDrvProps.C106_tick_partial",
    "Vscp.TimerDrvProps.C106_drift_violated"
   ],
   "note": "Does not hold: the interrupt stores the preload into the counter instead of adding it, so that each delay of an interrupt is lost for good (C106_drift_violated: n ticks take 1.005 n ms if each interrupt is served half a microsecond late). C106_tick_partial states the exact relation of clocks, calls and lateness for every history; missing is only that the lateness is zero."
  },
  {
   "property": "C107",
   "status": "proved",
   "theorems": [
    "Vscp.Avr.Boot.C107_starts",
    "Vscp.Avr.Boot.C107_watchdog"
   ],
   "note": "The states reached are those in which the histories of the driver and firmware properties begin, so that these are about the program as it starts. The flags of the CAN driver are in C105."
  },
  {
   "property": "C108",
   "status": "partial",
   "theorems": [
    "Vscp.MasterProps.C108_fate_partial",
    "Vscp.MasterProps.C108_asks",
    "Vscp.MasterProps.C108_short_violated"
   ],
   "note": "Does not hold for events which are too short: the size of the event which sets the nickname is not checked by the waiting node, so that it takes what happens to be behind the payload (C108_short_violated). C108_fate_partial is the full statement for histories whose events which set nicknames are complete; C108_asks is how the wait begins."
  },
  {
   "property": "C109",
   "status": "proved",
   "theorems": [
    "Vscp.Sett.C109_history",
    "Vscp.Sett.C109_node",
    "Vscp.Sett.C109_callbacks",
    "Vscp.Sett.C109_registers",
    "Vscp.Sett.C109_power",
    "Vscp.Sett.C109_actions",
    "Vscp.Sett.C109_rules"
   ],
   "note": "The factory settings are those the code restores: it does not clear the whole matrix (C50). Decision matrices over several pages or with extension are not covered here (see C51 and C54 for their registers)."
  },
  {
   "property": "C110",
   "status": "proved",
   "theorems": [
    "Vscp.CanConfig.C110_heard",
    "Vscp.CanConfig.C110_frames",
    "Vscp.CanConfig.C110_stays",
    "Vscp.CanConfig.C110_avr"
   ],
   "note": "Remote frames are left out (their bytes are not those of the bus).  Frames which come faster than the framework runs are covered by `C110_heard`, which speaks of the events heard."
  },
  {
   "property": "C111",
   "status": "proved",
   "theorems": [
    "Vscp.Avr.Sys.C111_firmware",
    "Vscp.Avr.Sys.C111_defined",
    "Vscp.Avr.Sys.C111_lives",
    "Vscp.Avr.Sys.C111_bus",
    "Vscp.Avr.Sys.C111_configured",
    "Vscp.Avr.Sys.C111_possible"
   ],
   "note": "A cycle of the framework, a poll of the software timers and a call of the framework from the main loop are one step each: frames arrive and the controller sends also within a cycle (C102), but the tick interrupts between steps only."
  },
  {
   "property": "C112",
   "status": "proved",
   "theorems": [
    "Vscp.Avr.Sys.C112_time",
    "Vscp.Avr.Sys.C112_span",
    "Vscp.Avr.Sys.C112_told",
    "Vscp.Avr.Sys.C112_reset"
   ],
   "note": "A millisecond is a tick of the timer interrupt (see C106 for its length); as in C111 it passes between steps of the main loop."
  },
  {
   "property": "C113",
   "status": "proved",
   "theorems": [
    "Vscp.Avr.Sys.C113_avr",
    "Vscp.Sett.C113_loss",
    "Vscp.Sett.C113_callbacks",
    "Vscp.Sett.C113_single",
    "Vscp.Sett.C113_restart"
   ],
   "note": "A byte is written as a whole or not at all. As in C109 decision matrix and next generation rules each have a page for themselves, and the configuration is a good one."
  },
  {
   "property": "C114",
   "status": "partial",
   "theorems": [
    "Vscp.SegmentLoss.C114_memory",
    "Vscp.SegmentLoss.C114_partial",
    "Vscp.SegmentLoss.C114_violated"
   ],
   "note": "The code stores the CRC before it removes the nickname (`C114_violated`). `C114_memory` says exactly what can be found in the memory; `C114_partial` has every loss but the one between the two bytes. A byte is written as a whole or not at all."
  },
  {
   "property": "C115",
   "status": "proved",
   "theorems": [
    "Vscp.Avr.Sys.C115_avr",
    "Vscp.NickLoss.C115_nickname",
    "Vscp.NickLoss.C115_segment",
    "Vscp.NickLoss.C115_restart",
    "Vscp.NickLoss.C115_callbacks",
    "Vscp.NickLoss.C115_callbacks_restart"
   ],
   "note": "A byte is written as a whole or not at all. `C115_nickname` and `C115_segment` hold in every state, reachable or not."
  },
  {
   "property": "C116",
   "status": "proved",
   "theorems": [
    "Vscp.StreamBus.C116_stream",
    "Vscp.StreamBus.C116_complete",
    "Vscp.StreamBus.C116_values"
   ],
   "note": "Extends C24, which has histories without protocol events. Registers of the application are reported as the application answers; the alarm register is cleared by the read."
  },
  {
   "property": "C117",
   "status": "partial",
   "theorems": [
    "Vscp.StreamBus.C117_partial",
    "Vscp.StreamBus.C117_violated"
   ],
   "note": "Proved while the node keeps its nickname (`C117_partial`). `C117_violated`: in every cycle in which it changes while a request is running, the node sends the next response under the new nickname, or under 0xFF after it dropped its nickname."
  },
  {
   "property": "C118",
   "status": "proved",
   "theorems": [
    "Vscp.Speech.C118_cycle",
    "Vscp.Speech.C118_calls",
    "Vscp.Speech.C118_history",
    "Vscp.Speech.C118_silent",
    "Vscp.Speech.C118_bus",
    "Vscp.Speech.C118_avr",
    "Vscp.Speech.C118_callbacks",
    "Vscp.Speech.C118_callbacks_history"
   ],
   "note": ""
  },
  {
   "property": "C119",
   "status": "proved",
   "theorems": [
    "Vscp.Avr.Sys.C119_most",
    "Vscp.Avr.Sys.C119_least",
    "Vscp.Avr.Sys.C119_frame",
    "Vscp.Avr.Sys.C119_alone"
   ],
   "note": ""
  },
  {
   "property": "C120",
   "status": "proved",
   "theorems": [
    "Vscp.Ask.C120_sends",
    "Vscp.Driver.CanNode.C120_answers",
    "Vscp.Avr.Sys.C120_example"
   ],
   "note": "For the requests of the table: those about VSCP registers and the matrix; extended page reads (answered over several cycles) are C24, registers of the application and of the matrix are answered as C17, C19 and C21 say. The node has to be active, has to have delivered all frames to the framework, and the answers have to fit into the 14 buffers of the CAN controller; loop-back and notification about protocol events are off."
  },
  {
   "property": "C121",
   "status": "proved",
   "theorems": [
    "Vscp.ReadBack.C121_sends",
    "Vscp.CanConfig.C121_bus",
    "Vscp.Avr.Sys.C121_example"
   ],
   "note": "The handler of the request sends one frame with the values of the settings (C121_sends); with C110 (settings are what the frames make of them) and the exchange of a request and its answer on the bus this gives C121_bus, and for the whole example with its parts C121_example."
  },
  {
   "property": "C122",
   "status": "proved",
   "theorems": [
    "Vscp.CanSegment.C122_in_turn",
    "Vscp.CanSegment.C122_no_duplicates",
    "Vscp.CanSegment.C122_unassigned",
    "Vscp.CanSegment.C122_newcomer"
   ],
   "note": "C122_no_duplicates is C71, and C122_newcomer the partial C64, for nodes with adapter, driver and controller (C105), with callbacks, without order of frames, and with losses of power. C122_in_turn and C122_unassigned derive two of their hypotheses from the order of the moves and from what the others send. Two nodes which probe the same nickname at the same time both take it (C64_violated) and notice it afterwards. Histories in which the adapter does not take an event are not covered."
  },
  {
   "property": "C123",
   "status": "proved",
   "theorems": [
    "Vscp.AvrSegment.C123_no_duplicates",
    "Vscp.AvrSegment.C123_newcomer"
   ],
   "note": "C122 for whole AVR examples, with hypotheses only about the surroundings: that the examples themselves do not assign nicknames, that they keep to the pace and that nothing is undefined is proved. Two examples which probe the same nickname at the same time both take it and notice it afterwards (compare C64_violated). Histories in which the adapter does not take an event are not covered."
  },
  {
   "property": "C124",
   "status": "proved",
   "theorems": [
    "Vscp.Avr.Sys.C124_ends",
    "Vscp.Avr.Sys.C124_alone",
    "Vscp.Avr.Sys.C124_later"
   ],
   "note": "C32 in milliseconds for the whole AVR example. The bound of ten minutes covers 254 probed nicknames which are all in use (2 s each) and any value of the main timer at the beginning. The hypothesis that the adapter takes the events is needed: a probe which is not taken is repeated for ever (C32)."
  },
  {
   "property": "C125",
   "status": "proved",
   "theorems": [
    "Vscp.Avr.Sys.C125_range",
    "Vscp.Avr.Sys.C125_waited",
    "Vscp.Avr.Sys.C125_lowest",
    "Vscp.Avr.Sys.C125_gave_up"
   ],
   "note": "C31 in milliseconds for the whole AVR example. 1.75 s instead of the configured 2 s, because the framework's timers advance in periods of 250 ms, and the first of them may have begun before the probe. An answer which is read in the very cycle in which the example takes the nickname is not looked at (it counts for C123)."
  },
  {
   "property": "C126",
   "status": "proved",
   "theorems": [
    "Vscp.AvrSegment.C126_in_use",
    "Vscp.CanSegment.C126_answers"
   ],
   "note": "The answer may still be on the way when its sender has given up the nickname, so \"at some time before\" cannot be \"at this time\". That a nickname which another example keeps is not taken is C123."
  },
  {
   "property": "C127",
   "status": "proved",
   "theorems": [
    "Vscp.AvrSegment.C127_examples",
    "Vscp.CanSegment.C127_heard",
    "Vscp.CanSegment.C127_no_more"
   ],
   "note": "The frames of one node are on the bus in the order of the message objects of its controller, which is not the order of the events (C104, C105); the theorem says that they are a permutation of its events. Events of the applications must fit into the frame (priority below 8, class below 512); those of the AVR example do."
  },
  {
   "property": "C128",
   "status": "proved",
   "theorems": [
    "Vscp.CanSegment.C128_answered"
   ],
   "note": "How often an answer is heard is not said here; C127 says that nothing is heard twice. Answers of one node may overtake each other (C81)."
  },
  {
   "property": "C129",
   "status": "proved",
   "theorems": [
    "Vscp.AvrSegment.C129_acts",
    "Vscp.CanSegment.C129_heard"
   ],
   "note": "For nodes in general the events must have a place in a frame (priority below 8, class below 512); those of the AVR examples always do."
  },
  {
   "property": "C130",
   "status": "proved",
   "theorems": [
    "Vscp.Avr.Sys.C130_example",
    "Vscp.CanSegment.C130_confirmed",
    "Vscp.SetNick.C130_taken",
    "Vscp.SetNick.C130_others"
   ],
   "note": "The new nickname may be 0xFF, which makes C33 false (C33_told_violated). In the cycle on the CAN bus only the confirmation is claimed, because callbacks of an application may change the state in the same cycle."
  },
  {
   "property": "C131",
   "status": "proved",
   "theorems": [
    "Vscp.AvrSegment.C131_heartbeat"
   ],
   "note": ""
  },
  {
   "property": "C132",
   "status": "proved",
   "theorems": [
    "Vscp.AvrSegment.C132_ends"
   ],
   "note": ""
  },
  {
   "property": "C133",
   "status": "proved",
   "theorems": [
    "Vscp.AvrSegment.C133_finds"
   ],
   "note": ""
  },
  {
   "property": "C134",
   "status": "proved",
   "theorems": [
    "Vscp.Avr.Sys.C134_reason"
   ],
   "note": ""
  },
  {
   "property": "C135",
   "status": "proved",
   "theorems": [
    "Vscp.AvrSegment.C135_cause",
    "Vscp.AvrSegment.C135_kept"
   ],
   "note": ""
  },
  {
   "property": "C136",
   "status": "proved",
   "theorems": [
    "Vscp.AvrSegment.C136_stable"
   ],
   "note": ""
  },
  {
   "property": "C137",
   "status": "proved",
   "theorems": [
    "Vscp.AvrSegment.C137_heartbeats"
   ],
   "note": ""
  },
  {
   "property": "C138",
   "status": "proved",
   "theorems": [
    "Vscp.AvrSegment.C138_power"
   ],
   "note": ""
  },
  {
   "property": "C139",
   "status": "proved",
   "theorems": [
    "Vscp.AvrSegment.C139_return"
   ],
   "note": ""
  },
  {
   "property": "C140",
   "status": "proved",
   "theorems": [
    "Vscp.AvrSegment.C140_online"
   ],
   "note": ""
  }
 ]
}