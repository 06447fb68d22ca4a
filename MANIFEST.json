{
 "claims": [
  {
   "property": "C01",
   "status": "partial",
   "theorems": [
    "Uavcan.SatMath.C01_full_statement_fails",
    "Uavcan.SatMath.C01_signed_add_partial",
    "Uavcan.SatMath.C01_signed_add_undefined",
    "Uavcan.SatMath.C01_signed_add_wrapping_partial"
   ],
   "note": "Exact domain given as an iff: fails for 0 + negative in int32_t and wider (undefined; wrong value on wrapping hardware). Refutation of the full statement included."
  },
  {
   "property": "C02",
   "status": "partial",
   "theorems": [
    "Uavcan.SatMath.C02_full_statement_fails",
    "Uavcan.SatMath.C02_signed_sub_partial",
    "Uavcan.SatMath.C02_signed_sub_undefined",
    "Uavcan.SatMath.C02_signed_sub_wrapping_partial"
   ],
   "note": "Exact domain given as an iff: fails for 0 - b, b >= 0, in int32_t and wider. Refutation included."
  },
  {
   "property": "C03",
   "status": "proved",
   "theorems": [
    "Uavcan.SatMath.C03_unsigned_add_sub"
   ],
   "note": "All widths, all operands."
  },
  {
   "property": "C04",
   "status": "partial",
   "theorems": [
    "Uavcan.SatMath.C04_full_statement_fails",
    "Uavcan.SatMath.C04_mixed_add_any_width_partial",
    "Uavcan.SatMath.C04_mixed_add_bool_partial",
    "Uavcan.SatMath.C04_mixed_add_partial"
   ],
   "note": "Exact domain as an iff (equal widths, arbitrary widths, and bool, where it is always right): negative right operands are converted instead of negated. Refutation included."
  },
  {
   "property": "C05",
   "status": "partial",
   "theorems": [
    "Uavcan.SatMath.C05_full_statement_fails",
    "Uavcan.SatMath.C05_mixed_sub_any_width_partial",
    "Uavcan.SatMath.C05_mixed_sub_bool_partial",
    "Uavcan.SatMath.C05_mixed_sub_partial"
   ],
   "note": "As C04."
  },
  {
   "property": "C06",
   "status": "proved",
   "theorems": [
    "Uavcan.Time.C06_duration_order",
    "Uavcan.Time.C06_duration_total",
    "Uavcan.Time.C06_time_order",
    "Uavcan.Time.C06_time_total"
   ],
   "note": "Durations and times."
  },
  {
   "property": "C07",
   "status": "partial",
   "theorems": [
    "Uavcan.Time.C07_duration_arithmetic_partial",
    "Uavcan.Time.C07_duration_laws_partial",
    "Uavcan.Time.C07_full_statement_fails"
   ],
   "note": "Exact domain as an iff; fails when the left operand is zero (inherits C01/C02). Refutation included."
  },
  {
   "property": "C08",
   "status": "proved",
   "theorems": [
    "Uavcan.Time.C08_negation"
   ],
   "note": "Every width."
  },
  {
   "property": "C09",
   "status": "partial",
   "theorems": [
    "Uavcan.Time.C09_full_statement_fails",
    "Uavcan.Time.C09_getAbs_partial"
   ],
   "note": "iff not the minimum. Refutation included."
  },
  {
   "property": "C10",
   "status": "proved",
   "theorems": [
    "Uavcan.Time.C10_accumulate_add",
    "Uavcan.Time.C10_accumulate_monotone",
    "Uavcan.Time.C10_accumulate_sub"
   ],
   "note": "Induction over lists of durations."
  },
  {
   "property": "C11",
   "status": "partial",
   "theorems": [
    "Uavcan.Time.C11_full_statement_fails",
    "Uavcan.Time.C11_negative_duration_partial"
   ],
   "note": "Exact domain as an iff. Refutation included."
  },
  {
   "property": "C12",
   "status": "partial",
   "theorems": [
    "Uavcan.Time.C12_compound",
    "Uavcan.Time.C12_copy",
    "Uavcan.Time.C12_full_statement_fails",
    "Uavcan.Time.C12_history_frame",
    "Uavcan.Time.C12_history_in_range",
    "Uavcan.Time.C12_move_partial",
    "Uavcan.Time.C12_self_move_resets"
   ],
   "note": "Copy, move between distinct objects, compound assignment with any aliasing, and the in-range invariant over all programs; self-move resets the object (refutation included)."
  },
  {
   "property": "C13",
   "status": "proved",
   "theorems": [
    "Uavcan.Can.C13_length_to_dlc_least"
   ],
   "note": "Complete table decided and lifted to all lengths."
  },
  {
   "property": "C14",
   "status": "proved",
   "theorems": [
    "Uavcan.Can.C14_dlc_round_trip"
   ],
   "note": "Every MTU up to 64."
  },
  {
   "property": "C15",
   "status": "partial",
   "theorems": [
    "Uavcan.Can.C15_full_statement_fails",
    "Uavcan.Can.C15_length_within_mtu_partial",
    "Uavcan.Can.C15_overlong_frame_comparison_undefined"
   ],
   "note": "Upper bound iff the MTU is a CAN FD length; lower bound always. Refutation (MTU 9) included."
  },
  {
   "property": "C16",
   "status": "proved",
   "theorems": [
    "Uavcan.Can.C16_maximum",
    "Uavcan.Can.C16_payload_tables"
   ],
   "note": "Both tables."
  },
  {
   "property": "C17",
   "status": "partial",
   "theorems": [
    "Uavcan.Can.C17_construct_no_timestamp",
    "Uavcan.Can.C17_construct_null",
    "Uavcan.Can.C17_construct_partial",
    "Uavcan.Can.C17_full_statement_fails"
   ],
   "note": "Defined iff the DLC's length fits frame and buffer; contents exact. The constructor does not check the MTU. Refutation included."
  },
  {
   "property": "C18",
   "status": "proved",
   "theorems": [
    "Uavcan.Can.C18_defined_iff",
    "Uavcan.Can.C18_equality",
    "Uavcan.Can.C18_equivalence",
    "Uavcan.Can.C18_overlong_undefined"
   ],
   "note": "For frames whose length is within the MTU (the condition is shown necessary, and invariant by C20)."
  },
  {
   "property": "C19",
   "status": "proved",
   "theorems": [
    "Uavcan.Can.C19_priority_by_id",
    "Uavcan.Can.C19_strict_weak_order"
   ],
   "note": "All frames."
  },
  {
   "property": "C20",
   "status": "proved",
   "theorems": [
    "Uavcan.Can.C20_copy_equal",
    "Uavcan.Can.C20_copy_exact",
    "Uavcan.Can.C20_history"
   ],
   "note": "Induction over programs; MTU a CAN FD length, valid arguments."
  },
  {
   "property": "C21",
   "status": "proved",
   "theorems": [
    "Uavcan.Pool.C21_double_free_breaks_the_pool",
    "Uavcan.Pool.C21_live_blocks_disjoint",
    "Uavcan.Pool.C21_no_double_vend",
    "Uavcan.Pool.C21_use_after_free_breaks_the_pool"
   ],
   "note": "Byte-level pool, every history; necessity of the client's obligation shown (double free, use after free)."
  },
  {
   "property": "C22",
   "status": "proved",
   "theorems": [
    "Uavcan.Pool.C22_fails_iff",
    "Uavcan.Pool.C22_how_it_fails"
   ],
   "note": "Every history and size, any number of spurious compare-exchange failures."
  },
  {
   "property": "C23",
   "status": "proved",
   "theorems": [
    "Uavcan.Pool.C23_lifo",
    "Uavcan.Pool.C23_refines_ideal_stack",
    "Uavcan.Pool.C23_serves_the_rest"
   ],
   "note": "Capacity, LIFO, and refinement to an ideal stack over every program."
  },
  {
   "property": "C24",
   "status": "proved",
   "theorems": [
    "Uavcan.Pool.C24_contents_kept",
    "Uavcan.Pool.C24_only_links",
    "Uavcan.Pool.C24_writes_harmless"
   ],
   "note": "Bytes of live blocks over every program; client writes do not influence the pool; the pool writes nothing but the links at the start of free blocks, and memory never written is zero."
  },
  {
   "property": "C25",
   "status": "partial",
   "theorems": [
    "Uavcan.PoolConc.C25_aba",
    "Uavcan.PoolConc.C25_both_conditions_needed",
    "Uavcan.PoolConc.C25_candidate_condition_tight",
    "Uavcan.PoolConc.C25_full_statement_fails",
    "Uavcan.PoolConc.C25_half_freed_condition_tight",
    "Uavcan.PoolConc.C25_phased_safe_partial",
    "Uavcan.PoolConc.C25_publication_window",
    "Uavcan.PoolConc.C25_race_free_safe_partial",
    "Uavcan.PoolConc.C25_store_not_into_live_partial",
    "Uavcan.PoolConc.C25_usage_exact_partial"
   ],
   "note": "False: ABA and publication-window traces refute it, with one condition each shown insufficient. Safe for any number of threads under the two race-freedom conditions, in particular when allocate never overlaps deallocate. By usage (exact, for every pool): all interleavings are safe iff no thread gives back while a different one allocates at all."
  },
  {
   "property": "C26",
   "status": "proved",
   "theorems": [
    "Uavcan.PoolConc.C26_allocate_alone_finishes",
    "Uavcan.PoolConc.C26_head_changes_only_by_effects",
    "Uavcan.PoolConc.C26_linearizable"
   ],
   "note": "Linearizability to an ideal stack under the race-freedom conditions, any number of threads; solo termination; failed compare-exchange implies progress elsewhere."
  },
  {
   "property": "C27",
   "status": "proved",
   "theorems": [
    "Uavcan.Pool.C27_exceptions_irrelevant",
    "Uavcan.Pool.C27_never_mixed"
   ],
   "note": "Relates both builds over every program, including undefined ones."
  },
  {
   "property": "C28",
   "status": "partial",
   "theorems": [
    "Uavcan.Pool.C28_full_statement_fails",
    "Uavcan.Pool.C28_room_partial"
   ],
   "note": "allocate(n) counts bytes, not objects; exact condition, refutation included."
  },
  {
   "property": "C29",
   "status": "proved",
   "theorems": [
    "Uavcan.Pool.C29_allocators_interchangeable",
    "Uavcan.Pool.C29_null_harmless"
   ],
   "note": "Every program over any number of allocator objects."
  },
  {
   "property": "C30",
   "status": "partial",
   "theorems": [
    "Uavcan.CopyBits.C30_closed_form_partial",
    "Uavcan.CopyBits.C30_correct_iff_partial",
    "Uavcan.CopyBits.C30_full_statement_fails"
   ],
   "note": "False in general: correct for all contents iff whole bytes from offset 0, or exactly the rest of the first byte. The iff, a refutation and the exact result for every offset, length and content are proved."
  },
  {
   "property": "C31",
   "status": "partial",
   "theorems": [
    "Uavcan.CopyBits.C31_closed_form_partial",
    "Uavcan.CopyBits.C31_correct_iff_partial",
    "Uavcan.CopyBits.C31_full_statement_fails"
   ],
   "note": "As C30."
  },
  {
   "property": "C32",
   "status": "partial",
   "theorems": [
    "Uavcan.CopyBits.C32_defined_iff_partial",
    "Uavcan.CopyBits.C32_full_statement_fails",
    "Uavcan.CopyBits.C32_small_offset_partial"
   ],
   "note": "Exact condition for staying in bounds, as an iff, and sufficiency of the stated condition for offsets below 8; an offset of 8 or more overruns the destination (refutation included). Termination holds always."
  },
  {
   "property": "C33",
   "status": "proved",
   "theorems": [
    "Uavcan.CopyBits.C33_null_or_zero"
   ],
   "note": "All arguments."
  },
  {
   "property": "C34",
   "status": "partial",
   "theorems": [
    "Uavcan.CopyBits.C34_count_partial",
    "Uavcan.CopyBits.C34_full_statement_fails"
   ],
   "note": "Exact count for every offset and length; it may exceed the length by up to 7 (refutation included)."
  },
  {
   "property": "C35",
   "status": "proved",
   "theorems": [
    "Uavcan.C35_codes",
    "Uavcan.C35_predicates"
   ],
   "note": "All result codes."
  },
  {
   "property": "C36",
   "status": "partial",
   "theorems": [
    "Uavcan.SocketCan.C36_full_statement_fails",
    "Uavcan.SocketCan.C36_rejected_partial",
    "Uavcan.SocketCan.C36_write_result_partial"
   ],
   "note": "Exact for existing interfaces and one to four frames, for every kernel answer. False otherwise: a bad index leaves out_frames_written untouched, more than four frames are undefined behaviour (both proved)."
  },
  {
   "property": "C37",
   "status": "partial",
   "theorems": [
    "Uavcan.SocketCan.C37_full_statement_fails",
    "Uavcan.SocketCan.C37_group_partial",
    "Uavcan.SocketCan.C37_stale_partial",
    "Uavcan.SocketCan.C37_wire_partial"
   ],
   "note": "Identifier, format and payload bytes always right; the transmitted length is right exactly for DLC at most 8, since the DLC is sent in place of the length. Also: CAN FD flags and trailing bytes are stale."
  },
  {
   "property": "C38",
   "status": "proved",
   "theorems": [
    "Uavcan.SocketCan.C38_group_read",
    "Uavcan.SocketCan.C38_read_order"
   ],
   "note": "Every batch, for arbitrary prior state."
  },
  {
   "property": "C39",
   "status": "partial",
   "theorems": [
    "Uavcan.SocketCan.C39_delivered_partial",
    "Uavcan.SocketCan.C39_full_statement_fails",
    "Uavcan.SocketCan.C39_normal_traffic_partial"
   ],
   "note": "False both ways: identifier 0 is dropped, standard and remote frames are delivered. Exact set of delivered identifiers proved."
  },
  {
   "property": "C40",
   "status": "partial",
   "theorems": [
    "Uavcan.SocketCan.C40_content_partial",
    "Uavcan.SocketCan.C40_full_statement_fails"
   ],
   "note": "Identifier and timestamp always right; length and payload exactly for at most 8 bytes, since the length is taken for a DLC."
  },
  {
   "property": "C41",
   "status": "partial",
   "theorems": [
    "Uavcan.SocketCan.C41_full_statement_fails",
    "Uavcan.SocketCan.C41_roundtrip_partial"
   ],
   "note": "Every frame with a non-zero identifier (any DLC); identifier 0 refutes it."
  },
  {
   "property": "C42",
   "status": "partial",
   "theorems": [
    "Uavcan.SocketCan.C42_dropped_iff_partial",
    "Uavcan.SocketCan.C42_full_statement_fails",
    "Uavcan.SocketCan.C42_statistics_partial"
   ],
   "note": "Error counters and rx_total exact over every history; rx_dropped sums cumulative counts (refutation): right exactly if every count reported before the last one was zero (iff)."
  },
  {
   "property": "C43",
   "status": "partial",
   "theorems": [
    "Uavcan.SocketCan.C43_full_statement_fails",
    "Uavcan.SocketCan.C43_timeout_partial",
    "Uavcan.SocketCan.C43_zero_partial"
   ],
   "note": "Exact request for every positive timeout: right exactly for whole seconds (microseconds are passed as nanoseconds); a timeout of zero is undefined behaviour."
  },
  {
   "property": "C44",
   "status": "proved",
   "theorems": [
    "Uavcan.SocketCan.C44_returns",
    "Uavcan.SocketCan.C44_select"
   ],
   "note": "Every group, events, kernel answer and timeout for which select is defined."
  },
  {
   "property": "C45",
   "status": "partial",
   "theorems": [
    "Uavcan.SocketCan.C45_full_statement_fails",
    "Uavcan.SocketCan.C45_reconfigure_partial"
   ],
   "note": "Every group of at most 255 interfaces; with 256 it never returns (proved)."
  },
  {
   "property": "C46",
   "status": "partial",
   "theorems": [
    "Uavcan.SocketCan.C46_empty_partial",
    "Uavcan.SocketCan.C46_filters_partial",
    "Uavcan.SocketCan.C46_full_statement_fails",
    "Uavcan.SocketCan.C46_max_filters_partial",
    "Uavcan.SocketCan.C46_null_partial",
    "Uavcan.SocketCan.C46_remote_partial"
   ],
   "note": "Exact for fewer than 2^29 filters whose masks have bit 29 clear; a mask with bit 29 set accepts no data frame, a null array of more than 512 is dereferenced (both proved)."
  },
  {
   "property": "C47",
   "status": "partial",
   "theorems": [
    "Uavcan.SocketCan.C47_full_statement_fails",
    "Uavcan.SocketCan.C47_no_interfaces_partial",
    "Uavcan.SocketCan.C47_start_partial"
   ],
   "note": "One to 255 required interfaces and no descriptor 0, for every pattern of failures. With 256 required it never returns; descriptor 0 is refused (both proved)."
  },
  {
   "property": "C48",
   "status": "partial",
   "theorems": [
    "Uavcan.SocketCan.C48_failed_start_partial",
    "Uavcan.SocketCan.C48_full_statement_fails"
   ],
   "note": "False: a failed start leaves the previous group in out_group; null afterwards exactly if null before."
  },
  {
   "property": "C49",
   "status": "partial",
   "theorems": [
    "Uavcan.SocketCan.C49_bad_index_partial",
    "Uavcan.SocketCan.C49_count_partial",
    "Uavcan.SocketCan.C49_full_statement_fails",
    "Uavcan.SocketCan.C49_index_partial"
   ],
   "note": "The reported index is the position among the required interfaces; exact condition (iff) for it being the group position; refutation. Names and objects always belong together."
  },
  {
   "property": "C50",
   "status": "partial",
   "theorems": [
    "Uavcan.SocketCan.C50_descriptors_partial",
    "Uavcan.SocketCan.C50_full_statement_fails",
    "Uavcan.SocketCan.C50_no_leak_partial",
    "Uavcan.SocketCan.C50_stop_partial"
   ],
   "note": "Every history of starts and stops: no double close, unique owners, and no leak except of descriptor 0, which is leaked (refutation); full if descriptor 0 is open at the start."
  },
  {
   "property": "C51",
   "status": "proved",
   "theorems": [
    "Uavcan.SocketCan.C51_run_test",
    "Uavcan.SocketCan.C51_sends",
    "Uavcan.SocketCan.C51_start_test"
   ],
   "note": "Every schedule of kernel answers, every group, both modes; returns at the time-out at the latest. start_test is shown to establish the starting state, having sent both frames once on every interface."
  },
  {
   "property": "C52",
   "status": "partial",
   "theorems": [
    "Uavcan.ParseArgs.C52_devices_partial",
    "Uavcan.ParseArgs.C52_full_statement_fails"
   ],
   "note": "False: a second --device NAME constructs a std::string from a null pointer. Exact condition (iff) for a correct parse: all devices but the first use the short form; no device named is always rejected."
  },
  {
   "property": "C53",
   "status": "partial",
   "theorems": [
    "Uavcan.Templates.C53_constant_partial",
    "Uavcan.Templates.C53_declared_partial",
    "Uavcan.Templates.C53_full_statement_fails",
    "Uavcan.Templates.C53_integers_partial",
    "Uavcan.Templates.C53_typed_partial"
   ],
   "note": "False: 1/2 is emitted as an integer division with value 0, and integers from 2^63 on are ill-formed. Exact condition (iff): the value is an integer of magnitude below 2^63. With the conversion to the type of the constant the type must also have the value (iff)."
  },
  {
   "property": "C54",
   "status": "partial",
   "theorems": [
    "Uavcan.Templates.C54_full_statement_fails",
    "Uavcan.Templates.C54_members_partial",
    "Uavcan.Templates.C54_types_partial"
   ],
   "note": "False: only fields of primitive types are emitted, and unions and services have no members. Exact condition (iff) for structures."
  },
  {
   "property": "C55",
   "status": "partial",
   "theorems": [
    "Uavcan.FormatCheck.C55_all_partial",
    "Uavcan.FormatCheck.C55_exact_partial",
    "Uavcan.FormatCheck.C55_exit_status_partial",
    "Uavcan.FormatCheck.C55_full_statement_fails",
    "Uavcan.FormatCheck.C55_rejects_partial"
   ],
   "note": "False: unparsable formatter output passes. Exact (iff) for outputs in the documented format or not XML at all; files with replacements are always rejected."
  },
  {
   "property": "C56",
   "status": "proved",
   "theorems": [
    "Uavcan.Startup.C56_init_data_bss",
    "Uavcan.Startup.C56_needs_order"
   ],
   "note": "Every memory and every layout without overlaps, address by address."
  },
  {
   "property": "C57",
   "status": "partial",
   "theorems": [
    "Uavcan.TestSys.C57_failures_partial",
    "Uavcan.TestSys.C57_full_statement_fails",
    "Uavcan.TestSys.C57_getcwd_partial",
    "Uavcan.TestSys.C57_write_partial",
    "Uavcan.TestSys.C57_write_reads_partial"
   ],
   "note": "False: _write returns 0 instead of the number of bytes, and writing nothing fails. Bytes sent, their order, no overrun, getcwd's bounds and the failing stubs are proved."
  },
  {
   "property": "C58",
   "status": "proved",
   "theorems": [
    "Uavcan.CoreClock.C58_core_clock",
    "Uavcan.CoreClock.C58_rounding"
   ],
   "note": "All register values; no division by zero, no overflow; rounding down twice equals rounding down once."
  },
  {
   "property": "C59",
   "status": "partial",
   "theorems": [
    "Uavcan.SocketCan.C59_exit_status_partial",
    "Uavcan.SocketCan.C59_full_statement_fails",
    "Uavcan.SocketCan.C59_rejected"
   ],
   "note": "False: a device that cannot be opened is ignored and the example still exits with 0. Exact condition (iff) proved for up to 255 devices when descriptor 0 is not handed out."
  },
  {
   "property": "C60",
   "status": "proved",
   "theorems": [
    "Uavcan.SocketCan.C60_sockets_closed"
   ],
   "note": "Whenever main returns, for every argument list and every behaviour of the system calls; also no use after close."
  },
  {
   "property": "C61",
   "status": "proved",
   "theorems": [
    "Uavcan.Startup.C61_layout",
    "Uavcan.Startup.C61_startup"
   ],
   "note": "All section sizes and power-of-two alignments; composed with init_data_bss."
  },
  {
   "property": "C62",
   "status": "partial",
   "theorems": [
    "Uavcan.Startup.C62_fits_partial",
    "Uavcan.Startup.C62_full_statement_fails"
   ],
   "note": "False: the load addresses are not checked against any region; witness: flash full of text plus initialised data. Exact condition (iff) proved."
  },
  {
   "property": "C63",
   "status": "proved",
   "theorems": [
    "Uavcan.CoreClock.C63_80MHz",
    "Uavcan.CoreClock.C63_configured_disabled"
   ],
   "note": "Every prior register content with the PLL not selected, every sequence of status values; the hardware is assumed to apply RCCR's source and divider together."
  },
  {
   "property": "C64",
   "status": "proved",
   "theorems": [
    "Uavcan.TestSys.C64_echo",
    "Uavcan.TestSys.C64_echo_no_overrun",
    "Uavcan.TestSys.C64_no_overrun",
    "Uavcan.TestSys.C64_putchar",
    "Uavcan.TestSys.C64_receive",
    "Uavcan.TestSys.C64_transmit_string"
   ],
   "note": "Every string and every behaviour of the port."
  },
  {
   "property": "C65",
   "status": "partial",
   "theorems": [
    "Uavcan.Templates.C65_full_statement_fails",
    "Uavcan.Templates.C65_guards_partial"
   ],
   "note": "False: the include guard does not contain the version, of two versions only the first is declared. Exact for sets with one version per type, for any injective macrofy."
  },
  {
   "property": "C66",
   "status": "partial",
   "theorems": [
    "Uavcan.SocketCan.C66_bound_then_filtered_partial",
    "Uavcan.SocketCan.C66_configured_partial",
    "Uavcan.SocketCan.C66_full_statement_fails",
    "Uavcan.SocketCan.C66_iff_partial",
    "Uavcan.SocketCan.C66_name_fails"
   ],
   "note": "False where the kernel refuses timestamps, drop counts or error messages (ignored), or a name has a null character (the interface with the name before it is opened); exact iff over all runs. All other settings are exactly those wanted and accepted."
  },
  {
   "property": "C67",
   "status": "partial",
   "theorems": [
    "Uavcan.SocketCan.C67_full_statement_fails",
    "Uavcan.SocketCan.C67_matching_received_partial",
    "Uavcan.SocketCan.C67_only_matching_partial"
   ],
   "note": "False: the socket is bound before its filters are set; a frame arriving in between is received. Proved: all other received frames match, and after the start a frame is received iff it matches (mask without bit 29)."
  },
  {
   "property": "C68",
   "status": "partial",
   "theorems": [
    "Uavcan.SocketCan.C68_after_reconfigure_partial",
    "Uavcan.SocketCan.C68_full_statement_fails"
   ],
   "note": "False: frames received before and not yet read stay. Proved: frames arriving afterwards are received iff they match (mask without bit 29), up to 255 interfaces."
  },
  {
   "property": "C69",
   "status": "proved",
   "theorems": [
    "Uavcan.SocketCan.C69_history",
    "Uavcan.SocketCan.C69_no_messages",
    "Uavcan.SocketCan.C69_times",
    "Uavcan.SocketCan.C69_uninitialised"
   ],
   "note": "Byte-level control buffers and header lengths shared by read and write, for every history and prior buffer content; the kernel's side (put_cmsg, msg_controllen) is Spec/SocketCtl. With stamps on, the interface refines Model/SocketCan."
  },
  {
   "property": "C70",
   "status": "partial",
   "theorems": [
    "Uavcan.SocketCan.C70_full_statement_fails",
    "Uavcan.SocketCan.C70_with_time_stamps_partial",
    "Uavcan.SocketCan.C70_without_time_stamps_partial"
   ],
   "note": "False: the buffer (ControlSize) has room for the time stamp only, so rx_dropped stays 0 with time stamps on. Without time stamps the exact sum is proved: cumulative counts are added up, and lost for good after a message without one."
  },
  {
   "property": "C71",
   "status": "partial",
   "theorems": [
    "Uavcan.SocketCan.C71_control_partial",
    "Uavcan.SocketCan.C71_full_statement_fails",
    "Uavcan.SocketCan.C71_refused_partial"
   ],
   "note": "False: sendmmsg gets the headers with msg_controllen as it is: never-initialised memory at first, later the time stamp of the last message received in that place. Exact content proved; a kernel which checks control data refuses it."
  },
  {
   "property": "C72",
   "status": "proved",
   "theorems": [
    "Uavcan.Boot.C72_before_main"
   ],
   "note": ""
  },
  {
   "property": "C73",
   "status": "proved",
   "theorems": [
    "Uavcan.Boot.C73_core_numbers",
    "Uavcan.Boot.C73_handlers",
    "Uavcan.Boot.C73_own_loops",
    "Uavcan.Boot.C73_stops"
   ],
   "note": "Relies on the linker model of C61; a program's own DefaultISR is not taken by the handlers aliased to the file's own."
  },
  {
   "property": "C74",
   "status": "proved",
   "theorems": [
    "Uavcan.Boot.C74_from_reset_on",
    "Uavcan.Boot.C74_off_at_start",
    "Uavcan.Boot.C74_stays_off"
   ],
   "note": "For a watchdog as described in Spec/Boot: configuration only in a window opened by the unlock word."
  },
  {
   "property": "C75",
   "status": "proved",
   "theorems": [
    "Uavcan.Boot.C75_software_reset"
   ],
   "note": ""
  },
  {
   "property": "C76",
   "status": "partial",
   "theorems": [
    "Uavcan.OnTarget.C76_connected_partial",
    "Uavcan.OnTarget.C76_full_statement_fails",
    "Uavcan.OnTarget.C76_iff_partial",
    "Uavcan.OnTarget.C76_pins_partial",
    "Uavcan.OnTarget.C76_rates_partial"
   ],
   "note": "False if the selectors of pins or clock had other values before: they are or-ed, not set. Exact condition on the earlier values proved (iff), for every byte sequence and timing, both directions, and exactly the rates a terminal may have: 110870 to 121246 (not 9600, as two comments say)."
  },
  {
   "property": "C77",
   "status": "proved",
   "theorems": [
    "Uavcan.OnTarget.C77_clocked",
    "Uavcan.OnTarget.C77_source_changed_off"
   ],
   "note": "Covers main; output by constructors of static variables before main would reach LPUART1 without clock."
  },
  {
   "property": "C78",
   "status": "proved",
   "theorems": [
    "Uavcan.OnTarget.C78_goes_on",
    "Uavcan.OnTarget.C78_terminal",
    "Uavcan.OnTarget.C78_transcript"
   ],
   "note": "Any number of rounds; any output of the tests; results 0 and 1, the only ones RUN_ALL_TESTS returns."
  },
  {
   "property": "C79",
   "status": "partial",
   "theorems": [
    "Uavcan.OnTarget.C79_frequencies_partial",
    "Uavcan.OnTarget.C79_full_statement_fails"
   ],
   "note": "False: flash runs at 26 2/3 MHz and SystemCoreClock stays at its initial 48 MHz, as SystemCoreClockUpdate is never called. Core and bus frequencies proved."
  },
  {
   "property": "C80",
   "status": "partial",
   "theorems": [
    "Uavcan.OnTarget.C80_full_statement_fails",
    "Uavcan.OnTarget.C80_iff_partial",
    "Uavcan.OnTarget.C80_last_partial",
    "Uavcan.OnTarget.C80_order_partial"
   ],
   "note": "False if the oscillator was on before: SOSCCFG is then written while it is on. Exactly then (iff)."
  },
  {
   "property": "C81",
   "status": "partial",
   "theorems": [
    "Uavcan.CopyBits.C81_clean_partial",
    "Uavcan.CopyBits.C81_full_statement_fails",
    "Uavcan.CopyBits.C81_shift_iff_partial"
   ],
   "note": "False: moved bits are or-ed with what the destination held. Exact condition proved (iff); right in particular for destinations whose low bits are zero."
  },
  {
   "property": "C82",
   "status": "partial",
   "theorems": [
    "Uavcan.CopyBits.C82_clean_partial",
    "Uavcan.CopyBits.C82_full_statement_fails",
    "Uavcan.CopyBits.C82_shift_iff_partial"
   ],
   "note": "False: a byte gets back its own low bits instead of those of the byte before. Exact condition proved (iff): all bytes of the source agree in their low offset%8 bits."
  },
  {
   "property": "C83",
   "status": "partial",
   "theorems": [
    "Uavcan.Suite.C83_copies_partial",
    "Uavcan.Suite.C83_frames_partial",
    "Uavcan.Suite.C83_full_statement_fails",
    "Uavcan.Suite.C83_pool_partial",
    "Uavcan.Suite.C83_time_partial"
   ],
   "note": "False for MTUs below 8 (undefined behaviour in the tests) and between CAN FD lengths (a test fails). Proved for everything else; for frames the exact set of MTUs (iff)."
  },
  {
   "property": "C84",
   "status": "partial",
   "theorems": [
    "Uavcan.Suite.C84_compared_catches",
    "Uavcan.Suite.C84_compared_not_enough",
    "Uavcan.Suite.C84_copies_partial",
    "Uavcan.Suite.C84_full_statement_fails",
    "Uavcan.Suite.C84_pool_compared_partial",
    "Uavcan.Suite.C84_pool_no_leak_partial",
    "Uavcan.Suite.C84_pool_partial",
    "Uavcan.Suite.C84_pool_statement_fails"
   ],
   "note": "False: the library's own bit copies pass and are wrong (C30, C31, C81); an allocator that always hands out the same block passes. What passing does imply is proved: counts and refusals for allocators, that no tests make them lose blocks, and what comparing the pointers would add; for bit copies exactly the agreement with right ones at the tests' arguments (iff)."
  },
  {
   "property": "C85",
   "status": "proved",
   "theorems": [
    "Uavcan.Suite.C85_copies",
    "Uavcan.Suite.C85_pool"
   ],
   "note": "For copies and pools; right implementations are shown to exist."
  },
  {
   "property": "C86",
   "status": "partial",
   "theorems": [
    "Uavcan.MathTest.C86_exact_partial",
    "Uavcan.MathTest.C86_full_statement_fails",
    "Uavcan.MathTest.C86_library_partial",
    "Uavcan.MathTest.C86_library_wrapping_partial"
   ],
   "note": "False: SaturatingAddMaxMinPlusOne asks for a wrong sum at mixed types, so exact operations fail; SaturatingSubMaxFromZero runs into undefined behaviour of the library for int32_t and int64_t. Exact conditions proved."
  },
  {
   "property": "C87",
   "status": "partial",
   "theorems": [
    "Uavcan.Stl.C87_exact_partial",
    "Uavcan.Stl.C87_full_statement_fails",
    "Uavcan.Stl.C87_no_block_left",
    "Uavcan.Stl.C87_scarce_partial",
    "Uavcan.Stl.C87_vector_partial"
   ],
   "note": "False: allocate counts elements against BlockSize, which is in bytes, so vectors of larger elements overrun their block. Proved exactly when BlockSize elements fit one block (iff), for every growth policy."
  },
  {
   "property": "C88",
   "status": "partial",
   "theorems": [
    "Uavcan.Stl.C88_behaviour_partial",
    "Uavcan.Stl.C88_exact_partial",
    "Uavcan.Stl.C88_full_statement_fails",
    "Uavcan.Stl.C88_libstdcxx_partial",
    "Uavcan.Stl.C88_map_partial",
    "Uavcan.Stl.C88_thirty_elements"
   ],
   "note": "False: the bucket array is asked for in pointers and granted by number, so it overruns its block. Proved exactly when the pointers fit (iff), for every rehash policy; for libstdc++ in closed form, and no pool on a 64-bit machine can hold a map of 30 elements."
  },
  {
   "property": "C89",
   "status": "partial",
   "theorems": [
    "Uavcan.Stl.C89_board",
    "Uavcan.Stl.C89_full_statement_fails",
    "Uavcan.Stl.C89_lost_blocks",
    "Uavcan.Stl.C89_map_libstdcxx_partial",
    "Uavcan.Stl.C89_map_partial",
    "Uavcan.Stl.C89_ten_bytes",
    "Uavcan.Stl.C89_vector_partial"
   ],
   "note": "False: on a 64-bit machine with libstdc++ the map test overruns the minimal pool and loses the free list. Vector tests always pass; map test iff four blocks are free and 13 pointers fit a block."
  },
  {
   "property": "C90",
   "status": "partial",
   "theorems": [
    "Uavcan.CompileTime.C90_assertion_needed",
    "Uavcan.CompileTime.C90_duration_arithmetic_partial",
    "Uavcan.CompileTime.C90_duration_partial",
    "Uavcan.CompileTime.C90_full_statement_fails",
    "Uavcan.CompileTime.C90_layout_partial",
    "Uavcan.CompileTime.C90_names_partial",
    "Uavcan.CompileTime.C90_parameters_partial",
    "Uavcan.CompileTime.C90_time_partial",
    "Uavcan.CompileTime.C90_unsigned_abs_partial",
    "Uavcan.CompileTime.C90_valid_time_partial"
   ],
   "note": "False: std::is_signed admits floating point, and not-signed admits bool, pointers and classes, so durations over double and times over void* can be made; a time whose duration is a time passes everywhere. Exactly what compiles is proved (iff) for durations and times, for every program; also for frames, groups and pools."
  },
  {
   "property": "C91",
   "status": "partial",
   "theorems": [
    "Uavcan.CompileTime.C91_deletion_partial",
    "Uavcan.CompileTime.C91_exact_partial",
    "Uavcan.CompileTime.C91_full_statement_fails",
    "Uavcan.CompileTime.C91_ninja_fails",
    "Uavcan.CompileTime.C91_passes_partial",
    "Uavcan.CompileTime.C91_tool_partial"
   ],
   "note": "False: nothing tests the two assertions of the pool allocator, and the tests of groups and of sizes pass for other reasons with some compilers; with a build tool that has no --always-make (Ninja) every test passes whatever the library is. Exactly which versions of the library pass is proved (iff)."
  },
  {
   "property": "C92",
   "status": "partial",
   "theorems": [
    "Uavcan.BuildConfig.C92_assert_default_partial",
    "Uavcan.BuildConfig.C92_assert_partial",
    "Uavcan.BuildConfig.C92_exceptions_partial",
    "Uavcan.BuildConfig.C92_flags_partial",
    "Uavcan.BuildConfig.C92_full_statement_fails",
    "Uavcan.BuildConfig.C92_options_partial",
    "Uavcan.BuildConfig.C92_trace_default_partial",
    "Uavcan.BuildConfig.C92_trace_partial"
   ],
   "note": "False: in a debug build that says nothing of exceptions assertions are on even if switched off, in one with exceptions they are off, ON counts as off, CMAKE_CXX_FLAGS is discarded. Exactly when each option takes effect is proved (iff)."
  },
  {
   "property": "C93",
   "status": "partial",
   "theorems": [
    "Uavcan.BuildConfig.C93_agrees_partial",
    "Uavcan.BuildConfig.C93_exact_partial",
    "Uavcan.BuildConfig.C93_full_statement_fails",
    "Uavcan.BuildConfig.C93_language",
    "Uavcan.BuildConfig.C93_shipped_partial",
    "Uavcan.BuildConfig.C93_version"
   ],
   "note": "False for flags that enable exceptions and disable them later, and for compilers without feature macros. Exactly when it holds is proved (iff), and that it holds for the flag sets of the repository with every compiler."
  },
  {
   "property": "C94",
   "status": "partial",
   "theorems": [
    "Uavcan.BuildScripts.C94_full_statement_fails",
    "Uavcan.BuildScripts.C94_link_partial",
    "Uavcan.BuildScripts.C94_lookup_partial",
    "Uavcan.BuildScripts.C94_rest_partial"
   ],
   "note": "False: no lookup directory ever reaches the generator (the first is skipped, the others garbled), and the Linux example is not linked with the generated types. What is passed is proved exactly; files are all passed on."
  },
  {
   "property": "C95",
   "status": "partial",
   "theorems": [
    "Uavcan.BuildScripts.C95_board_intended",
    "Uavcan.BuildScripts.C95_board_partial",
    "Uavcan.BuildScripts.C95_full_statement_fails",
    "Uavcan.BuildScripts.C95_green_partial",
    "Uavcan.BuildScripts.C95_means_partial",
    "Uavcan.BuildScripts.C95_only_partial",
    "Uavcan.BuildScripts.C95_run_partial",
    "Uavcan.BuildScripts.C95_stop_partial"
   ],
   "note": "False: the tests with exceptions and the Linux example are run by no step, and the test on the board never fetches the binaries of the build. Exactly what green means is proved (iff)."
  },
  {
   "property": "C96",
   "status": "partial",
   "theorems": [
    "Uavcan.Templates.C96_class_partial",
    "Uavcan.Templates.C96_exact_partial",
    "Uavcan.Templates.C96_full_statement_fails",
    "Uavcan.Templates.C96_keywords"
   ],
   "note": "False: names that are keywords of C++ (a namespace `register`, a field `delete`), macros of `<cstdint>` (a constant `INT8_MAX`) or types the header uses (a field `uint8_t`), a constant with the name of its type or of the include guard, and constants from 2^63 on are rejected. Exactly which headers compile is proved (iff)."
  },
  {
   "property": "C97",
   "status": "partial",
   "theorems": [
    "Uavcan.PoolRace.C97_allocate_partial",
    "Uavcan.PoolRace.C97_full_statement_fails",
    "Uavcan.PoolRace.C97_give_back",
    "Uavcan.PoolRace.C97_handover",
    "Uavcan.PoolRace.C97_lock_partial",
    "Uavcan.PoolRace.C97_overlap",
    "Uavcan.PoolRace.C97_serial_partial"
   ],
   "note": "False in every pool: deallocate stores the link after it has published the block, so that a later allocate of another thread reads it unordered, even if the calls do not overlap; and two overlapping allocates race with the first use of the block. Proved: no race and no wild pointer if calls are ordered by happens-before, in particular under a lock, for every number of threads; and exactly when an undisturbed allocate races (iff)."
  },
  {
   "property": "C98",
   "status": "partial",
   "theorems": [
    "Uavcan.SocketCan.C98_defined_partial",
    "Uavcan.SocketCan.C98_full_statement_fails",
    "Uavcan.SocketCan.C98_read_partial",
    "Uavcan.SocketCan.C98_stale"
   ],
   "note": "False: the loop checks msg_controllen instead of the length of the control message, so that a time stamp without data takes stale bytes for the time, and behind an empty message it reads outside the buffer. Proved: right for every sequence of control messages whose time stamps and drop counts are complete; exactly which control data (of any kind) lead to undefined behaviour (iff); what a short time stamp yields."
  },
  {
   "property": "C99",
   "status": "partial",
   "theorems": [
    "Uavcan.CopyBits.C99_full_statement_fails",
    "Uavcan.CopyBits.C99_low_bits_partial",
    "Uavcan.CopyBits.C99_round_trip_iff_partial"
   ],
   "note": "False for most offsets and lengths: exactly the round trips at offset zero or within one byte give the bits back (iff, all contents). Also proved: which bits come back for every offset below 8 and every length."
  },
  {
   "property": "C100",
   "status": "proved",
   "theorems": [
    "Uavcan.Registers.C100_apart",
    "Uavcan.Registers.C100_fields",
    "Uavcan.Registers.C100_offsets",
    "Uavcan.Registers.C100_other_fields",
    "Uavcan.Registers.C100_reads",
    "Uavcan.Registers.C100_registers_apart",
    "Uavcan.Registers.C100_within"
   ],
   "note": "All 41 kinds of peripherals, 731 registers and structures, 2358 fields, 66 addresses of the header. The structure of the system control block covers the interrupt controller and the system timer; their documented registers are apart."
  },
  {
   "property": "C101",
   "status": "partial",
   "theorems": [
    "Uavcan.Registers.C101_assigned",
    "Uavcan.Registers.C101_cleared_partial",
    "Uavcan.Registers.C101_full_statement_fails",
    "Uavcan.Registers.C101_or_partial",
    "Uavcan.Registers.C101_spll_partial",
    "Uavcan.Registers.C101_startup"
   ],
   "note": "False: the old bits of the field stay. Proved: it holds x exactly if the old value has no bits x has not (iff, every field); other fields keep their values; after clearing with the mask it does hold x; exactly when the PLL's dividers are as commented (iff); what the set-up and start-up code assign decodes, with the names of the header, to what the comments say."
  },
  {
   "property": "C102",
   "status": "partial",
   "theorems": [
    "Uavcan.CopyBits.C102_aligned_iff_partial",
    "Uavcan.CopyBits.C102_full_statement_fails",
    "Uavcan.CopyBits.C102_in_place_erases",
    "Uavcan.CopyBits.C102_nothing",
    "Uavcan.CopyBits.C102_unaligned_iff_partial"
   ],
   "note": "False: in place with an offset of whole bytes both functions set every byte accessed to zero. Proved: for each function the exact condition on positions, offset and length (iff, all contents) under which overlap makes no difference - in particular always when the destination starts before the source, and never when it starts inside it."
  },
  {
   "property": "C103",
   "status": "partial",
   "theorems": [
    "Uavcan.SocketCan.C103_dead_bus_partial",
    "Uavcan.SocketCan.C103_full_statement_fails",
    "Uavcan.SocketCan.C103_read_partial",
    "Uavcan.SocketCan.C103_socket",
    "Uavcan.SocketCan.C103_write_partial"
   ],
   "note": "False of write: the socket is opened blocking and sendmmsg is called without MSG_DONTWAIT. Proved: read never waits; write waits exactly if the queue gets full before all frames are in (iff), for ever if nothing is transmitted; BufferFull is never returned in that case."
  },
  {
   "property": "C104",
   "status": "partial",
   "theorems": [
    "Uavcan.SocketCan.C104_full_statement_fails",
    "Uavcan.SocketCan.C104_messages_partial",
    "Uavcan.SocketCan.C104_sent_iff_partial"
   ],
   "note": "False: the constructor fixes sizeof(canfd_frame) as size of every message. Proved: with room, write succeeds exactly if CAN FD was enabled and the device has the MTU of CAN FD (iff); otherwise it fails and nothing is sent, and no message ever has the size of a CAN 2.0 frame."
  },
  {
   "property": "C105",
   "status": "partial",
   "theorems": [
    "Uavcan.SocketCan.C105_difference_partial",
    "Uavcan.SocketCan.C105_full_statement_fails",
    "Uavcan.SocketCan.C105_iff_partial"
   ],
   "note": "False: the time stamps are the kernel's time of day. Proved: over every history, differences of time stamps are the time passed plus the changes to the time of day; they never decrease exactly if the clock was never set back by more than the time that passed (iff)."
  },
  {
   "property": "C106",
   "status": "proved",
   "theorems": [
    "Uavcan.PoolConc.C106_condition_needed",
    "Uavcan.PoolConc.C106_once",
    "Uavcan.PoolConc.C106_refines",
    "Uavcan.PoolConc.C106_returns",
    "Uavcan.PoolConc.C106_safe"
   ],
   "note": "Refinement of the pool constructed beforehand (C25, C26) by the lazily constructed one, for both kinds of statics; also that the documented condition is needed with -fno-threadsafe-statics (two threads get the same block). The guard follows the C++ ABI."
  },
  {
   "property": "C107",
   "status": "proved",
   "theorems": [
    "Uavcan.SocketCan.C107_ends",
    "Uavcan.SocketCan.C107_reports",
    "Uavcan.SocketCan.C107_same_result"
   ],
   "note": "Built on C51: the result is that of C51 with the time-out at ten seconds. The number of drops printed is the sum reported by the kernel, which counts drops repeatedly (C42). The clock is taken to be steady, as std::chrono::steady_clock is."
  },
  {
   "property": "C108",
   "status": "partial",
   "theorems": [
    "Uavcan.PoolConc.C108_allocate_partial",
    "Uavcan.PoolConc.C108_bound_reached",
    "Uavcan.PoolConc.C108_deallocate",
    "Uavcan.PoolConc.C108_effects_need_calls_partial",
    "Uavcan.PoolConc.C108_full_statement_fails",
    "Uavcan.PoolConc.C108_never_waits"
   ],
   "note": "deallocate: two accesses, always. allocate: at most three for each block that other threads take or put back meanwhile and for each spurious failure, plus three; the bound is reached for every number of disturbances, in race-free runs, so there is no bound that holds whatever others do. Another thread disturbs at most once per call it makes."
  },
  {
   "property": "C109",
   "status": "partial",
   "theorems": [
    "Uavcan.SocketCan.C109_drained",
    "Uavcan.SocketCan.C109_full_statement_fails",
    "Uavcan.SocketCan.C109_once_partial",
    "Uavcan.SocketCan.C109_results_partial",
    "Uavcan.SocketCan.C109_total",
    "Uavcan.SocketCan.C109_until_nothing"
   ],
   "note": "Delivery once and in order is proved for every history, also across errors of the socket; reading until SuccessNothing delivers all that had arrived. SuccessNothing, however, is returned exactly if no message of any kind waited: a call that takes only error messages or other undeliverable ones returns Success with no frame, even if frames wait behind them."
  },
  {
   "property": "C110",
   "status": "partial",
   "theorems": [
    "Uavcan.SocketCan.C110_bus_exact",
    "Uavcan.SocketCan.C110_bus_partial",
    "Uavcan.SocketCan.C110_can_finish",
    "Uavcan.SocketCan.C110_full_statement_fails",
    "Uavcan.SocketCan.C110_longer_frames",
    "Uavcan.SocketCan.C110_vcan_partial"
   ],
   "note": "Proved on a CAN FD bus for frames of up to 8 bytes with an identifier other than 0, and exactly for those; on a virtual bus for all lengths. On a CAN FD bus a frame of 12 to 24 bytes arrives as one of 24, a longer one without data, because write and read take the data length code for the length."
  },
  {
   "property": "C111",
   "status": "partial",
   "theorems": [
    "Uavcan.TestSys.C111_arrives_partial",
    "Uavcan.TestSys.C111_counting",
    "Uavcan.TestSys.C111_flush",
    "Uavcan.TestSys.C111_full_statement_fails",
    "Uavcan.TestSys.C111_text_partial"
   ],
   "note": "Proved exactly for the programs that print no more between two flushes than fits into the stream's buffer (1024 bytes with newlib). A longer text is cut off there, because _write returns 0, which the C library takes for an error. With a _write that returns the number of bytes everything arrives (proved)."
  },
  {
   "property": "C112",
   "status": "partial",
   "theorems": [
    "Uavcan.Coverage.C112_first_partial",
    "Uavcan.Coverage.C112_full_statement_fails",
    "Uavcan.Coverage.C112_jobs",
    "Uavcan.Coverage.C112_never_again",
    "Uavcan.Coverage.C112_server_partial"
   ],
   "note": "False: coverage.all.info depends on targets without a file, so that once coverage.info is there nothing but `clean` changes it (C112_never_again); and the tests share one set of counters, so that with several jobs reports can miss what a test executed or count it twice (exact: C112_jobs). With one job and no coverage.all.info yet, the counts are right whatever was done before; as the build server does it (clean, all, cov_all) the report is exactly right."
  },
  {
   "property": "C113",
   "status": "partial",
   "theorems": [
    "Uavcan.SocketCan.C113_full_statement_fails",
    "Uavcan.SocketCan.C113_once_partial",
    "Uavcan.SocketCan.C113_rests_partial",
    "Uavcan.SocketCan.C113_rounds_partial",
    "Uavcan.SocketCan.C113_select",
    "Uavcan.SocketCan.C113_timeout",
    "Uavcan.SocketCan.C113_total"
   ],
   "note": "Delivery holds for every group (C113_once_partial, C113_timeout), and what select says is stated exactly (C113_select). Coming to rest is false for groups of more than 255 interfaces: getInterfaceCount stops at 255 while select waits for all, so that one message at the 256th interface keeps select from ever waiting again (C113_full_statement_fails). Exact: C113_rests_partial, with what select says after each round in C113_rounds_partial."
  },
  {
   "property": "C114",
   "status": "partial",
   "theorems": [
    "Uavcan.Time.C114_add_order_partial",
    "Uavcan.Time.C114_back_partial",
    "Uavcan.Time.C114_deadline_partial",
    "Uavcan.Time.C114_full_statement_fails",
    "Uavcan.Time.C114_same_duration",
    "Uavcan.Time.C114_sub_order_partial",
    "Uavcan.Time.C114_successive_partial"
   ],
   "note": "Holds for durations that are not negative, with the saturation at the maximum spelled out (C114_deadline_partial, C114_successive_partial); for one duration of either sign later times stay later (C114_same_duration). False for negative durations, each part with a witness; exact conditions in C114_add_order_partial, C114_sub_order_partial and C114_back_partial. The library has no difference of two times, so that elapsed time is computed on the numbers."
  },
  {
   "property": "C115",
   "status": "proved",
   "theorems": [
    "Uavcan.Can.C115_all_sent",
    "Uavcan.Can.C115_queue",
    "Uavcan.Can.C115_sent_in_order",
    "Uavcan.Can.C115_winners"
   ],
   "note": "The bus is specified bit by bit, with the whole arbitration field of an extended data frame (Spec/Arbitration). The comment at can.hpp:462 says the opposite of what the code does (true if the rhs identifier is smaller); the code agrees with the bus."
  },
  {
   "property": "C116",
   "status": "partial",
   "theorems": [
    "Uavcan.Time.C116_forward_partial",
    "Uavcan.Time.C116_full_statement_fails",
    "Uavcan.Time.C116_in_range",
    "Uavcan.Time.C116_program_partial",
    "Uavcan.Time.C116_step_partial",
    "Uavcan.Time.C116_stops"
   ],
   "note": "Exactly those programs go through the ideal states of which no statement meets the operands of the defects of C01, C02, C04, C05 and C09; programs that make no negative durations are always right. False in general: adding a negative duration to a time gives 0, and 0 minus 0 is undefined."
  },
  {
   "property": "C117",
   "status": "partial",
   "theorems": [
    "Uavcan.MathTest.C117_blind",
    "Uavcan.MathTest.C117_bool",
    "Uavcan.MathTest.C117_complete_iff",
    "Uavcan.MathTest.C117_full_statement_fails",
    "Uavcan.MathTest.C117_meaning_partial"
   ],
   "note": "Exactly what passing means is proved: the answers to 18, 15 and 17 listed questions and two further relations. True for bool only; for every other pair of one signedness there are wrong operations that pass, for mixed pairs everything that passes is wrong."
  },
  {
   "property": "C118",
   "status": "partial",
   "theorems": [
    "Uavcan.PoolConc.C118_atomic_partial",
    "Uavcan.PoolConc.C118_exact_partial",
    "Uavcan.PoolConc.C118_first_attempt",
    "Uavcan.PoolConc.C118_full_statement_fails",
    "Uavcan.PoolConc.C118_main_and_handler"
   ],
   "note": "False for the most natural use, a handler that allocates and a main program that gives back, in every pool. Exact: safe iff each level switches interrupts off around its calls, makes none, is not interrupted by an allocate, or neither gives back nor is interrupted by code that does; then calls are also atomic. An allocate that nobody interrupts succeeds at its first attempt."
  },
  {
   "property": "C119",
   "status": "partial",
   "theorems": [
    "Uavcan.CopyBits.C119_clean_iff_partial",
    "Uavcan.CopyBits.C119_full_statement_fails",
    "Uavcan.CopyBits.C119_layout_decidable_partial",
    "Uavcan.CopyBits.C119_packs_iff_partial",
    "Uavcan.CopyBits.C119_round_trip_iff_partial",
    "Uavcan.CopyBits.C119_unpacks_iff_partial"
   ],
   "note": "False of the code. Exactly which layouts are packed right, unpacked right and come back is proved: with offsets from the start, messages of one field or of one byte; with a pointer to the byte, those in which every field starts at a byte boundary or ends within its first byte. Variables hold nothing but their field exactly if all fields are whole bytes."
  },
  {
   "property": "C120",
   "status": "proved",
   "theorems": [
    "Uavcan.CopyBits.C120_bit_copy",
    "Uavcan.CopyBits.C120_messages"
   ],
   "note": "A positive counterpart to C30, C31, C99 and C119: what a user can rely on. Holds for every position and length."
  },
  {
   "property": "C121",
   "status": "partial",
   "theorems": [
    "Uavcan.Configure.C121_delete_partial",
    "Uavcan.Configure.C121_fails_for_ever_partial",
    "Uavcan.Configure.C121_full_statement_fails",
    "Uavcan.Configure.C121_stale_partial",
    "Uavcan.Configure.C121_succeeds_iff_partial",
    "Uavcan.Configure.C121_success_partial"
   ],
   "note": "False: if the first run with virtualenv cannot install the packages, every later one fails until .pyenv is deleted by hand; and a change of requirements.txt is never installed. Exact: when a run with everything there succeeds, and which requirements are installed. Proved: a run that succeeds has found everything; deleting the environment always helps."
  },
  {
   "property": "C122",
   "status": "proved",
   "theorems": [
    "Uavcan.Stl.C122_independent",
    "Uavcan.Stl.C122_map_alone",
    "Uavcan.Stl.C122_vector_alone",
    "Uavcan.Stl.C122_vector_refused_iff",
    "Uavcan.Stl.C122_vectors_enough"
   ],
   "note": "Refinement of programs over several containers on one pool by a specification in which each container is a list or a finite map and knows of the others only the number of blocks left. Vectors whose element type is too large for BlockSize elements to fit are outside (see the properties about max_size). Without exceptions nothing is claimed of a program in which a block is missing."
  },
  {
   "property": "C123",
   "status": "partial",
   "theorems": [
    "Uavcan.SocketCan.C123_alone_partial",
    "Uavcan.SocketCan.C123_full_statement_fails",
    "Uavcan.SocketCan.C123_never_stops_iff_partial",
    "Uavcan.SocketCan.C123_returns_iff_partial",
    "Uavcan.SocketCan.C123_select_partial"
   ],
   "note": "False: the sockets block. If the transmit queue of the dead network interface is at least as long as the send buffer of its socket, then sooner or later a write to it never returns and the healthy interfaces stop too; select does not help because it says Success as soon as any interface has room. Exact: all calls return iff the queue is shorter than the buffer or no more frames are written than the buffer takes. Proved: as long as calls return, each interface behaves as if alone. Missing: longer queues."
  },
  {
   "property": "C124",
   "status": "partial",
   "theorems": [
    "Uavcan.SocketCan.C124_full_statement_fails",
    "Uavcan.SocketCan.C124_returns_partial",
    "Uavcan.SocketCan.C124_select",
    "Uavcan.SocketCan.C124_spins_partial",
    "Uavcan.SocketCan.C124_taken_iff_partial"
   ],
   "note": "False for the sizes Linux uses by default: poll looks at the send buffer of the socket only, but frames are refused when the transmit queue of the network interface is full; the example leaves the size of the send buffer as it is. Exact: a frame is always taken iff the send buffer takes no more than twice the messages that the transmit queue takes; otherwise select says Success and write BufferFull time and again. Proved: such a write never waits. Assumes that only this socket uses the network interface."
  },
  {
   "property": "C125",
   "status": "proved",
   "theorems": [
    "Uavcan.Pool.C125_all_end",
    "Uavcan.Pool.C125_answers",
    "Uavcan.Pool.C125_in_company",
    "Uavcan.Pool.C125_keeper",
    "Uavcan.Pool.C125_keepers",
    "Uavcan.Pool.C125_needed",
    "Uavcan.Pool.C125_refused_iff",
    "Uavcan.Pool.C125_rule",
    "Uavcan.Pool.C125_taker",
    "Uavcan.Pool.C125_undisturbed"
   ],
   "note": "Calls are atomic steps (C25 shows what happens if they are not), byte accesses are atomic. Programs that keep to their blocks are characterised exactly by a rule that follows their text."
  },
  {
   "property": "C126",
   "status": "partial",
   "theorems": [
    "Uavcan.Can.C126_first_come_partial",
    "Uavcan.Can.C126_full_statement_fails",
    "Uavcan.Can.C126_multiset_partial",
    "Uavcan.Can.C126_priority_queue_partial",
    "Uavcan.Can.C126_runs",
    "Uavcan.Can.C126_set_partial"
   ],
   "note": "True of std::multiset<Frame, std::greater<Frame>>, for all sequences. False of the other two: the operators compare identifiers only (and operator== more), so a std::priority_queue may send the second frame of a transfer before the first, and a std::set loses it. Proved of these what holds: the priority queue sends every frame once and the identifiers in the right order; the set sends as wanted but for frames queued while another with the same identifier waits. The containers are specified as the C++ standard says, nondeterministically where it leaves a choice."
  },
  {
   "property": "C127",
   "status": "partial",
   "theorems": [
    "Uavcan.SocketCan.C127_allowed_partial",
    "Uavcan.SocketCan.C127_call_partial",
    "Uavcan.SocketCan.C127_full_statement_fails",
    "Uavcan.SocketCan.C127_session_iff_partial"
   ],
   "note": "False only of select with a timeout of zero, that is for asking without waiting: the subtraction of the whole seconds takes the absolute value of the smallest integer (C07). Exact for every call: write is defined iff the index is wrong or at most four frames are to be sent, reconfigureFilters iff there are no interfaces, no filters, a null pointer with at most 512 filters, or an array that is long enough and shorter than 2^32, select iff the timeout is not zero, read always; a sequence of calls gets to its end iff each call for itself is one of these. Control data is taken as parsed (see C98 for its bytes); groups of more than 255 interfaces are C45."
  },
  {
   "property": "C128",
   "status": "partial",
   "theorems": [
    "Uavcan.SocketCan.C128_full_statement_fails",
    "Uavcan.SocketCan.C128_same_partial",
    "Uavcan.SocketCan.C128_told_partial",
    "Uavcan.SocketCan.C128_which_partial"
   ],
   "note": "False of the interfaces: all of them trace under the name of the class, so frames of redundant interfaces cannot be told apart. Proved: a reader of the text (given in the specification, working on lines and digits only) finds exactly identifier and time of all frames delivered, in order; traces change neither results nor when read is undefined. Names of network interfaces have no line feed, as Linux ensures; printf is taken not to fail, and output of the application itself is left out."
  },
  {
   "property": "C129",
   "status": "proved",
   "theorems": [
    "Uavcan.GroupThreads.C129_all_end",
    "Uavcan.GroupThreads.C129_needed_read",
    "Uavcan.GroupThreads.C129_needed_write",
    "Uavcan.GroupThreads.C129_no_race",
    "Uavcan.GroupThreads.C129_race_iff",
    "Uavcan.GroupThreads.C129_undisturbed"
   ],
   "note": "The functions as programs that read and write single data members, with all interleavings; they are proved to do, run alone, what the models of C36-C48 and C127 do. A message header, a frame buffer and the statistics are one location each; the kernel's accesses during a system call are steps of the calling thread; what the kernel answers is universally quantified. C129_race_iff takes calls that are defined and messages as recvmmsg gives them."
  },
  {
   "property": "C130",
   "status": "partial",
   "theorems": [
    "Uavcan.Macros.C130_compiles_partial",
    "Uavcan.Macros.C130_does_partial",
    "Uavcan.Macros.C130_full_statement_fails",
    "Uavcan.Macros.C130_off_partial",
    "Uavcan.Macros.C130_same_partial"
   ],
   "note": "The full statement is false (C130_full_statement_fails): an assertion that is turned on is a block, and the macros for interrupts have a semicolon of their own with GCC, so neither can stand before an else or at the end of a do without braces; assertions with a comma and LIBUAVCAN_TRACEF without a value do not compile when turned on; asserted conditions that change something change what the program does. Proved: exactly which functions compile (C130_compiles_partial), that those which do mean what they seem to (C130_does_partial), and that turning things on changes nothing but traces and stops if asserted conditions only look (C130_same_partial). Expressions are single tokens; declarations, for, switch and jumps are left out."
  },
  {
   "property": "C131",
   "status": "proved",
   "theorems": [
    "Uavcan.SocketCan.C131_after_reconfigure",
    "Uavcan.SocketCan.C131_after_start",
    "Uavcan.SocketCan.C131_needed"
   ],
   "note": "The usage that is safe where C67 and C68 fail. Joins the models of startInterfaceGroup, reconfigureFilters, configureFilters and read with the specification of a CAN socket of Linux. Matching is as in C46: a filter whose mask has bit 29 set matches no data frame, and remote frames pass unless the mask has bit 30 set; identifier 0 is not delivered (C39)."
  },
  {
   "property": "C132",
   "status": "partial",
   "theorems": [
    "Uavcan.ByteOrder.C132_full_statement_fails",
    "Uavcan.ByteOrder.C132_iff_partial",
    "Uavcan.ByteOrder.C132_one_value_partial",
    "Uavcan.ByteOrder.C132_reversed_partial"
   ],
   "note": "False: the expression has no parentheses around the argument, so that in REV_BYTES_32(x | y, z) the mask applies to y only. Proved: right with the instruction, and with the expression if all operators of the argument bind at least as tightly as &; for arguments of two operands exactly then. Arguments without side effects (the expression evaluates its argument four times), without division, conditional operator and assignment."
  },
  {
   "property": "C133",
   "status": "proved",
   "theorems": [
    "Uavcan.SocketCan.C133_bus",
    "Uavcan.SocketCan.C133_can_finish",
    "Uavcan.SocketCan.C133_vcan"
   ],
   "note": "Joins C110 (write and read over a bus) and C126 (std::multiset with the operators of Frame)."
  },
  {
   "property": "C134",
   "status": "proved",
   "theorems": [
    "Uavcan.PoolQueue.C134_accepted",
    "Uavcan.PoolQueue.C134_as_wanted",
    "Uavcan.PoolQueue.C134_destroyed",
    "Uavcan.PoolQueue.C134_queue",
    "Uavcan.PoolQueue.C134_small_block",
    "Uavcan.PoolQueue.C134_without_exceptions"
   ],
   "note": "The container is that of GNU's libstdc++, with the shape of the tree and the contents of node headers as parameters. Joins C21 to C23 (the pool) and C126 (the order)."
  },
  {
   "property": "C135",
   "status": "partial",
   "theorems": [
    "Uavcan.Stl.C135_buffer",
    "Uavcan.Stl.C135_fifo_partial",
    "Uavcan.Stl.C135_full_statement_fails",
    "Uavcan.Stl.C135_limit_partial",
    "Uavcan.Stl.C135_numbers",
    "Uavcan.Stl.C135_refused_partial"
   ],
   "note": "False of the code (C135_full_statement_fails). Proved instead, exactly: it is a queue as long as the elements queued in all, taken out or not, fit into one block; the next one is undefined behaviour or refused; and elements of which libstdc++ puts more into a buffer than BlockSize (always those of one or two bytes) cannot be queued at all. The container is that of GNU's libstdc++, with the simplifications named in Model/Deque."
  },
  {
   "property": "C136",
   "status": "proved",
   "theorems": [
    "Uavcan.SocketCan.C136_all_cut",
    "Uavcan.SocketCan.C136_bus",
    "Uavcan.SocketCan.C136_can_finish",
    "Uavcan.SocketCan.C136_vcan"
   ],
   "note": "The applications and the buses are specified in Spec/Links; calls are those of the group. That a write to a dead bus can block is C123, not repeated here. C136_vcan: on virtual buses frames of every length."
  },
  {
   "property": "C137",
   "status": "partial",
   "theorems": [
    "Uavcan.TimeTest.C137_duration_meaning_partial",
    "Uavcan.TimeTest.C137_full_statement_fails",
    "Uavcan.TimeTest.C137_ignoring_passes",
    "Uavcan.TimeTest.C137_indifferent_passes",
    "Uavcan.TimeTest.C137_plain_move_refused",
    "Uavcan.TimeTest.C137_right_pass_partial",
    "Uavcan.TimeTest.C137_time_meaning_partial",
    "Uavcan.TimeTest.C137_unordered_passes"
   ],
   "note": "Right classes pass (C137_right_pass_partial), and for classes that are right about numbers the tests ask thirteen questions of durations and six of times, no others (C137_duration_meaning_partial, C137_time_meaning_partial). That wrong classes are refused is false: C137_full_statement_fails, C137_ignoring_passes, C137_unordered_passes, C137_indifferent_passes. C137_plain_move_refused: a class whose move constructor copies is refused."
  },
  {
   "property": "C138",
   "status": "partial",
   "theorems": [
    "Uavcan.FrameTest.C138_careless_passes",
    "Uavcan.FrameTest.C138_full_statement_fails",
    "Uavcan.FrameTest.C138_meaning_partial",
    "Uavcan.FrameTest.C138_right_pass_partial",
    "Uavcan.FrameTest.C138_two_say_nothing"
   ],
   "note": "Right classes pass (C138_right_pass_partial). For classes that store rightly, exactly what is asked: C138_meaning_partial. That wrong ones are refused is false for every MTU (C138_full_statement_fails): C138_careless_passes. C138_two_say_nothing: GetDLC and FrameNotEqualWithFlags pass for every class."
  },
  {
   "property": "C139",
   "status": "proved",
   "theorems": [
    "Uavcan.SocketCan.C139_can_finish",
    "Uavcan.SocketCan.C139_frames_exist",
    "Uavcan.SocketCan.C139_queue",
    "Uavcan.SocketCan.C139_redundant"
   ],
   "note": "The transport protocol of sender and receiver is specified in Spec/Transfer (tail bytes, toggle bit, number); the check sum counts as payload. With frames of CAN FD (more than 8 bytes) it is false already of single frames, see C110; with a std::priority_queue see C126."
  },
  {
   "property": "C140",
   "status": "partial",
   "theorems": [
    "Uavcan.SocketCan.C140_exact_partial",
    "Uavcan.SocketCan.C140_full_statement_fails",
    "Uavcan.SocketCan.C140_iff_partial",
    "Uavcan.SocketCan.C140_no_change_partial"
   ],
   "note": "False: the time stamps are of the time of day (C105), so setting the clock makes a frame late or hides that it is. Proved: exactly what the comparison says; for two frames it is right for every time-out if and only if the time of day was not changed in sum between them; right for all if it is never set."
  },
  {
   "property": "C141",
   "status": "proved",
   "theorems": [
    "Uavcan.SocketCan.C141_no_limit",
    "Uavcan.SocketCan.C141_queue",
    "Uavcan.SocketCan.C141_sender"
   ],
   "note": "Time is counted in frames written. What the kernel has taken is not overtaken any more; how much it takes is its own affair. With a std::priority_queue later frames of the same priority may go first, see C126."
  },
  {
   "property": "C142",
   "status": "proved",
   "theorems": [
    "Uavcan.PoolList.C142_accepted",
    "Uavcan.PoolList.C142_for_ever",
    "Uavcan.PoolList.C142_list",
    "Uavcan.PoolList.C142_small_block",
    "Uavcan.PoolList.C142_without_exceptions"
   ],
   "note": "The container is that of GNU's libstdc++; what it writes into node headers is a parameter, the order of nodes is a value."
  },
  {
   "property": "C143",
   "status": "proved",
   "theorems": [
    "Uavcan.PoolQueue.C143_inversion",
    "Uavcan.PoolQueue.C143_refused",
    "Uavcan.PoolQueue.C143_wait"
   ],
   "note": "Joins C134 and C141. Time is counted in frames taken."
  },
  {
   "property": "C144",
   "status": "proved",
   "theorems": [
    "Uavcan.SharedQueues.C144_given_back",
    "Uavcan.SharedQueues.C144_no_reserve",
    "Uavcan.SharedQueues.C144_reserved",
    "Uavcan.SharedQueues.C144_shared",
    "Uavcan.SharedQueues.C144_without_exceptions"
   ],
   "note": "Joins C134 and C142; vectors and maps are in C122. One thread."
  },
  {
   "property": "C145",
   "status": "partial",
   "theorems": [
    "Uavcan.PoolQueue.C145_bus_partial",
    "Uavcan.PoolQueue.C145_full_statement_fails",
    "Uavcan.PoolQueue.C145_giving_up_partial",
    "Uavcan.PoolQueue.C145_one_lost_partial",
    "Uavcan.PoolQueue.C145_run_lost_partial"
   ],
   "note": "Proved for applications that give up; the full statement is false, with a witness. Joins C134, C139, C143. The check sum of the UAVCAN specification, which the library does not have, is not modelled."
  },
  {
   "property": "C146",
   "status": "partial",
   "theorems": [
    "Uavcan.ResultTest.C146_asks",
    "Uavcan.ResultTest.C146_full_statement_fails",
    "Uavcan.ResultTest.C146_graded_partial",
    "Uavcan.ResultTest.C146_library",
    "Uavcan.ResultTest.C146_one_more",
    "Uavcan.ResultTest.C146_right_passes"
   ],
   "note": "Proved for all results but BufferFull and implementations that compare values with a limit; refutation of the full statement included."
  }
 ]
}