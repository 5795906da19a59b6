{
 "claims": [
  {
   "property": "C01",
   "status": "proved",
   "theorems": [
    "Verif.Buf.C01_size",
    "Verif.Buf.C01_addAtStart",
    "Verif.Buf.C01_addAtEnd",
    "Verif.Buf.C01_removeAtStart",
    "Verif.Buf.C01_removeAtEnd",
    "Verif.Buf.C01_values",
    "Verif.Buf.C01_write"
   ],
   "note": "For every history of operations (fragments and deep copies included) and any contents of uninitialised memory."
  },
  {
   "property": "C02",
   "status": "partial",
   "theorems": [
    "Verif.Buf.C02_isolation_partial",
    "Verif.Buf.C02_added_area_partial",
    "Verif.Buf.C02_families_partial",
    "Verif.Buf.C02_families_added_partial",
    "Verif.Buf.C02_isolation_fails"
   ],
   "note": "False in general: MakeFragment overwrites the dirty range of the shared storage (witness proved). Proved for histories without fragments and deep copies, and for all histories outside the families of buffers that contain a fragment or descend from a deep copy."
  },
  {
   "property": "C03",
   "status": "proved",
   "theorems": [
    "Verif.Buf.C03_fragment",
    "Verif.Buf.C03_out_of_range"
   ],
   "note": ""
  },
  {
   "property": "C04",
   "status": "partial",
   "theorems": [
    "Verif.Buf.C04_deep_copy",
    "Verif.Buf.C04_isolation_partial",
    "Verif.Buf.C04_isolation_fails"
   ],
   "note": "Fresh storage and byte equality proved outright; isolation under later resizes proved when AddAtEnd never grows an empty buffer and no fragments are made. False in general: the deep copy leaves the dirty range empty; witness proved."
  },
  {
   "property": "C05",
   "status": "proved",
   "theorems": [
    "Verif.Buf.C05_refcounts",
    "Verif.Buf.C05_defined",
    "Verif.Buf.C05_no_leak"
   ],
   "note": "Holds for every history, including those that violate C02."
  },
  {
   "property": "C06",
   "status": "partial",
   "theorems": [
    "Verif.Buf.C06_bytes",
    "Verif.Buf.C06_append",
    "Verif.Buf.C06_prepend_partial",
    "Verif.Buf.C06_operand_partial",
    "Verif.Buf.C06_prepend_self_fails"
   ],
   "note": "Everything except prepending a buffer to itself, which is proved to give wrong bytes; other operands unchanged for histories without fragments and deep copies."
  },
  {
   "property": "C07",
   "status": "proved",
   "theorems": [
    "Verif.Buf.C07_copyTo"
   ],
   "note": ""
  },
  {
   "property": "C08",
   "status": "partial",
   "theorems": [
    "Verif.Zc.C08_size",
    "Verif.Zc.C08_values",
    "Verif.Zc.C08_addAtStart",
    "Verif.Zc.C08_addAtEnd",
    "Verif.Zc.C08_bytes",
    "Verif.Zc.C08_removeAtStart_partial",
    "Verif.Zc.C08_removeAtEnd_partial",
    "Verif.Zc.C08_storage",
    "Verif.Zc.C08_hollow_fails"
   ],
   "note": "Everything is proved for every history, except that removing more than GetSize() bytes from a buffer of zeros without storage removes nothing in the code (C08_hollow_fails)."
  },
  {
   "property": "C09",
   "status": "partial",
   "theorems": [
    "Verif.Zc.C09_isolation_partial",
    "Verif.Zc.C09_deep_isolation_partial",
    "Verif.Zc.C09_append_partial",
    "Verif.Zc.C09_added_area_partial",
    "Verif.Zc.C09_families_partial",
    "Verif.Zc.C09_families_append_partial",
    "Verif.Zc.C09_isolation_fails",
    "Verif.Zc.C09_append_hollow_fails"
   ],
   "note": "False in general (C09_isolation_fails): a deep copy leaves the dirty range empty. Proved for histories without deep copies, for histories with deep copies as long as AddAtEnd never grows a buffer without stored bytes, and for all histories outside the families that descend from a deep copy."
  },
  {
   "property": "C10",
   "status": "partial",
   "theorems": [
    "Verif.Zc.C10_real",
    "Verif.Zc.C10_copyTo_partial",
    "Verif.Zc.C10_copyTo_hollow_fails"
   ],
   "note": "MakeRealBuffer is proved for every reachable buffer; CopyTo copies nothing from a buffer of zeros without storage (C10_copyTo_hollow_fails)."
  },
  {
   "property": "C11",
   "status": "proved",
   "theorems": [
    "Verif.Iter.C11_write_read"
   ],
   "note": "Solid-buffer iterator; all widths, orders, hosts. Values are bit patterns, so float/double are covered."
  },
  {
   "property": "C12",
   "status": "proved",
   "theorems": [
    "Verif.ZcIter.C12_of_buffer",
    "Verif.ZcIter.C12_read",
    "Verif.ZcIter.C12_readBytes",
    "Verif.ZcIter.C12_beyond"
   ],
   "note": "All widths, byte orders, hosts, zero-area layouts and cursors."
  },
  {
   "property": "C13",
   "status": "proved",
   "theorems": [
    "Verif.Iter.C13_writeL",
    "Verif.Iter.C13_writeB",
    "Verif.Iter.C13_read",
    "Verif.Iter.C13_cross_host"
   ],
   "note": "Both host byte orders."
  },
  {
   "property": "C14",
   "status": "partial",
   "theorems": [
    "Verif.ZcIter.C14_write_partial",
    "Verif.ZcIter.C14_block_partial",
    "Verif.ZcIter.C14_refused",
    "Verif.ZcIter.C14_complete",
    "Verif.ZcIter.C14_writable_agrees",
    "Verif.ZcIter.C14_straddle_fails"
   ],
   "note": "Proved whenever the zero area is not empty (C14_complete shows the two cases exhaust all writes) and for any write within header or trailer; with an empty zero area the code refuses a write that straddles it (C14_straddle_fails)."
  },
  {
   "property": "C15",
   "status": "proved",
   "theorems": [
    "Verif.Tag.C15_refines",
    "Verif.Tag.C15_insert",
    "Verif.Tag.C15_resize"
   ],
   "note": "Refinement to a map of tags per byte for every history over any number of lists that does not grow a cut side; single insertions and resizes are settled in every reachable state."
  },
  {
   "property": "C16",
   "status": "proved",
   "theorems": [
    "Verif.Tag.C16_isolated",
    "Verif.Tag.C16_copy",
    "Verif.Tag.C16_assign",
    "Verif.Tag.C16_no_leak"
   ],
   "note": "Every reachable state, every history of operations on other lists."
  },
  {
   "property": "C17",
   "status": "partial",
   "theorems": [
    "Verif.Tag.C17_fresh_partial",
    "Verif.Tag.C17_edge_partial",
    "Verif.Tag.C17_fails",
    "Verif.Tag.C17_empty_fails"
   ],
   "note": "Holds for sides that were never cut, and for ids the neighbouring edge byte does not carry; false in general, with witnesses."
  },
  {
   "property": "C18",
   "status": "partial",
   "theorems": [
    "Verif.Tag.C18_concat_partial",
    "Verif.Tag.C18_no_loss",
    "Verif.Tag.C18_spill_fails"
   ],
   "note": "Holds when neither operand was cut at the joint; in every state no tag is lost; false in general, with a witness."
  },
  {
   "property": "C19",
   "status": "partial",
   "theorems": [
    "Verif.Packet.C19_isolated_partial",
    "Verif.Packet.C19_storing_partial",
    "Verif.Packet.C19_headers_partial",
    "Verif.Packet.C19_trailers_partial",
    "Verif.Packet.C19_copyTags_partial",
    "Verif.Packet.C19_copy",
    "Verif.Packet.C19_copyTags_fails",
    "Verif.Packet.C19_overwrite_fails"
   ],
   "note": "The code violates the full statement: CopyTagsFrom writes to a shared body, and storages shared with fragments are overwritten. Proved for all operations that do not store bytes after any history; for storing ones (including writes into a header that was just added) in histories in which only headers, or only trailers, are added by size and no client buffer is fragmented."
  },
  {
   "property": "C20",
   "status": "proved",
   "theorems": [
    "Verif.Packet.C20_undo",
    "Verif.Packet.C20_headers",
    "Verif.Packet.C20_defined"
   ],
   "note": ""
  },
  {
   "property": "C21",
   "status": "proved",
   "theorems": [
    "Verif.Sim.C21_list_order",
    "Verif.Sim.C21_set_order",
    "Verif.Sim.C21_heap_order",
    "Verif.Sim.C21_fired_in_order",
    "Verif.Sim.C21_fired_in_order_list",
    "Verif.Sim.C21_fired_in_order_set"
   ],
   "note": "Directly driven schedulers: any history, any clock; simulations: histories without a run into the past."
  },
  {
   "property": "C22",
   "status": "proved",
   "theorems": [
    "Verif.Sim.C22_interchangeable"
   ],
   "note": "Equality of the whole observable view (clock, handles, trace) and of the next event, for every correct heap algorithm."
  },
  {
   "property": "C23",
   "status": "proved",
   "theorems": [
    "Verif.Sim.C23_scheduleAt",
    "Verif.Sim.C23_rejected",
    "Verif.Sim.C23_added",
    "Verif.Sim.C23_scheduleNow_fails",
    "Verif.Sim.C23_clock"
   ],
   "note": "Side result: ScheduleNow/ScheduleIn dereference a null clock instead of throwing Uninitialized."
  },
  {
   "property": "C24",
   "status": "proved",
   "theorems": [
    "Verif.Sim.C24_identities",
    "Verif.Sim.C24_increasing"
   ],
   "note": "event_id_t wrap-around is not modelled (unbounded identities)."
  },
  {
   "property": "C25",
   "status": "proved",
   "theorems": [
    "Verif.Sim.C25_exactly_once",
    "Verif.Sim.C25_exactly_once_list",
    "Verif.Sim.C25_exactly_once_set",
    "Verif.Sim.C25_run_completes",
    "Verif.Sim.C25_run_completes_list",
    "Verif.Sim.C25_run_completes_set"
   ],
   "note": "Sinks that throw are in C133, sinks that run the simulator in C137."
  },
  {
   "property": "C26",
   "status": "proved",
   "theorems": [
    "Verif.Sim.C26_clock",
    "Verif.Sim.C26_clock_list",
    "Verif.Sim.C26_clock_set"
   ],
   "note": "For histories without a run into the past (as the property says)."
  },
  {
   "property": "C27",
   "status": "partial",
   "theorems": [
    "Verif.Sim.C27_fails",
    "Verif.Sim.C27_after_run_partial",
    "Verif.Sim.C27_after_run_list_partial",
    "Verif.Sim.C27_after_run_set_partial",
    "Verif.Sim.C27_clock_partial",
    "Verif.Sim.C27_clock_list_partial",
    "Verif.Sim.C27_clock_set_partial"
   ],
   "note": "False in the code when a cancelled event follows the last fired one. Proved for histories without cancellation; for every history the clock is the old one, the time of the last fired event, or the time of a cancelled event that never fired, and all events fired lie between the old and the new clock."
  },
  {
   "property": "C28",
   "status": "proved",
   "theorems": [
    "Verif.Sim.C28_runUntil",
    "Verif.Sim.C28_runUntil_list",
    "Verif.Sim.C28_runUntil_set"
   ],
   "note": ""
  },
  {
   "property": "C29",
   "status": "partial",
   "theorems": [
    "Verif.Sim.C29_fails",
    "Verif.Sim.C29_no_step_back_partial",
    "Verif.Sim.C29_no_step_back_list_partial",
    "Verif.Sim.C29_no_step_back_set_partial"
   ],
   "note": "False in the code for a target in the past; proved for every other call."
  },
  {
   "property": "C30",
   "status": "partial",
   "theorems": [
    "Verif.Sim.C30_heap_partial",
    "Verif.Sim.C30_list_fails",
    "Verif.Sim.C30_set_fails"
   ],
   "note": "True of the heap scheduler; the list and set schedulers count the running event."
  },
  {
   "property": "C31",
   "status": "partial",
   "theorems": [
    "Verif.Sim.C31_set",
    "Verif.Sim.C31_heap",
    "Verif.Sim.C31_list_partial",
    "Verif.Sim.C31_list_fails"
   ],
   "note": "True of set and heap in every reachable state; the list scheduler needs the clock to have reached the event."
  },
  {
   "property": "C32",
   "status": "partial",
   "theorems": [
    "Verif.Sim.C32_handle",
    "Verif.Sim.C32_life_partial",
    "Verif.Sim.C32_life_list_partial",
    "Verif.Sim.C32_life_set_partial",
    "Verif.Sim.C32_fails"
   ],
   "note": "Everything but: an event that cancels itself while running reports not running."
  },
  {
   "property": "C33",
   "status": "proved",
   "theorems": [
    "Verif.Sim.C33_lifecycle",
    "Verif.Sim.C33_lifecycle_list",
    "Verif.Sim.C33_lifecycle_set",
    "Verif.Sim.C33_begin"
   ],
   "note": "Sinks that throw are in C133, sinks that run the simulator in C137."
  },
  {
   "property": "C34",
   "status": "proved",
   "theorems": [
    "Verif.Event.C34_fire"
   ],
   "note": "Every reachable table of an event with any capacity below 2^32; both Fire loops and Visit."
  },
  {
   "property": "C35",
   "status": "proved",
   "theorems": [
    "Verif.Event.C35_connect",
    "Verif.Event.C35_connect_refused",
    "Verif.Event.C35_disconnect",
    "Verif.Event.C35_count",
    "Verif.Event.C35_one"
   ],
   "note": "Stated through GetSink; includes the capacity-one specialisation. Allocation failure is in C144."
  },
  {
   "property": "C36",
   "status": "partial",
   "theorems": [
    "Verif.Event.C36_fire_void",
    "Verif.Event.C36_fire_args_fails",
    "Verif.Event.C36_fire_args_partial"
   ],
   "note": "Proved for Fire(void) with arbitrary reentrant sinks. False of Fire(args...) (witness C36_fire_args_fails); the partial theorem covers sinks that do not disconnect the highest cookie."
  },
  {
   "property": "C37",
   "status": "proved",
   "theorems": [
    "Verif.Event.C37_portainer",
    "Verif.Event.C37_one"
   ],
   "note": "Both the general container and the capacity-one specialisation."
  },
  {
   "property": "C38",
   "status": "proved",
   "theorems": [
    "Verif.Chrono.C38_finer",
    "Verif.Chrono.C38_coarser",
    "Verif.Chrono.C38_round_trip",
    "Verif.Chrono.C38_non_power_of_ten_fails"
   ],
   "note": "All powers of ten and all 64-bit counts. The static_assert also admits denominators that are not powers of ten, for which conversion is wrong (C38_non_power_of_ten_fails); these contradict the documented precondition."
  },
  {
   "property": "C39",
   "status": "partial",
   "theorems": [
    "Verif.Chrono.C39_compare_partial",
    "Verif.Chrono.C39_overflow_inverted",
    "Verif.Chrono.C39_fails"
   ],
   "note": "False of the code: in every case where the coarser count does not fit the finer unit all four comparisons are inverted (C39_overflow_inverted, witness C39_fails). Otherwise exact (C39_compare_partial)."
  },
  {
   "property": "C40",
   "status": "proved",
   "theorems": [
    "Verif.Chrono.C40_equal"
   ],
   "note": "All counts, including the overflow branches."
  },
  {
   "property": "C41",
   "status": "proved",
   "theorems": [
    "Verif.Chrono.C41_split",
    "Verif.Chrono.C41_min_overflows"
   ],
   "note": "Resolutions 10^-k with k at most 18, every count except INT64_MIN; no intermediate overflow. INT64_MIN overflows (C41_min_overflows)."
  },
  {
   "property": "C42",
   "status": "proved",
   "theorems": [
    "Verif.Chrono.C42_add_sub"
   ],
   "note": "Defined exactly when both operands and the result fit the finer unit."
  },
  {
   "property": "C43",
   "status": "proved",
   "theorems": [
    "Verif.Chrono.C43_affine",
    "Verif.Chrono.C43_assoc",
    "Verif.Chrono.C43_order",
    "Verif.Chrono.C43_from_coarser",
    "Verif.Chrono.C43_from_finer",
    "Verif.Chrono.C43_any_unit"
   ],
   "note": "Virtual time points, absent overflow; durations of any decimal unit 10^-k, exact for k at most 10 and truncated toward the epoch beyond."
  },
  {
   "property": "C44",
   "status": "proved",
   "theorems": [
    "Verif.SeqNum.C44_window",
    "Verif.SeqNum.C44_trichotomy",
    "Verif.SeqNum.C44_order"
   ],
   "note": "C44_order also pins the antipode."
  },
  {
   "property": "C45",
   "status": "proved",
   "theorems": [
    "Verif.SeqNum.C45_increment",
    "Verif.SeqNum.C45_range"
   ],
   "note": ""
  },
  {
   "property": "C46",
   "status": "proved",
   "theorems": [
    "Verif.SeqNum.C46_increment",
    "Verif.SeqNum.C46_stays",
    "Verif.SeqNum.C46_stick",
    "Verif.SeqNum.C46_circle",
    "Verif.SeqNum.C46_circle_total"
   ],
   "note": "Half-window order is stated for circles of at least three numbers; on a two-number circle each precedes the other by design."
  },
  {
   "property": "C47",
   "status": "partial",
   "theorems": [
    "Verif.SeqNum.C47_circular",
    "Verif.SeqNum.C47_lollipop_partial",
    "Verif.SeqNum.C47_lollipop_fails"
   ],
   "note": "The code violates irreflexivity for lollipop numbers with a two-number circle (default 2-bit type: 2 < 2 is true)."
  },
  {
   "property": "C48",
   "status": "partial",
   "theorems": [
    "Verif.SeqNum.C48_round_trip",
    "Verif.SeqNum.C48_read_range_partial",
    "Verif.SeqNum.C48_read_range_fails"
   ],
   "note": "Round trip proved for every width. Range after a read holds only when bits is a multiple of 8; witness of the violation given."
  },
  {
   "property": "C49",
   "status": "partial",
   "theorems": [
    "Verif.Ptr.C49_count",
    "Verif.Ptr.C49_exists_iff_held",
    "Verif.Ptr.C49_no_dangling",
    "Verif.Ptr.C49_once",
    "Verif.Ptr.C49_last_reset",
    "Verif.Ptr.C49_defined_partial",
    "Verif.Ptr.C49_variables_partial",
    "Verif.Ptr.C49_next_partial",
    "Verif.Ptr.C49_self_move",
    "Verif.Ptr.C49_self_assign_fails",
    "Verif.Ptr.C49_next_fails",
    "Verif.Ptr.C49_object",
    "Verif.Ptr.C49_static"
   ],
   "note": "Counts, lifetime and absence of dangling references are proved for every history that does not run into undefined behaviour. Copy self-assignment, p = p.Get() and p = p->next with a sole owner destroy the object and then use it; operations are proved defined for Object/MutualObject histories in which something else keeps the object assigned."
  },
  {
   "property": "C50",
   "status": "proved",
   "theorems": [
    "Verif.Query.C50_deterministic",
    "Verif.Query.C50_reference",
    "Verif.Query.C50_identity",
    "Verif.Query.C50_same_answers",
    "Verif.Query.C50_history",
    "Verif.Query.C50_answered",
    "Verif.Query.C50_unwired"
   ],
   "note": "For every interface map whose aggregated entries name navigators created with the object as controller (the documented rule; C50_unwired shows it is needed)."
  },
  {
   "property": "C51",
   "status": "proved",
   "theorems": [
    "Verif.Query.C51_query",
    "Verif.Query.C51_navigator",
    "Verif.Ptr.C51_keeps_controller",
    "Verif.Ptr.C51_usable",
    "Verif.Ptr.C51_aggregated"
   ],
   "note": "C51_aggregated speaks of histories alone: whoever holds an interface of an object made by new AggObject(controller) keeps the controller; C51_usable needs that a member of the controller holds the navigator, the documented rule."
  },
  {
   "property": "C52",
   "status": "proved",
   "theorems": [
    "Verif.Query.C52_lookup",
    "Verif.Query.C52_register",
    "Verif.Query.C52_others"
   ],
   "note": "Identifiers are compared as C strings in memory."
  },
  {
   "property": "C53",
   "status": "partial",
   "theorems": [
    "Verif.Address.C53_increment",
    "Verif.Address.C53_decrement",
    "Verif.Address.C53_plus",
    "Verif.Address.C53_minus_partial",
    "Verif.Address.C53_minus_fails",
    "Verif.Address.C53_negate"
   ],
   "note": "Proved for every operand except -= INT64_MIN, where the code negates INT64_MIN, which is undefined (C53_minus_fails)."
  },
  {
   "property": "C54",
   "status": "proved",
   "theorems": [
    "Verif.Address.C54_compare"
   ],
   "note": ""
  },
  {
   "property": "C55",
   "status": "proved",
   "theorems": [
    "Verif.Address.C55_bitwise"
   ],
   "note": "Unary ~ and - also change their operand in place (model and code)."
  },
  {
   "property": "C56",
   "status": "partial",
   "theorems": [
    "Verif.Address.C56_shift_partial",
    "Verif.Address.C56_fails"
   ],
   "note": "Proved for every count for which the code is defined. For addresses wider than 64 bits, every other count (a positive multiple of 32 not reaching the last word) shifts a 32-bit word by 32, which is undefined (C56_fails)."
  },
  {
   "property": "C57",
   "status": "partial",
   "theorems": [
    "Verif.Address.C57_multiply_partial",
    "Verif.Address.C57_fails",
    "Verif.Address.C57_trivial_partial",
    "Verif.Address.C57_words_partial"
   ],
   "note": "Proved up to 64 bits. Above, every product accesses the word behind the address (C57_fails); with that word accessible the result is right (C57_words_partial)."
  },
  {
   "property": "C58",
   "status": "partial",
   "theorems": [
    "Verif.Address.C58_small_partial",
    "Verif.Address.C58_small_fails",
    "Verif.Address.C58_fits_partial",
    "Verif.Address.C58_saturate_partial",
    "Verif.Address.C58_wide_fails",
    "Verif.Address.C58_fails",
    "Verif.Address.C58_exact_partial"
   ],
   "note": "The condition under which the code gives the saturated difference is proved exactly, for every width (C58_exact_partial). It holds when the difference fits in 64 bits and the address is wider than 32 bits, and for part of the saturating range; negative differences up to 32 bits and several large differences are wrong in the code."
  },
  {
   "property": "C59",
   "status": "proved",
   "theorems": [
    "Verif.Address.C59_bytes",
    "Verif.Address.C59_integer",
    "Verif.Address.C59_integers",
    "Verif.Address.C59_mask"
   ],
   "note": ""
  },
  {
   "property": "C60",
   "status": "partial",
   "theorems": [
    "Verif.Address.C60_not_partial",
    "Verif.Address.C60_fails"
   ],
   "note": "The conversion to bool is inverted in the code: true exactly for the zero address (C60_fails). operator! is right."
  },
  {
   "property": "C61",
   "status": "proved",
   "theorems": [
    "Verif.Address.C61_round_trip",
    "Verif.Address.C61_read"
   ],
   "note": "Over plain buffer iterators."
  },
  {
   "property": "C62",
   "status": "proved",
   "theorems": [
    "Verif.Random.C62_full_period"
   ],
   "note": ""
  },
  {
   "property": "C63",
   "status": "proved",
   "theorems": [
    "Verif.Random.C63_lossless",
    "Verif.Random.C63_lossless16"
   ],
   "note": "All engine typedefs of the library, by their state transformation."
  },
  {
   "property": "C64",
   "status": "proved",
   "theorems": [
    "Verif.Random.C64_seed_nonzero"
   ],
   "note": "64-bit engines, as stated."
  },
  {
   "property": "C65",
   "status": "partial",
   "theorems": [
    "Verif.Random.C65_fails",
    "Verif.Random.C65_period_fails",
    "Verif.Random.C65_step_partial"
   ],
   "note": "The code violates the property: the ring position is never stored back, so fourteen of sixteen words are dead, and the outputs repeat within 2^128 steps. The step itself matches the published one for a given position."
  },
  {
   "property": "C66",
   "status": "proved",
   "theorems": [
    "Verif.Random.C66_unit_interval"
   ],
   "note": "Floating point enters only through a rounding function assumed exact on representable numbers."
  },
  {
   "property": "C67",
   "status": "proved",
   "theorems": [
    "Verif.Random.C67_discard",
    "Verif.Random.C67_reseed",
    "Verif.Random.C67_reseed16",
    "Verif.Random.C67_engines",
    "Verif.Random.C67_seeded"
   ],
   "note": ""
  },
  {
   "property": "C68",
   "status": "proved",
   "theorems": [
    "Verif.Random.C68_rotate"
   ],
   "note": ""
  },
  {
   "property": "C69",
   "status": "proved",
   "theorems": [
    "Verif.Stat.C69_count_sum",
    "Verif.Stat.C69_min",
    "Verif.Stat.C69_max",
    "Verif.Stat.C69_mean",
    "Verif.Stat.C69_variance",
    "Verif.Stat.C69_variance_nonneg",
    "Verif.Stat.C69_order"
   ],
   "note": "Every history of samples and Reset over any ordered field: Count and Sum; Min/Max as least/greatest sample, NaN exactly without samples; Mean; the value under the root of Stddev is the (n-1)-normalised sum of squared deviations, NaN below two samples, never negative, zero exactly when all samples agree; the order of the samples is irrelevant. Rounding and the square root are not modelled."
  },
  {
   "property": "C70",
   "status": "proved",
   "theorems": [
    "Verif.Stat.C70_step",
    "Verif.Stat.C70_has",
    "Verif.Stat.C70_reach"
   ],
   "note": "Any number of containers and any history of Add, erase and MergeFrom (also of a container into itself, in any enumeration order): each call has exactly the documented effect on the map from names to objects, Add throws exactly for a present name and changes nothing, MergeFrom never replaces."
  },
  {
   "property": "C71",
   "status": "proved",
   "theorems": [
    "Verif.Stat.C71_enumerates",
    "Verif.Stat.C71_hasNext"
   ],
   "note": "From construction or from Reset after any calls, HasNext/Next gives each name of the snapshot exactly once, then Next throws; Next succeeds exactly when HasNext. The enumerator owns a copy of the names, so later changes of the container cannot reach it."
  },
  {
   "property": "C72",
   "status": "proved",
   "theorems": [
    "Verif.Log.C72_records",
    "Verif.Log.C72_add",
    "Verif.Log.C72_share"
   ],
   "note": "Refinement: after every history of constructors, copies, moves, assignments, Copy(), Add and Update over any number of records, Exists and Get show exactly what an abstract specification (values per record and a sharing relation) says, with both exceptions of Get; Add reports whether the name was absent; sharing is an equivalence and sharing records show the same values."
  },
  {
   "property": "C73",
   "status": "partial",
   "theorems": [
    "Verif.Log.C73_connected_partial",
    "Verif.Log.C73_registered",
    "Verif.Log.C73_null_fails"
   ],
   "note": "Full claim for every history in which no first Connect and no RegisterSource throws (other parties may connect to and disconnect from the sources): each source carries as many connections of the logger as it is registered, none without sinks. Missing and false: after Connect with a null sink the sources stay connected without any sink (C73_null_fails). Histories in which calls throw are the subject of C162 (failed_connected)."
  },
  {
   "property": "C74",
   "status": "partial",
   "theorems": [
    "Verif.Log.C74_fails",
    "Verif.Log.C74_partial"
   ],
   "note": "False as stated: after Connect(null) on a logger without sinks every later Connect throws IllegalMethodCall (C74_fails, any number of attempts). True if the logger has a sink at that time, or after any call of Disconnect that leaves it without sinks."
  },
  {
   "property": "C75",
   "status": "proved",
   "theorems": [
    "Verif.Log.C75_fire",
    "Verif.Log.C75_sinks"
   ],
   "note": "Every history of the record and of the pending values, every enumeration order of the hash map, every filter: no exception, the delivered record shows its own values and the pending ones for absent names, it is handed to the event exactly when accepted, and the event then calls each connected sink exactly once."
  },
  {
   "property": "C76",
   "status": "partial",
   "theorems": [
    "Verif.Util.C76_partial",
    "Verif.Util.C76_step",
    "Verif.Util.C76_no_leak",
    "Verif.Util.C76_assign_exact",
    "Verif.Util.C76_assign_fails",
    "Verif.Util.C76_assign_own_fails",
    "Verif.Util.C76_ctor_fails"
   ],
   "note": "refinement to capacity+sequence over all histories on any number of vectors, with every live block owned by one vector and no object lost (no_leak); assign to fewer elements keeps the old tail (assign_exact, assign_fails), assign of an own element reads a destroyed object, and the sized constructor does not check the capacity"
  },
  {
   "property": "C77",
   "status": "proved",
   "theorems": [
    "Verif.Util.C77_index",
    "Verif.Util.C77_at_defined",
    "Verif.Util.C77_row",
    "Verif.Util.C77_column",
    "Verif.Util.C77_all",
    "Verif.Util.C77_distance",
    "Verif.Util.C77_overflow_fails"
   ],
   "note": "for matrices whose number of cells fits size_t; the constructor does not check that (overflow_fails)"
  },
  {
   "property": "C78",
   "status": "partial",
   "theorems": [
    "Verif.Util.C78_fill1",
    "Verif.Util.C78_fill2_partial",
    "Verif.Util.C78_fill2_exact",
    "Verif.Util.C78_fails",
    "Verif.Util.C78_fill"
   ],
   "note": "fill1 and fill in full; fill2 compares the column with the number of rows (exact behaviour and negation proved)"
  },
  {
   "property": "C79",
   "status": "proved",
   "theorems": [
    "Verif.Endian.C79_reorder_reverses",
    "Verif.Endian.C79_reorder_twice",
    "Verif.Endian.C79_conversions"
   ],
   "note": ""
  },
  {
   "property": "C80",
   "status": "proved",
   "theorems": [
    "Verif.Util.C80_trichotomy",
    "Verif.Util.C80_antisymm",
    "Verif.Util.C80_trans",
    "Verif.Util.C80_unordered_fails"
   ],
   "note": "members of ordered types; incomparable members (NaN) are reported greater both ways"
  },
  {
   "property": "C81",
   "status": "proved",
   "theorems": [
    "Verif.Random.C81_is_power_2"
   ],
   "note": ""
  },
  {
   "property": "C82",
   "status": "proved",
   "theorems": [
    "Verif.Iter.C82_bytes_round_trip",
    "Verif.Iter.C82_native_and_fill"
   ],
   "note": ""
  },
  {
   "property": "C83",
   "status": "partial",
   "theorems": [
    "Verif.Iter.C83_move_partial",
    "Verif.Iter.C83_move_fails",
    "Verif.Iter.C83_access",
    "Verif.Iter.C83_diff",
    "Verif.ZcIter.C83_zc_move_partial",
    "Verif.ZcIter.C83_zc_diff",
    "Verif.ZcIter.C83_zc_move_fails"
   ],
   "note": "Moves are right unless the size_t sum wraps; witness of the wrapping violation given. Accesses are proved for blocks below 2^63 bytes. The same is proved of the moves of iterators of zero-compressed buffers (C83_zc_*); their accesses are C12 and C14."
  },
  {
   "property": "C84",
   "status": "proved",
   "theorems": [
    "Verif.Random.C84_scramblers",
    "Verif.Random.C84_engines"
   ],
   "note": "Stated for the output function of every engine type."
  },
  {
   "property": "C85",
   "status": "proved",
   "theorems": [
    "Verif.Packet.C85_add_size",
    "Verif.Packet.C85_remove",
    "Verif.Packet.C85_add_buffer",
    "Verif.Packet.C85_add_packet",
    "Verif.Packet.C85_fragment"
   ],
   "note": ""
  },
  {
   "property": "C86",
   "status": "proved",
   "theorems": [
    "Verif.Packet.C86_defined",
    "Verif.Packet.C86_bounds",
    "Verif.Packet.C86_byte_tag"
   ],
   "note": ""
  },
  {
   "property": "C87",
   "status": "proved",
   "theorems": [
    "Verif.Address.C87_toString"
   ],
   "note": ""
  },
  {
   "property": "C88",
   "status": "partial",
   "theorems": [
    "Verif.Log.C88_fails",
    "Verif.Log.C88_caller_iff"
   ],
   "note": "False as stated: pending values are written into the body shared with the caller's record, even when the filter rejects the record. Exact condition proved: the caller's record keeps its values if and only if every pending name is among its names already."
  },
  {
   "property": "C89",
   "status": "partial",
   "theorems": [
    "Verif.Log.C89_streams_partial",
    "Verif.Log.C89_two_files_fails"
   ],
   "note": "False as stated: the sink keeps pointers to elements of a vector that moves them when it grows (for every growth policy some number of files, two with doubling from an empty vector). Holds for any number of streams and at most one file."
  },
  {
   "property": "C90",
   "status": "proved",
   "theorems": [
    "Verif.TestFw.run_starts_in_order",
    "Verif.TestFw.run_evaluates_in_order"
   ],
   "note": "For every tree and every runner whose stop flag is clear. Bodies are lists of assertions and messages. A run after a fatal failure starts nothing: see C91."
  },
  {
   "property": "C91",
   "status": "partial",
   "theorems": [
    "Verif.TestFw.totals_partial",
    "Verif.TestFw.build_no_failures",
    "Verif.TestFw.stopped_run_does_nothing",
    "Verif.TestFw.second_run_recounts_fails",
    "Verif.TestFw.run_after_fatal_fails"
   ],
   "note": "Holds for the first run of a program. Missing because false: a second run adds its failures to those of the first (witness 1 then 2; general law m times), and after a fatal failure the stop flag is never cleared, so a later run starts no case."
  },
  {
   "property": "C92",
   "status": "proved",
   "theorems": [
    "Verif.TestFw.run_progress",
    "Verif.TestFw.progress_monotone",
    "Verif.TestFw.progress_example"
   ],
   "note": "Exact sequence of percentages, then monotonicity and the end at 100. The floating-point quotient is evaluated exactly."
  },
  {
   "property": "C93",
   "status": "partial",
   "theorems": [
    "Verif.TestFw.registered_cases_partial",
    "Verif.TestFw.first_registration_wins",
    "Verif.TestFw.repeated_name_fails",
    "Verif.TestFw.registered_cases_example"
   ],
   "note": "Holds when names are distinct within a suite. Missing because false: a second case with the same name in the same suite is silently dropped (witness), the first registration wins in general."
  },
  {
   "property": "C94",
   "status": "proved",
   "theorems": [
    "Verif.TestFw.log_attributes_failures",
    "Verif.TestFw.log_example"
   ],
   "note": "Lines are structured values; a user message that imitates a heading is not considered."
  },
  {
   "property": "C95",
   "status": "partial",
   "theorems": [
    "Verif.TestFw.suite_heading_once_partial",
    "Verif.TestFw.case_heading_once_fails"
   ],
   "note": "Holds for suites. Missing because false: the heading of the case is printed for every failure, against the comment on prevCase_."
  },
  {
   "property": "C96",
   "status": "proved",
   "theorems": [
    "Verif.Fixed.copies_stay_equal",
    "Verif.Fixed.size_is_fixed",
    "Verif.Fixed.write_effect",
    "Verif.Fixed.fixed_example"
   ],
   "note": "All histories over any number of objects."
  },
  {
   "property": "C97",
   "status": "proved",
   "theorems": [
    "Verif.Fixed.constructed_is_independent",
    "Verif.Fixed.unshared_is_untouched"
   ],
   "note": "Bytes of uninitialised buffers are a parameter of the model."
  },
  {
   "property": "C98",
   "status": "proved",
   "theorems": [
    "Verif.Fixed.defined_iff_valid",
    "Verif.Fixed.storage_lifetime",
    "Verif.Fixed.move_transfers"
   ],
   "note": "Allocation failure is not modelled."
  },
  {
   "property": "C99",
   "status": "proved",
   "theorems": [
    "Verif.Fixed.copyTo_copies"
   ],
   "note": ""
  },
  {
   "property": "C100",
   "status": "partial",
   "theorems": [
    "Verif.Chrono.C100_mul",
    "Verif.Chrono.C100_div_number",
    "Verif.Chrono.C100_div_mod",
    "Verif.Chrono.C100_neg",
    "Verif.Chrono.C100_step",
    "Verif.Chrono.C100_assign_coarser",
    "Verif.Chrono.C100_assign_finer",
    "Verif.Chrono.C100_assign_fails",
    "Verif.Chrono.C100_makers"
   ],
   "note": "All of it except compound assignment from a finer unit: there += and -= are off by less than one unit of the target, and %= can divide by zero (C100_assign_fails)."
  },
  {
   "property": "C101",
   "status": "proved",
   "theorems": [
    "Verif.Chrono.C101_text",
    "Verif.Chrono.C101_time_point",
    "Verif.Chrono.C101_format",
    "Verif.Chrono.C101_min_fails",
    "Verif.Chrono.C101_example"
   ],
   "note": "Units 10^-k with k at most 18. The minimum count has no text (C101_min_fails)."
  },
  {
   "property": "C102",
   "status": "proved",
   "theorems": [
    "Verif.Message.C102_round_trip",
    "Verif.Message.C102_compressed",
    "Verif.Message.C102_compressed_accepts"
   ],
   "note": "Buffers and storages below 2^63 bytes. Arithmetic values as bit patterns. Addresses only on little-endian hosts, the only ones the address header supports."
  },
  {
   "property": "C103",
   "status": "proved",
   "theorems": [
    "Verif.Message.C103_same_reads"
   ],
   "note": "Buffers and storages below 2^63 bytes."
  },
  {
   "property": "C104",
   "status": "proved",
   "theorems": [
    "Verif.Message.C104_wire",
    "Verif.Message.C104_wire_compressed"
   ],
   "note": "Format spelled out independently of the writers; on a zero-compressed buffer whenever the writes are accepted (C102 says when)."
  },
  {
   "property": "C105",
   "status": "proved",
   "theorems": [
    "Verif.Util.C105_step",
    "Verif.Util.C105_runs",
    "Verif.Util.C105_array",
    "Verif.Util.C105_no_leak"
   ],
   "note": "Element constructors that throw are not modelled."
  },
  {
   "property": "C106",
   "status": "partial",
   "theorems": [
    "Verif.Util.Hex.C106_partial",
    "Verif.Util.Hex.C106_injective",
    "Verif.Util.Hex.C106_left_fails",
    "Verif.Util.Hex.C106_showbase_fails",
    "Verif.Util.Hex.C106_sticky_fails"
   ],
   "note": "Holds on streams that do not adjust to the left, do not show bases and have no pending width. The code violates the rest."
  },
  {
   "property": "C107",
   "status": "partial",
   "theorems": [
    "Verif.TestFw.Close.C107_signed_partial",
    "Verif.TestFw.Close.C107_signed_relative_partial",
    "Verif.TestFw.Close.C107_float_partial",
    "Verif.TestFw.Close.C107_float_relative_partial",
    "Verif.TestFw.Close.C107_unsigned_exact",
    "Verif.TestFw.Close.C107_unsigned_fails",
    "Verif.TestFw.Close.C107_nan_fails",
    "Verif.TestFw.Close.C107_double_close",
    "Verif.TestFw.Close.C107_double_pass_partial",
    "Verif.TestFw.Close.C107_double_exact",
    "Verif.TestFw.Close.C107_double_infinite",
    "Verif.TestFw.Close.C107_double_infinite_limit",
    "Verif.TestFw.Close.C107_double_nan_fails",
    "Verif.TestFw.Close.C107_double_fails",
    "Verif.TestFw.Close.C107_double_overflow_fails"
   ],
   "note": "Holds on signed integers without overflow and on exact numbers; on doubles close values always pass, and values that pass are close up to rounding, exactly so if they have the same sign and are within a factor of two. The code violates it on unsigned integers, NaN, when a difference is rounded down to the tolerance, and when the relative tolerance overflows. Subnormal numbers are rounded like others."
  },
  {
   "property": "C108",
   "status": "partial",
   "theorems": [
    "Verif.Ptr.C108_partial",
    "Verif.Ptr.C108_aggregated_fails"
   ],
   "note": "Holds without a controller; with one, the sink is destroyed before the caller gets the pointer."
  },
  {
   "property": "C109",
   "status": "partial",
   "theorems": [
    "Verif.Log.Functor.C109_partial",
    "Verif.Log.Functor.C109_temporaries_partial",
    "Verif.Log.Functor.C109_changed_fails",
    "Verif.Log.Functor.C109_shared_fails",
    "Verif.Log.Functor.C109_gone_fails"
   ],
   "note": "Holds for functors given as temporaries, and for variables left alone while a filter made from them exists; for other uses of a variable the code keeps a reference and violates it."
  },
  {
   "property": "C110",
   "status": "partial",
   "theorems": [
    "Verif.Log.Macro.C110_partial",
    "Verif.Log.Macro.C110_capture_fails",
    "Verif.Log.Macro.C110_const_fails"
   ],
   "note": "Holds except for operands that name variables called go or oss, which are captured by the macro, and for constant pointers to a logger, through which a disabled logger still evaluates and fires."
  },
  {
   "property": "C111",
   "status": "proved",
   "theorems": [
    "Verif.Packet.C111_sent",
    "Verif.Packet.C111_received",
    "Verif.Packet.C111_progress"
   ],
   "note": "Storages of 2^63 bytes or more are excluded (no allocation can be so large). Operations on other packets that copy tags or write through buffers shared with this packet are excluded, see C19."
  },
  {
   "property": "C112",
   "status": "proved",
   "theorems": [
    "Verif.Random.C112_state_period",
    "Verif.Random.C112_output_period",
    "Verif.Random.C112_seeded"
   ],
   "note": "Prime factorisations of the periods with Lucas certificates, and polynomial certificates for each transition, all checked by the kernel. For the 32-bit engines the hypothesis is that the state is not all zero; whether some 32-bit seed gives the zero state is not decided."
  },
  {
   "property": "C113",
   "status": "proved",
   "theorems": [
    "Verif.Random.C113_even"
   ],
   "note": "Follows from the full cycle and from counting the states that give an output."
  },
  {
   "property": "C114",
   "status": "proved",
   "theorems": [
    "Verif.Random.C114_lifetime"
   ],
   "note": "Counted pointers to engines and distributions; any history."
  },
  {
   "property": "C115",
   "status": "proved",
   "theorems": [
    "Verif.Random.C115_shared_stream"
   ],
   "note": "Boost distributions are parameters that report how many outputs they took; non-returning ones are a distinct outcome."
  },
  {
   "property": "C116",
   "status": "proved",
   "theorems": [
    "Verif.Random.C116_no_interference"
   ],
   "note": "For histories in which no call fails."
  },
  {
   "property": "C117",
   "status": "proved",
   "theorems": [
    "Verif.Random.C117_replay",
    "Verif.Random.C117_seeding"
   ],
   "note": "Assumes of Boost that reset makes a distribution indistinguishable from a new one; a case shows that seeding without Reset does not replay."
  },
  {
   "property": "C118",
   "status": "proved",
   "theorems": [
    "Verif.Random.C118_one_shot"
   ],
   "note": "Stated for an engine held by the user, with arguments that pass the assertions of Create (see C120); there are no one-shot calls for the three kinds made from a parameter object."
  },
  {
   "property": "C119",
   "status": "partial",
   "theorems": [
    "Verif.Random.C119_seed_fails",
    "Verif.Random.C119_seed_partial"
   ],
   "note": "The documented 64-bit seeds are refuted for Seed and for the 32-bit engines; what holds is proved."
  },
  {
   "property": "C120",
   "status": "partial",
   "theorems": [
    "Verif.Random.C120_arguments_fails",
    "Verif.Random.C120_arguments_partial"
   ],
   "note": "Refuted for Laplace with mean 0; exact for all other kinds, including NaN and infinities."
  },
  {
   "property": "C121",
   "status": "proved",
   "theorems": [
    "Verif.Buf.C121_read_only",
    "Verif.Buf.C121_defined",
    "Verif.Buf.C121_kinds",
    "Verif.Buf.C121_append"
   ],
   "note": "Refinement to independent byte sequences; no condition on the history."
  },
  {
   "property": "C122",
   "status": "partial",
   "theorems": [
    "Verif.Buf.C122_snapshot_partial",
    "Verif.Buf.C122_snapshot_fails"
   ],
   "note": "Proved when the family of the read-only buffer contains no fragment and does not descend from a deep copy, and no iterator writes happen meanwhile; a fragment made of the read-only buffer itself breaks it (witness)."
  },
  {
   "property": "C123",
   "status": "proved",
   "theorems": [
    "Verif.Zc.C123_read_only",
    "Verif.Zc.C123_defined",
    "Verif.Zc.C123_kinds",
    "Verif.Zc.C123_append"
   ],
   "note": "Refinement to independent byte sequences; moved-from objects unspecified (the move constructor copies)."
  },
  {
   "property": "C124",
   "status": "partial",
   "theorems": [
    "Verif.Zc.C124_snapshot_partial",
    "Verif.Zc.C124_snapshot_fails"
   ],
   "note": "Proved when the family of the read-only buffer does not descend from a deep copy and no iterator writes happen meanwhile; the deep-copying constructor breaks it (witness)."
  },
  {
   "property": "C125",
   "status": "partial",
   "theorems": [
    "Verif.ZPacket.C125_isolated_partial",
    "Verif.ZPacket.C125_storing_partial",
    "Verif.ZPacket.C125_traffic_partial",
    "Verif.ZPacket.C125_copyTags_partial",
    "Verif.ZPacket.C125_copy",
    "Verif.ZPacket.C125_copyTags_fails",
    "Verif.ZPacket.C125_overwrite_fails"
   ],
   "note": "The code violates the full statement: CopyTagsFrom writes to a shared body, and storages of deep copies are overwritten. Proved for all operations that do not store bytes after any history; for all others but CopyTagsFrom in histories without deep copies from another kind of buffer, including writes into a header or trailer that was just added. Not covered: later writes through buffers the client kept."
  },
  {
   "property": "C126",
   "status": "proved",
   "theorems": [
    "Verif.ZPacket.C126_undo",
    "Verif.ZPacket.C126_nested",
    "Verif.ZPacket.C126_defined"
   ],
   "note": "C126_nested lets other packets get headers and trailers with stored bytes meanwhile, in histories without deep copies."
  },
  {
   "property": "C127",
   "status": "partial",
   "theorems": [
    "Verif.ZPacket.C127_add_size",
    "Verif.ZPacket.C127_remove",
    "Verif.ZPacket.C127_add_buffer_partial",
    "Verif.ZPacket.C127_add_packet_partial",
    "Verif.ZPacket.C127_fragment",
    "Verif.ZPacket.C127_hollow_fails"
   ],
   "note": "Adding a buffer or packet of zeros that has no storage adds indeterminate bytes (witness); otherwise concatenation is proved in histories without deep copies from another kind of buffer. Everything else is proved for every history."
  },
  {
   "property": "C128",
   "status": "proved",
   "theorems": [
    "Verif.ZPacket.C128_defined",
    "Verif.ZPacket.C128_bounds",
    "Verif.ZPacket.C128_byte_tag"
   ],
   "note": ""
  },
  {
   "property": "C129",
   "status": "proved",
   "theorems": [
    "Verif.ZPacket.C129_sent",
    "Verif.ZPacket.C129_received",
    "Verif.ZPacket.C129_progress"
   ],
   "note": "Writing a message through the iterator of the buffer returned by AddHeader is the byte write of the zero-compressed buffer model (that buffer never has a boundary of a zero area inside); reading works for every placement of the zero area. Storages and logical sizes below 2^63 are hypotheses (Fits)."
  },
  {
   "property": "C130",
   "status": "proved",
   "theorems": [
    "Verif.Packet.C130_sent",
    "Verif.Packet.C130_received",
    "Verif.Packet.C130_progress"
   ],
   "note": "Storages below 2^63 bytes are a hypothesis (Fits). Progress for headers is C111_progress."
  },
  {
   "property": "C131",
   "status": "proved",
   "theorems": [
    "Verif.ZPacket.C131_sent",
    "Verif.ZPacket.C131_received",
    "Verif.ZPacket.C131_progress"
   ],
   "note": "Storages and logical sizes below 2^63 are hypotheses (Fits). Progress for headers is C129_progress. The buffers returned by AddHeader and AddTrailer have no boundary of a zero area inside."
  },
  {
   "property": "C132",
   "status": "proved",
   "theorems": [
    "Verif.Random.Params.C132_sees",
    "Verif.Random.Params.C132_create",
    "Verif.Random.Params.C132_addWeight",
    "Verif.Random.Params.C132_setLower",
    "Verif.Random.Params.C132_addInterval",
    "Verif.Random.Params.C132_addBound",
    "Verif.Random.Params.C132_shape"
   ],
   "note": "What is handed to Boost's distributions; what Boost makes of it (normalisation, empty sequences, its own counting with the iterators' int32_t difference_type) is not modelled."
  },
  {
   "property": "C133",
   "status": "partial",
   "theorems": [
    "Verif.Sim.C133_agrees",
    "Verif.Sim.C133_list_partial",
    "Verif.Sim.C133_set_partial",
    "Verif.Sim.C133_heap_partial",
    "Verif.Sim.C133_completed",
    "Verif.Sim.C133_after_throw",
    "Verif.Sim.C133_list_fails",
    "Verif.Sim.C133_set_fails",
    "Verif.Sim.C133_heap_fails",
    "Verif.Sim.C133_interchangeable_fails"
   ],
   "note": "The code violates the full statement. Proved: nothing is lost, no sink is called after cancellation, with list and set schedulers each sink returns at most once (exactly once if all events are gone and it was not cancelled), with the heap scheduler each sink is called at most once. Refuted: list and set schedulers fire the event again, all three leave its handle running, and they no longer agree."
  },
  {
   "property": "C134",
   "status": "partial",
   "theorems": [
    "Verif.Util.C134_push_partial",
    "Verif.Util.C134_assign_fails",
    "Verif.Util.C134_copyAssign_fails",
    "Verif.Util.C134_constructor_fails"
   ],
   "note": "The code violates the full statement. Proved for push_back in every history; refuted, for every reachable state and every position of the exception, for assign and copy assignment (the vector cannot be destroyed) and for the constructors (memory and objects are never released)."
  },
  {
   "property": "C135",
   "status": "partial",
   "theorems": [
    "Verif.Event.C135_void_partial",
    "Verif.Event.C135_args_partial",
    "Verif.Event.C135_one_partial",
    "Verif.Event.C135_quiet",
    "Verif.Event.C135_held",
    "Verif.Event.C135_fails"
   ],
   "note": "The full statement is false of the code: a sink that only the event holds and that disconnects itself is destroyed during its own call. Proved: a destroyed sink is only ever used after its connection was disconnected during its call and when nobody else holds it; never if sinks do not disconnect."
  },
  {
   "property": "C136",
   "status": "partial",
   "theorems": [
    "Verif.Event.C136_partial",
    "Verif.Event.C136_quiet",
    "Verif.Event.C136_fails",
    "Verif.Event.C136_nested_fails"
   ],
   "note": "The full statement is false of the code: EventHandle::Cancel during EventHandle::Fire, and a nested Fire of the same handle, release the sink that is running. Proved: nothing else does."
  },
  {
   "property": "C137",
   "status": "partial",
   "theorems": [
    "Verif.Sim.C137_agrees",
    "Verif.Sim.C137_heap_partial",
    "Verif.Sim.C137_completed",
    "Verif.Sim.C137_clock",
    "Verif.Sim.C137_list_fails",
    "Verif.Sim.C137_set_fails",
    "Verif.Sim.C137_run_fails"
   ],
   "note": "Proved in full for the heap scheduler, except that the end of a run in a sink is taken for a pause by the outer run (C137_run_fails). The list and set schedulers fire the event whose sink runs the simulator again, and the list scheduler then removes another event that was never fired (C137_list_fails, C137_set_fails). In the model the set scheduler removes the key by value; the code erases through an iterator that the inner run has already invalidated, which is undefined behaviour."
  },
  {
   "property": "C138",
   "status": "partial",
   "theorems": [
    "Verif.Util.C138_partial",
    "Verif.Util.C138_no_leak",
    "Verif.Util.C138_fails"
   ],
   "note": "Proved for histories in which the number of cells of each matrix is below 2^64 and fill2 is given a column below the number of rows as well; outside of that the code fails (C138_fails). The number of bytes (cells times sizeof(T)) is the subject of C163."
  },
  {
   "property": "C139",
   "status": "partial",
   "theorems": [
    "Verif.Buf.C139_buffer_partial",
    "Verif.Zc.C139_zc_partial",
    "Verif.Buf.C139_buffer_fails",
    "Verif.Zc.C139_zc_add_fails",
    "Verif.Zc.C139_remove_fails",
    "Verif.Zc.C139_zeros_fails"
   ],
   "note": "Proved for all histories whose sizes fit (bytes added plus size, for ZcBuffer plus capacity, below 2^64 - 39). For larger requests the code does not have the property: adding is undefined when the sum wraps, ZcBuffer::RemoveAtStart can grow the buffer, and a ZcBuffer whose reserved bytes and zeros reach 2^64 loses its zeros."
  },
  {
   "property": "C140",
   "status": "partial",
   "theorems": [
    "Verif.Util.C140_array_partial",
    "Verif.Util.C140_matrix_partial",
    "Verif.Util.C140_array_assign_fails",
    "Verif.Util.C140_array_constructor_fails",
    "Verif.Util.C140_matrix_share_fails",
    "Verif.Util.C140_matrix_assign_fails",
    "Verif.Util.C140_matrix_constructor_fails"
   ],
   "note": "The code violates the full statement. Proved, in every history, for constructors that find no memory and for assignments of elements that throw (at, fill, fill1, fill2). Refuted, for every reachable state and every position of the exception, for copy assignment (a matrix that finds no memory keeps the cells of its source and both cannot be destroyed; otherwise the target cannot be destroyed) and for constructors whose elements throw (memory and objects are never released)."
  },
  {
   "property": "C141",
   "status": "partial",
   "theorems": [
    "Verif.Tag.C141_tags",
    "Verif.Tag.C141_tags_others",
    "Verif.Tag.C141_tags_concat_partial",
    "Verif.Tag.C141_tags_after",
    "Verif.Tag.C141_tags_concat_fails",
    "Verif.Packet.C141_packets_partial",
    "Verif.Packet.C141_retry",
    "Verif.Packet.C141_others",
    "Verif.Packet.C141_shift_fails",
    "Verif.Packet.C141_terminates_fails",
    "Verif.ZPacket.C141_packets_partial",
    "Verif.ZPacket.C141_retry",
    "Verif.ZPacket.C141_others",
    "Verif.ZPacket.C141_shift_fails",
    "Verif.ZPacket.C141_terminates_fails"
   ],
   "note": "The code violates the full statement: when a tag list cannot follow bytes that have already been added, the bytes stay and tags move to other bytes; a failed concatenation of tag lists keeps part of the tags; RemoveHeader, RemoveTrailer and MakeFragment are noexcept but allocate, which ends the program. Proved: failures to allocate the body or the storage, and tags that cannot be added, change nothing, and all theorems about packets (C19, C20, C85, C86, C111, C125-C131) hold after any number of such failures; after the other failures of AddHeader(size) and AddTrailer(size) all other packets are as they were; every failure of a tag list leaves a state from which the theorems about tag lists hold."
  },
  {
   "property": "C142",
   "status": "partial",
   "theorems": [
    "Verif.Sim.C142_scheduleIn",
    "Verif.Sim.C142_scheduleIn_negative",
    "Verif.Sim.C142_range_heap",
    "Verif.Sim.C142_range_list",
    "Verif.Sim.C142_range_set",
    "Verif.Sim.C142_exact_partial",
    "Verif.Sim.C142_interchangeable",
    "Verif.Sim.C142_exactly_once",
    "Verif.Sim.C142_exactly_once_list",
    "Verif.Sim.C142_exactly_once_set",
    "Verif.Sim.C142_order",
    "Verif.Sim.C142_order_list",
    "Verif.Sim.C142_order_set",
    "Verif.Sim.C142_runFor_fails",
    "Verif.Sim.C142_scheduleIn_fails"
   ],
   "note": "Proved for every program and history: ScheduleIn with a non-negative delay is exact or throws; range; interchangeability, exactly-once and order in 64 bits; equality with the unbounded simulation away from the ends of the range. False in the code: RunFor with a long duration moves the clock to the far past (C142_runFor_fails), and ScheduleIn with a very negative delay at a negative time schedules an event in the far future (C142_scheduleIn_fails). Signed overflow, undefined in C++, is taken to wrap."
  },
  {
   "property": "C143",
   "status": "partial",
   "theorems": [
    "Verif.Stat.C143_min_max",
    "Verif.Stat.C143_count_partial",
    "Verif.Stat.C143_sum",
    "Verif.Stat.C143_sqrSum",
    "Verif.Stat.C143_mean_partial",
    "Verif.Stat.C143_variance_partial",
    "Verif.Stat.C143_stddev_partial",
    "Verif.Stat.C143_constant",
    "Verif.Stat.C143_integers",
    "Verif.Stat.C143_count_fails",
    "Verif.Stat.C143_equal_fails",
    "Verif.Stat.C143_stddev_fails",
    "Verif.Stat.C143_order_fails"
   ],
   "note": "For every rounding to nearest with 53 bits and every history: Min and Max exact; error bounds for Sum, the sum of squares, Mean (up to 2^53 samples) and the value under the root of Stddev; integer samples exact. The error of the latter is relative to the squares of the samples, not to the variance. False in the code: Count stops at 2^53 (C143_count_fails); three samples of 0.1 make Stddev NaN (C143_equal_fails); four samples near 10^9 with variance 30 give -170 under the root (C143_stddev_fails). Overflow, subnormal results, infinities, NaN samples and the square root itself are not modelled."
  },
  {
   "property": "C144",
   "status": "partial",
   "theorems": [
    "Verif.Event.C144_consistent",
    "Verif.Event.C144_fire",
    "Verif.Event.C144_void",
    "Verif.Event.C144_args_partial",
    "Verif.Event.C144_ends",
    "Verif.Event.C144_fuel",
    "Verif.Event.C144_connect",
    "Verif.Event.C144_add"
   ],
   "note": "Everything is proved for Fire(void) and Visit. Fire(args...) uses a null sink if a sink disconnects the connection with the highest cookie (C36_fire_args_fails), so that its safety is proved for sinks that keep away from some connection and those above it; order, exceptions and consistency are proved for it whenever it ends."
  },
  {
   "property": "C145",
   "status": "partial",
   "theorems": [
    "Verif.Event.C145_consistent",
    "Verif.Event.C145_alive_partial",
    "Verif.Event.C145_connect_partial",
    "Verif.Event.C145_connect_fails",
    "Verif.Event.C145_self_fails",
    "Verif.Event.C145_one_fails"
   ],
   "note": "The state after Disconnect is proved for every behaviour of the destructors that does not end in a double release. False in the code, because Ptr::Reset releases before it forgets the pointer: a destructor that disconnects its own connection releases the sink again (C145_self_fails, C145_one_fails), and a destructor cannot connect another sink unless there have been more connections before, whatever the capacity (C145_connect_fails, C145_one_fails). Firing the event and GetSink in a destructor are not modelled."
  },
  {
   "property": "C146",
   "status": "proved",
   "theorems": [
    "Verif.Log.Net.C146_enabled",
    "Verif.Log.Net.C146_calls",
    "Verif.Log.Net.C146_attached",
    "Verif.Log.Net.C146_delivered",
    "Verif.Log.Net.C146_times",
    "Verif.Log.Net.C146_once",
    "Verif.Log.Net.C146_cycle_refused",
    "Verif.Log.Net.C146_cycle_endless",
    "Verif.Log.Net.diamond_reach"
   ],
   "note": "Acyclic networks: every logger has a level and sources are of lower level. The two cycle theorems show why cycles are left out. Histories stop at the first exception (states after one are in C73 and C74)."
  },
  {
   "property": "C147",
   "status": "partial",
   "theorems": [
    "Verif.Log.Net.C147_values",
    "Verif.Log.Net.C147_filters",
    "Verif.Log.Net.C147_way_partial",
    "Verif.Log.Net.C147_file_partial",
    "Verif.Log.Net.C147_calls",
    "Verif.Log.Net.C147_fork_fails",
    "Verif.Log.Net.C147_rejected_fails"
   ],
   "note": "The code violates the property: loggers of one source share the body of the record (C147_fork_fails, C147_rejected_fails). C147_values says exactly what sinks see in every network; C147_way_partial is the part for names pending at one logger only, C147_file_partial the full property for networks in which no logger has more than one sink. C147_filters says what filters see."
  },
  {
   "property": "C148",
   "status": "partial",
   "theorems": [
    "Verif.Log.Typed.C148_get",
    "Verif.Log.Typed.C148_plain_partial",
    "Verif.Log.Typed.C148_defined_iff",
    "Verif.Log.Typed.C148_fails",
    "Verif.Log.Typed.C148_pending_fails"
   ],
   "note": "Exactly when reading is defined is proved; the full statement fails for types that differ only in qualifiers or by being a reference."
  },
  {
   "property": "C149",
   "status": "partial",
   "theorems": [
    "Verif.Tag.C149_run",
    "Verif.Tag.C149_get",
    "Verif.Tag.C149_tags",
    "Verif.Tag.C149_assert_partial",
    "Verif.Tag.C149_assert_fails",
    "Verif.Tag.C149_drift_fails"
   ],
   "note": "The behaviour below the bound is proved; the assertions do not catch sizes that make a sum wrap."
  },
  {
   "property": "C150",
   "status": "proved",
   "theorems": [
    "Verif.Log.Life.life_defined",
    "Verif.Log.Life.life_text_stays",
    "Verif.Log.Life.life_get",
    "Verif.Log.Life.life_made",
    "Verif.Log.Life.life_updated",
    "Verif.Log.Life.life_records",
    "Verif.Log.Life.life_sharing",
    "Verif.Log.Life.life_values",
    "Verif.Log.Life.life_exact",
    "Verif.Log.Life.life_plain",
    "Verif.Log.Life.life_no_leak",
    "Verif.Log.Life.life_no_leak_fails"
   ],
   "note": "Freed exactly when no longer held: life_exact, unless some object contains itself; life_plain shows that this cannot happen while no record is put into a value, life_no_leak_fails is the exception named in the statement. Functors in values do not run here. Counters do not overflow."
  },
  {
   "property": "C151",
   "status": "partial",
   "theorems": [
    "Verif.Event.Visit.visit_range",
    "Verif.Event.Visit.visit_items",
    "Verif.Event.Visit.visit_growth",
    "Verif.Event.Visit.visit_ref_partial",
    "Verif.Event.Visit.visit_reads",
    "Verif.Event.Visit.visit_ref_fails"
   ],
   "note": "The loop and the items visited are proved in full; the reference is not good after a visitor has added an item to a full vector (visit_ref_fails, DESIGN.md item 41), which is the only way (visit_growth). Event::Visit runs the same loop but hands out the sink itself, whose life time is C135's."
  },
  {
   "property": "C152",
   "status": "proved",
   "theorems": [
    "Verif.Stat.Feed.feed_reports",
    "Verif.Stat.Feed.feed_results",
    "Verif.Stat.Feed.feed_names",
    "Verif.Stat.Feed.feed_made"
   ],
   "note": "Any histories over any number of containers, probes and summaries; the samples a summary must report are read off the history of calls and results only. Exact arithmetic (rounding is C143), samples are not NaN; the variance is the square of what Stddev returns. Sinks are summaries only, so firing does not change connections (sinks that do are treated with the events, from C34 on); allocation does not fail."
  },
  {
   "property": "C153",
   "status": "partial",
   "theorems": [
    "Verif.Stat.special_min_max_partial",
    "Verif.Stat.special_count",
    "Verif.Stat.special_nan",
    "Verif.Stat.special_inf",
    "Verif.Stat.special_finite",
    "Verif.Stat.special_stddev",
    "Verif.Stat.special_min_max_fails"
   ],
   "note": "Everything but the claim on Min and Max holds as stated. When the first sample after construction or Reset is NaN, Min and Max stay NaN whatever follows (special_min_max_fails), because comparisons with NaN are false; special_min_max_partial tells exactly what they are in every history. Count is exact up to 2^53 samples. Stddev is modelled up to its square root."
  },
  {
   "property": "C154",
   "status": "partial",
   "theorems": [
    "Verif.Query.ptreq_partial",
    "Verif.Query.ptreq_object",
    "Verif.Query.ptreq_null",
    "Verif.Query.ptreq_differ",
    "Verif.Query.ptreq_symm",
    "Verif.Query.ptreq_hash",
    "Verif.Query.ptreq_fails"
   ],
   "note": "Pointers of different types: as claimed, to any interface of the object or its aggregates (ptreq_object). Pointers of one type: as claimed when obtained from the objects by conversions (ptreq_partial); not for two aggregated members with one interface, which are unequal though each equals the object's IObject pointer (ptreq_fails), so the claim fails in general. Counts: the comparison calls AddRef and Release on the same objects equally often."
  },
  {
   "property": "C155",
   "status": "partial",
   "theorems": [
    "Verif.Sim.C155_agrees",
    "Verif.Sim.C155_heap_partial",
    "Verif.Sim.C155_completed",
    "Verif.Sim.C155_begin",
    "Verif.Sim.C155_clock_partial",
    "Verif.Sim.C155_clock_throw_fails",
    "Verif.Sim.C155_clock_begin_fails"
   ],
   "note": "Everything but the clock is proved for the heap scheduler, and the begin event for every scheduler. The clock can go back if a sink of the begin event runs the simulator (C155_clock_begin_fails), or if a sink called by a run catches an exception that has left another run (C155_clock_throw_fails); without these it does not (C155_clock_partial). The list and set schedulers violate the property already in C133 and C137. C155_agrees: the programs of C137 behave the same in both models."
  },
  {
   "property": "C156",
   "status": "partial",
   "theorems": [
    "Verif.Sim.C156_alive_partial",
    "Verif.Sim.C156_cancel_fails",
    "Verif.Sim.C156_run_fails",
    "Verif.Sim.C156_throw_fails",
    "Verif.Sim.C156_list_fails",
    "Verif.Sim.C156_pending_fails",
    "Verif.Sim.C155_heap_partial",
    "Verif.Sim.C155_completed",
    "Verif.Sim.C155_begin",
    "Verif.Sim.C155_clock_partial",
    "Verif.Sim.C156_apart"
   ],
   "note": "The handle releases the sink before it forgets it, so the property fails if a destructor cancels its own event, if the destructor of a cancelled sink runs the simulator, if an exception leaves a destructor, and with the list scheduler if the destructor of a fired sink runs the simulator; and IsPending is true of a fired event inside the destructor. For the heap scheduler without these it is proved (C156_alive_partial), and C155 holds with destructors. C156_apart: no sink is called while it is being destroyed (nor the converse, which is an assumption about the client)."
  },
  {
   "property": "C157",
   "status": "partial",
   "theorems": [
    "Verif.Sim.C157_heap",
    "Verif.Sim.C157_safe_partial",
    "Verif.Sim.C157_exact_partial",
    "Verif.Sim.C157_released_partial",
    "Verif.Sim.C157_throw_fails",
    "Verif.Sim.C157_memory_fails",
    "Verif.Sim.C157_nested_fails",
    "Verif.Sim.C157_twice_fails",
    "Verif.Sim.C157_empty_fails"
   ],
   "note": "That no destroyed handle is used is proved for the heap scheduler without hypotheses. Partial: exact life times are proved where no sink throws and push_back finds memory (heap), where events are fired inside a call only if the simulator holds the handles of all calls under way and more events are pending than calls under way (list), and where no event is fired inside a call (set); without these hypotheses the code leaks handles or uses destroyed ones, as the _fails theorems show."
  },
  {
   "property": "C158",
   "status": "partial",
   "theorems": [
    "Verif.Sim.Own.own_defined",
    "Verif.Sim.Own.own_held",
    "Verif.Sim.Own.own_exact",
    "Verif.Sim.Own.own_no_leak_partial",
    "Verif.Sim.Own.own_schedule",
    "Verif.Sim.Own.own_fire",
    "Verif.Sim.Own.own_plain",
    "Verif.Sim.Own.own_wired_fails",
    "Verif.Sim.Own.own_simulation_fails"
   ],
   "note": "What the user's pointers lead to exists, and anything else exists only behind a cycle of references. The code violates the rest: a simulator and a scheduler that uses it as its clock refer to each other, so neither is ever destroyed, whatever follows. Sinks do nothing when called in this model."
  },
  {
   "property": "C159",
   "status": "proved",
   "theorems": [
    "Verif.Random.C159_reports",
    "Verif.Random.C159_open"
   ],
   "note": "Assumes of Boost's distributions that they keep the arguments they are constructed with and that accessors, min() and max() return what Boost documents. The ends of unbounded ranges are whatever Boost returns; distributions made from a parameter object are not covered."
  },
  {
   "property": "C160",
   "status": "partial",
   "theorems": [
    "Verif.Random.C160_trials_fails",
    "Verif.Random.C160_trials_partial"
   ],
   "note": "Refuted for every number of trials from 2^31; exact below, and for negative binomial distributions."
  },
  {
   "property": "C161",
   "status": "partial",
   "theorems": [
    "Verif.Log.Own.own_defined",
    "Verif.Log.Own.own_held",
    "Verif.Log.Own.own_exact",
    "Verif.Log.Own.own_self",
    "Verif.Log.Own.own_feed",
    "Verif.Log.Own.own_effect",
    "Verif.Log.Own.own_filter",
    "Verif.Log.Own.own_plain",
    "Verif.Log.Own.own_released_partial",
    "Verif.Log.Own.own_logger_fails",
    "Verif.Log.Own.own_program_fails",
    "Verif.Log.Own.setup_plain"
   ],
   "note": "Destruction of what was released is false for loggers with sinks (own_logger_fails, own_program_fails); proved: everything else, and exactly what remains (own_plain, own_exact). Loggers are registered in acyclic ways; sinks, filters and sources do nothing when called or destroyed."
  },
  {
   "property": "C162",
   "status": "partial",
   "theorems": [
    "Verif.Log.failed_connected",
    "Verif.Log.failed_connect",
    "Verif.Log.failed_connect_effect",
    "Verif.Log.failed_recover",
    "Verif.Log.failed_register",
    "Verif.Log.failed_register_fails",
    "Verif.Log.failed_connect_fails"
   ],
   "note": "When calls throw, what each leaves behind and how a Disconnect undoes it, for every history in which other parties disconnect only their own connections and calls keep to the assertion of UnregisterSource. Missing and false: calls that throw do have effects (failed_connect_fails, failed_register_fails). All sources have the same limit."
  },
  {
   "property": "C163",
   "status": "partial",
   "theorems": [
    "Verif.Util.Mem.mem_made_partial",
    "Verif.Util.Mem.mem_iff",
    "Verif.Util.Mem.mem_fails",
    "Verif.Util.Mem.mem_index",
    "Verif.Util.Mem.mem_moves",
    "Verif.Util.Mem.mem_order"
   ],
   "note": "Construction: full claim for containers of less than 2^64 bytes, and mem_iff shows that no others satisfy it; mem_fails has arrays and a matrix that are constructed in too small a block. Iterators: full claim (order and distance as long as the addresses up to the end exist and span less than 2^63 bytes)."
  },
  {
   "property": "C164",
   "status": "partial",
   "theorems": [
    "Verif.Stat.Short.short_add",
    "Verif.Stat.Short.short_merge",
    "Verif.Stat.Short.short_resume",
    "Verif.Stat.Short.short_clean_partial",
    "Verif.Stat.Short.short_cure",
    "Verif.Stat.Short.short_fails"
   ],
   "note": "Partial because the code violates it: Add puts a null pointer under the name first and makes the object afterwards, so that a failed allocation of the object leaves the name with a null pointer (short_fails, for every state and every later history without erase of the name). Proved for every history: Add without memory for the item changes nothing and Add with memory works; MergeFrom ended anywhere replaces nothing and can be resumed; without a failure between item and object every name leads to an object; erase undoes the failed Add. Resuming is proved for two different containers."
  },
  {
   "property": "C165",
   "status": "proved",
   "theorems": [
    "Verif.Stat.Typed.typed_calls",
    "Verif.Stat.Typed.typed_safe",
    "Verif.Stat.Typed.typed_connect",
    "Verif.Stat.Typed.typed_results"
   ],
   "note": "For every history. Collectors only remember their calls (sinks that use the event while it fires: C36, C144); the capacity is below 2^32."
  },
  {
   "property": "C166",
   "status": "proved",
   "theorems": [
    "Verif.Stat.Own.own_defined",
    "Verif.Stat.Own.own_held",
    "Verif.Stat.Own.own_exact",
    "Verif.Stat.Own.own_plain",
    "Verif.Stat.Own.own_no_leak",
    "Verif.Stat.Own.own_frame",
    "Verif.Stat.Own.own_add",
    "Verif.Stat.Own.own_get",
    "Verif.Stat.Own.own_erase",
    "Verif.Stat.Own.own_merge",
    "Verif.Stat.Own.own_connect",
    "Verif.Stat.Own.own_disconnect",
    "Verif.Stat.Own.own_fire",
    "Verif.Stat.Own.own_cycle"
   ],
   "note": "Reference counts of any number of objects, destruction cascading through members. own_cycle shows the cycle that the statement excepts: a component connected to a probe of a container that it keeps is never destroyed unless it is disconnected first. Collectors that act while they are called are C135 and C145; lack of memory is C164."
  },
  {
   "property": "C167",
   "status": "partial",
   "theorems": [
    "Verif.Ptr.Build.C167_partial",
    "Verif.Ptr.Build.C167_no_leak",
    "Verif.Ptr.Build.C167_necessary",
    "Verif.Ptr.Build.C167_constructor_fails",
    "Verif.Ptr.Build.C167_destructor_fails",
    "Verif.Ptr.Build.C167_left_fails",
    "Verif.Ptr.Build.C167_throw_fails"
   ],
   "note": "The code does not have the property: the count is zero while a constructor or destructor runs, so a pointer made and dropped there deletes the object in its constructor, or a second time in its destructor. Proved: it holds for exactly the histories (among those that give all pointers back) in which no pointer is made to an object under destruction, the last pointer to an object under construction is not dropped, and no constructor throws while there are pointers to its object."
  },
  {
   "property": "C168",
   "status": "partial",
   "theorems": [
    "Verif.Log.Re.C168_effect",
    "Verif.Log.Re.C168_fire",
    "Verif.Log.Re.C168_throw",
    "Verif.Log.Re.C168_ends",
    "Verif.Log.Re.C168_life",
    "Verif.Log.Re.C168_life_partial",
    "Verif.Log.Re.C168_safe_partial",
    "Verif.Log.Re.C168_value_fails",
    "Verif.Log.Re.C168_filter_fails",
    "Verif.Log.Re.C168_update_fails",
    "Verif.Log.Re.C168_calls"
   ],
   "note": "Effects, the three parts of a record, exceptions and termination are proved for all programs of the callees. Safety is false: a functor that adds a pending value invalidates the iterator of the loop, and a filter or functor that only the logger holds is destroyed when it replaces itself; proved if the functors add and remove no pending values and fire nothing, and if clients hold the callees or no callee releases any."
  },
  {
   "property": "C169",
   "status": "partial",
   "theorems": [
    "Verif.Util.MatIt.C169_moves",
    "Verif.Util.MatIt.C169_order",
    "Verif.Util.MatIt.C169_near",
    "Verif.Util.MatIt.C169_far_partial",
    "Verif.Util.MatIt.C169_strict_fails",
    "Verif.Util.MatIt.C169_plain_fails",
    "Verif.Util.MatIt.C169_end_fails"
   ],
   "note": "With addresses as compilers treat them the iterators are correct for all sequences of moves. By the rules of C++ moves of iterators over elements that are not stored as neighbours are undefined exactly if they go to the end of another line than the first or are made by a negative number. The plain functions (namespace detail) are wrong: row iterators of matrices stored by columns do not move twice, and bi_matrix_end adds the sizes."
  },
  {
   "property": "C170",
   "status": "partial",
   "theorems": [
    "Verif.Log.Ss.C170_effect",
    "Verif.Log.Ss.C170_fire",
    "Verif.Log.Ss.C170_throw",
    "Verif.Log.Ss.C170_ends",
    "Verif.Log.Ss.C170_life",
    "Verif.Log.Ss.C170_life_partial",
    "Verif.Log.Ss.C170_safe_partial",
    "Verif.Log.Ss.C170_stream_fails",
    "Verif.Log.Ss.C170_use_fails",
    "Verif.Log.Ss.C170_calls"
   ],
   "note": "Effects, the parts of a record, which streams get it, exceptions and termination are proved for all programs of the callees. Safety is false: a formatter that adds a stream to a full vector invalidates the iterator of the loop, and a formatter that only the sink holds is destroyed when it makes the sink use another one; proved if the functors add and remove no pending values, the formatters add no streams and neither fires, and if clients hold the callees or no callee releases any."
  }
 ]
}