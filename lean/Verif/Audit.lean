import Verif.Base.Bytes
import Verif.Iter.Props
import Verif.Endian.Props
import Verif.SeqNum.Props
import Verif.Random.Props
import Verif.Event.Props
import Verif.Event.Throw
import Verif.Event.ThrowLemmas
import Verif.Event.ThrowProps
import Verif.Event.Destroy
import Verif.Event.DestroyProps
import Verif.Chrono.Props
import Verif.Sim.Props
import Verif.Buf.Props
import Verif.Zc.Props
import Verif.ZcIter.Props
import Verif.Tag.Props
import Verif.Packet.Props
import Verif.Address.Props
import Verif.Ptr.Props
import Verif.Query.Props
import Verif.Stat.Props
import Verif.Stat.Float
import Verif.Stat.FloatProps
import Verif.Log.Record
import Verif.Log.Source
import Verif.Util.VecProps
import Verif.Util.MatProps
import Verif.Util.Lex
import Verif.TestFw.Props
import Verif.Fixed.Props
import Verif.Chrono.Arith
import Verif.Chrono.Text
import Verif.Message.Props
import Verif.Ptr.Kinds
import Verif.Message.Wire
import Verif.Util.ArrProps
import Verif.Util.Hex
import Verif.TestFw.Close
import Verif.TestFw.CloseDouble
import Verif.TestFw.CloseDoubleProps
import Verif.Stat.Near
import Verif.Chrono.Format
import Verif.Ptr.Sink
import Verif.Log.Functor
import Verif.Log.Macro
import Verif.Packet.Stack
import Verif.Buf.Family
import Verif.Zc.Family
import Verif.Packet.Sides
import Verif.Random.Period
import Verif.Random.SharedProps
import Verif.Buf.ConstProps
import Verif.Zc.ConstProps
import Verif.ZPacket.Sides
import Verif.Sim.Clock
import Verif.ZPacket.Stack
import Verif.Packet.Frame
import Verif.ZPacket.Frame
import Verif.Random.ParamsProps
import Verif.Sim.ThrowProps
import Verif.Util.VecThrowProps
import Verif.Event.LifeProps
import Verif.Sim.NestProps
import Verif.Util.MatLifeProps
import Verif.Buf.WordProps
import Verif.Zc.WordProps
import Verif.Util.ArrThrowProps
import Verif.Util.MatThrowProps
import Verif.Util.Mem
import Verif.Util.MemProps
import Verif.Tag.ThrowProps
import Verif.Packet.ThrowProps
import Verif.ZPacket.ThrowProps
import Verif.Sim.WordProps
import Verif.Log.NetProps
import Verif.Log.NetVals
import Verif.Log.Typed
import Verif.Log.Life
import Verif.Log.LifeLemmas
import Verif.Log.LifeProps
import Verif.Tag.Word
import Verif.Tag.WordLemmas
import Verif.Tag.WordProps
import Verif.Event.Visit
import Verif.Event.VisitLemmas
import Verif.Event.VisitProps
import Verif.Stat.Probe
import Verif.Stat.ProbeProps
import Verif.Stat.Special
import Verif.Stat.SpecialProps
import Verif.Query.PtrEq
import Verif.Query.PtrEqProps
import Verif.Sim.FreeProps
import Verif.Sim.FreeAlive
import Verif.Sim.DropProps
import Verif.Sim.HoldProps
import Verif.Ptr.Heap
import Verif.Ptr.HeapLemmas
import Verif.Sim.Own
import Verif.Sim.OwnLemmas
import Verif.Sim.OwnProps
import Verif.Random.Getters
import Verif.Random.GettersProps
import Verif.Log.Own
import Verif.Log.OwnLemmas
import Verif.Log.OwnSteps
import Verif.Log.OwnProps
import Verif.Log.FailedLemmas
import Verif.Log.FailedProps
import Verif.Stat.Short
import Verif.Stat.ShortProps
import Verif.Stat.Typed
import Verif.Stat.TypedProps
import Verif.Stat.Own
import Verif.Stat.OwnLemmas
import Verif.Stat.OwnProps
import Verif.Ptr.BuildProps
import Verif.Log.NetFilter
import Verif.Log.Reenter
import Verif.Log.ReenterLemmas
import Verif.Log.ReenterSafe
import Verif.Log.ReenterProps
import Verif.Util.MatIter
import Verif.Util.MatIterProps
import Verif.Log.StreamRe
import Verif.Log.StreamReLemmas
import Verif.Log.StreamReSafe
import Verif.Log.StreamReProps
import Verif.Log.ReCalls
import Verif.Log.StreamReCalls
/-
Axioms of every theorem named in MANIFEST.json.  Expected: a subset of
`propext`, `Classical.choice`, `Quot.sound`.
-/
#print axioms Verif.Buf.C01_size
#print axioms Verif.Buf.C01_addAtStart
#print axioms Verif.Buf.C01_addAtEnd
#print axioms Verif.Buf.C01_removeAtStart
#print axioms Verif.Buf.C01_removeAtEnd
#print axioms Verif.Buf.C01_values
#print axioms Verif.Buf.C01_write
#print axioms Verif.Buf.C02_isolation_partial
#print axioms Verif.Buf.C02_added_area_partial
#print axioms Verif.Buf.C02_families_partial
#print axioms Verif.Buf.C02_families_added_partial
#print axioms Verif.Buf.C02_isolation_fails
#print axioms Verif.Buf.C03_fragment
#print axioms Verif.Buf.C03_out_of_range
#print axioms Verif.Buf.C04_deep_copy
#print axioms Verif.Buf.C04_isolation_partial
#print axioms Verif.Buf.C04_isolation_fails
#print axioms Verif.Buf.C05_refcounts
#print axioms Verif.Buf.C05_defined
#print axioms Verif.Buf.C05_no_leak
#print axioms Verif.Buf.C06_bytes
#print axioms Verif.Buf.C06_append
#print axioms Verif.Buf.C06_prepend_partial
#print axioms Verif.Buf.C06_operand_partial
#print axioms Verif.Buf.C06_prepend_self_fails
#print axioms Verif.Buf.C07_copyTo
#print axioms Verif.Zc.C08_size
#print axioms Verif.Zc.C08_values
#print axioms Verif.Zc.C08_addAtStart
#print axioms Verif.Zc.C08_addAtEnd
#print axioms Verif.Zc.C08_bytes
#print axioms Verif.Zc.C08_removeAtStart_partial
#print axioms Verif.Zc.C08_removeAtEnd_partial
#print axioms Verif.Zc.C08_storage
#print axioms Verif.Zc.C08_hollow_fails
#print axioms Verif.Zc.C09_isolation_partial
#print axioms Verif.Zc.C09_deep_isolation_partial
#print axioms Verif.Zc.C09_append_partial
#print axioms Verif.Zc.C09_added_area_partial
#print axioms Verif.Zc.C09_families_partial
#print axioms Verif.Zc.C09_families_append_partial
#print axioms Verif.Zc.C09_isolation_fails
#print axioms Verif.Zc.C09_append_hollow_fails
#print axioms Verif.Zc.C10_real
#print axioms Verif.Zc.C10_copyTo_partial
#print axioms Verif.Zc.C10_copyTo_hollow_fails
#print axioms Verif.Iter.C11_write_read
#print axioms Verif.ZcIter.C12_of_buffer
#print axioms Verif.ZcIter.C12_read
#print axioms Verif.ZcIter.C12_readBytes
#print axioms Verif.ZcIter.C12_beyond
#print axioms Verif.Iter.C13_writeL
#print axioms Verif.Iter.C13_writeB
#print axioms Verif.Iter.C13_read
#print axioms Verif.Iter.C13_cross_host
#print axioms Verif.ZcIter.C14_write_partial
#print axioms Verif.ZcIter.C14_block_partial
#print axioms Verif.ZcIter.C14_refused
#print axioms Verif.ZcIter.C14_complete
#print axioms Verif.ZcIter.C14_writable_agrees
#print axioms Verif.ZcIter.C14_straddle_fails
#print axioms Verif.Tag.C15_refines
#print axioms Verif.Tag.C15_insert
#print axioms Verif.Tag.C15_resize
#print axioms Verif.Tag.C16_isolated
#print axioms Verif.Tag.C16_copy
#print axioms Verif.Tag.C16_assign
#print axioms Verif.Tag.C16_no_leak
#print axioms Verif.Tag.C17_fresh_partial
#print axioms Verif.Tag.C17_edge_partial
#print axioms Verif.Tag.C17_fails
#print axioms Verif.Tag.C17_empty_fails
#print axioms Verif.Tag.C18_concat_partial
#print axioms Verif.Tag.C18_no_loss
#print axioms Verif.Tag.C18_spill_fails
#print axioms Verif.Packet.C19_isolated_partial
#print axioms Verif.Packet.C19_storing_partial
#print axioms Verif.Packet.C19_headers_partial
#print axioms Verif.Packet.C19_trailers_partial
#print axioms Verif.Packet.C19_copyTags_partial
#print axioms Verif.Packet.C19_copy
#print axioms Verif.Packet.C19_copyTags_fails
#print axioms Verif.Packet.C19_overwrite_fails
#print axioms Verif.Packet.C20_undo
#print axioms Verif.Packet.C20_headers
#print axioms Verif.Packet.C20_defined
#print axioms Verif.Sim.C21_list_order
#print axioms Verif.Sim.C21_set_order
#print axioms Verif.Sim.C21_heap_order
#print axioms Verif.Sim.C21_fired_in_order
#print axioms Verif.Sim.C21_fired_in_order_list
#print axioms Verif.Sim.C21_fired_in_order_set
#print axioms Verif.Sim.C22_interchangeable
#print axioms Verif.Sim.C23_scheduleAt
#print axioms Verif.Sim.C23_rejected
#print axioms Verif.Sim.C23_added
#print axioms Verif.Sim.C23_scheduleNow_fails
#print axioms Verif.Sim.C23_clock
#print axioms Verif.Sim.C24_identities
#print axioms Verif.Sim.C24_increasing
#print axioms Verif.Sim.C25_exactly_once
#print axioms Verif.Sim.C25_exactly_once_list
#print axioms Verif.Sim.C25_exactly_once_set
#print axioms Verif.Sim.C25_run_completes
#print axioms Verif.Sim.C25_run_completes_list
#print axioms Verif.Sim.C25_run_completes_set
#print axioms Verif.Sim.C26_clock
#print axioms Verif.Sim.C26_clock_list
#print axioms Verif.Sim.C26_clock_set
#print axioms Verif.Sim.C27_fails
#print axioms Verif.Sim.C27_after_run_partial
#print axioms Verif.Sim.C27_after_run_list_partial
#print axioms Verif.Sim.C27_after_run_set_partial
#print axioms Verif.Sim.C27_clock_partial
#print axioms Verif.Sim.C27_clock_list_partial
#print axioms Verif.Sim.C27_clock_set_partial
#print axioms Verif.Sim.C28_runUntil
#print axioms Verif.Sim.C28_runUntil_list
#print axioms Verif.Sim.C28_runUntil_set
#print axioms Verif.Sim.C29_fails
#print axioms Verif.Sim.C29_no_step_back_partial
#print axioms Verif.Sim.C29_no_step_back_list_partial
#print axioms Verif.Sim.C29_no_step_back_set_partial
#print axioms Verif.Sim.C30_heap_partial
#print axioms Verif.Sim.C30_list_fails
#print axioms Verif.Sim.C30_set_fails
#print axioms Verif.Sim.C31_set
#print axioms Verif.Sim.C31_heap
#print axioms Verif.Sim.C31_list_partial
#print axioms Verif.Sim.C31_list_fails
#print axioms Verif.Sim.C32_handle
#print axioms Verif.Sim.C32_life_partial
#print axioms Verif.Sim.C32_life_list_partial
#print axioms Verif.Sim.C32_life_set_partial
#print axioms Verif.Sim.C32_fails
#print axioms Verif.Sim.C33_lifecycle
#print axioms Verif.Sim.C33_lifecycle_list
#print axioms Verif.Sim.C33_lifecycle_set
#print axioms Verif.Sim.C33_begin
#print axioms Verif.Event.C34_fire
#print axioms Verif.Event.C35_connect
#print axioms Verif.Event.C35_connect_refused
#print axioms Verif.Event.C35_disconnect
#print axioms Verif.Event.C35_count
#print axioms Verif.Event.C35_one
#print axioms Verif.Event.C36_fire_void
#print axioms Verif.Event.C36_fire_args_fails
#print axioms Verif.Event.C36_fire_args_partial
#print axioms Verif.Event.C37_portainer
#print axioms Verif.Event.C37_one
#print axioms Verif.Chrono.C38_finer
#print axioms Verif.Chrono.C38_coarser
#print axioms Verif.Chrono.C38_round_trip
#print axioms Verif.Chrono.C38_non_power_of_ten_fails
#print axioms Verif.Chrono.C39_compare_partial
#print axioms Verif.Chrono.C39_overflow_inverted
#print axioms Verif.Chrono.C39_fails
#print axioms Verif.Chrono.C40_equal
#print axioms Verif.Chrono.C41_split
#print axioms Verif.Chrono.C41_min_overflows
#print axioms Verif.Chrono.C42_add_sub
#print axioms Verif.Chrono.C43_affine
#print axioms Verif.Chrono.C43_assoc
#print axioms Verif.Chrono.C43_order
#print axioms Verif.Chrono.C43_from_coarser
#print axioms Verif.Chrono.C43_from_finer
#print axioms Verif.Chrono.C43_any_unit
#print axioms Verif.SeqNum.C44_window
#print axioms Verif.SeqNum.C44_trichotomy
#print axioms Verif.SeqNum.C44_order
#print axioms Verif.SeqNum.C45_increment
#print axioms Verif.SeqNum.C45_range
#print axioms Verif.SeqNum.C46_increment
#print axioms Verif.SeqNum.C46_stays
#print axioms Verif.SeqNum.C46_stick
#print axioms Verif.SeqNum.C46_circle
#print axioms Verif.SeqNum.C46_circle_total
#print axioms Verif.SeqNum.C47_circular
#print axioms Verif.SeqNum.C47_lollipop_partial
#print axioms Verif.SeqNum.C47_lollipop_fails
#print axioms Verif.SeqNum.C48_round_trip
#print axioms Verif.SeqNum.C48_read_range_partial
#print axioms Verif.SeqNum.C48_read_range_fails
#print axioms Verif.Ptr.C49_count
#print axioms Verif.Ptr.C49_exists_iff_held
#print axioms Verif.Ptr.C49_no_dangling
#print axioms Verif.Ptr.C49_once
#print axioms Verif.Ptr.C49_last_reset
#print axioms Verif.Ptr.C49_defined_partial
#print axioms Verif.Ptr.C49_variables_partial
#print axioms Verif.Ptr.C49_next_partial
#print axioms Verif.Ptr.C49_self_move
#print axioms Verif.Ptr.C49_self_assign_fails
#print axioms Verif.Ptr.C49_next_fails
#print axioms Verif.Ptr.C49_object
#print axioms Verif.Ptr.C49_static
#print axioms Verif.Query.C50_deterministic
#print axioms Verif.Query.C50_reference
#print axioms Verif.Query.C50_identity
#print axioms Verif.Query.C50_same_answers
#print axioms Verif.Query.C50_history
#print axioms Verif.Query.C50_answered
#print axioms Verif.Query.C50_unwired
#print axioms Verif.Query.C51_query
#print axioms Verif.Query.C51_navigator
#print axioms Verif.Ptr.C51_keeps_controller
#print axioms Verif.Ptr.C51_usable
#print axioms Verif.Ptr.C51_aggregated
#print axioms Verif.Query.C52_lookup
#print axioms Verif.Query.C52_register
#print axioms Verif.Query.C52_others
#print axioms Verif.Address.C53_increment
#print axioms Verif.Address.C53_decrement
#print axioms Verif.Address.C53_plus
#print axioms Verif.Address.C53_minus_partial
#print axioms Verif.Address.C53_minus_fails
#print axioms Verif.Address.C53_negate
#print axioms Verif.Address.C54_compare
#print axioms Verif.Address.C55_bitwise
#print axioms Verif.Address.C56_shift_partial
#print axioms Verif.Address.C56_fails
#print axioms Verif.Address.C57_multiply_partial
#print axioms Verif.Address.C57_fails
#print axioms Verif.Address.C57_trivial_partial
#print axioms Verif.Address.C57_words_partial
#print axioms Verif.Address.C58_small_partial
#print axioms Verif.Address.C58_small_fails
#print axioms Verif.Address.C58_fits_partial
#print axioms Verif.Address.C58_saturate_partial
#print axioms Verif.Address.C58_wide_fails
#print axioms Verif.Address.C58_fails
#print axioms Verif.Address.C58_exact_partial
#print axioms Verif.Address.C59_bytes
#print axioms Verif.Address.C59_integer
#print axioms Verif.Address.C59_integers
#print axioms Verif.Address.C59_mask
#print axioms Verif.Address.C60_not_partial
#print axioms Verif.Address.C60_fails
#print axioms Verif.Address.C61_round_trip
#print axioms Verif.Address.C61_read
#print axioms Verif.Random.C62_full_period
#print axioms Verif.Random.C63_lossless
#print axioms Verif.Random.C63_lossless16
#print axioms Verif.Random.C64_seed_nonzero
#print axioms Verif.Random.C65_fails
#print axioms Verif.Random.C65_period_fails
#print axioms Verif.Random.C65_step_partial
#print axioms Verif.Random.C66_unit_interval
#print axioms Verif.Random.C67_discard
#print axioms Verif.Random.C67_reseed
#print axioms Verif.Random.C67_reseed16
#print axioms Verif.Random.C67_engines
#print axioms Verif.Random.C67_seeded
#print axioms Verif.Random.C68_rotate
#print axioms Verif.Stat.C69_count_sum
#print axioms Verif.Stat.C69_min
#print axioms Verif.Stat.C69_max
#print axioms Verif.Stat.C69_mean
#print axioms Verif.Stat.C69_variance
#print axioms Verif.Stat.C69_variance_nonneg
#print axioms Verif.Stat.C69_order
#print axioms Verif.Stat.C70_step
#print axioms Verif.Stat.C70_has
#print axioms Verif.Stat.C70_reach
#print axioms Verif.Stat.C71_enumerates
#print axioms Verif.Stat.C71_hasNext
#print axioms Verif.Log.C72_records
#print axioms Verif.Log.C72_add
#print axioms Verif.Log.C72_share
#print axioms Verif.Log.C73_connected_partial
#print axioms Verif.Log.C73_registered
#print axioms Verif.Log.C73_null_fails
#print axioms Verif.Log.C74_fails
#print axioms Verif.Log.C74_partial
#print axioms Verif.Log.C75_fire
#print axioms Verif.Log.C75_sinks
#print axioms Verif.Util.C76_partial
#print axioms Verif.Util.C76_step
#print axioms Verif.Util.C76_no_leak
#print axioms Verif.Util.C76_assign_exact
#print axioms Verif.Util.C76_assign_fails
#print axioms Verif.Util.C76_assign_own_fails
#print axioms Verif.Util.C76_ctor_fails
#print axioms Verif.Util.C77_index
#print axioms Verif.Util.C77_at_defined
#print axioms Verif.Util.C77_row
#print axioms Verif.Util.C77_column
#print axioms Verif.Util.C77_all
#print axioms Verif.Util.C77_distance
#print axioms Verif.Util.C77_overflow_fails
#print axioms Verif.Util.C78_fill1
#print axioms Verif.Util.C78_fill2_partial
#print axioms Verif.Util.C78_fill2_exact
#print axioms Verif.Util.C78_fails
#print axioms Verif.Util.C78_fill
#print axioms Verif.Endian.C79_reorder_reverses
#print axioms Verif.Endian.C79_reorder_twice
#print axioms Verif.Endian.C79_conversions
#print axioms Verif.Util.C80_trichotomy
#print axioms Verif.Util.C80_antisymm
#print axioms Verif.Util.C80_trans
#print axioms Verif.Util.C80_unordered_fails
#print axioms Verif.Random.C81_is_power_2
#print axioms Verif.Iter.C82_bytes_round_trip
#print axioms Verif.Iter.C82_native_and_fill
#print axioms Verif.Iter.C83_move_partial
#print axioms Verif.Iter.C83_move_fails
#print axioms Verif.Iter.C83_access
#print axioms Verif.Iter.C83_diff
#print axioms Verif.ZcIter.C83_zc_move_partial
#print axioms Verif.ZcIter.C83_zc_diff
#print axioms Verif.ZcIter.C83_zc_move_fails
#print axioms Verif.Random.C84_scramblers
#print axioms Verif.Random.C84_engines
#print axioms Verif.Packet.C85_add_size
#print axioms Verif.Packet.C85_remove
#print axioms Verif.Packet.C85_add_buffer
#print axioms Verif.Packet.C85_add_packet
#print axioms Verif.Packet.C85_fragment
#print axioms Verif.Packet.C86_defined
#print axioms Verif.Packet.C86_bounds
#print axioms Verif.Packet.C86_byte_tag
#print axioms Verif.Address.C87_toString
#print axioms Verif.Log.C88_fails
#print axioms Verif.Log.C88_caller_iff
#print axioms Verif.Log.C89_streams_partial
#print axioms Verif.Log.C89_two_files_fails
#print axioms Verif.TestFw.run_starts_in_order
#print axioms Verif.TestFw.run_evaluates_in_order
#print axioms Verif.TestFw.totals_partial
#print axioms Verif.TestFw.build_no_failures
#print axioms Verif.TestFw.stopped_run_does_nothing
#print axioms Verif.TestFw.second_run_recounts_fails
#print axioms Verif.TestFw.run_after_fatal_fails
#print axioms Verif.TestFw.run_progress
#print axioms Verif.TestFw.progress_monotone
#print axioms Verif.TestFw.progress_example
#print axioms Verif.TestFw.registered_cases_partial
#print axioms Verif.TestFw.first_registration_wins
#print axioms Verif.TestFw.repeated_name_fails
#print axioms Verif.TestFw.registered_cases_example
#print axioms Verif.TestFw.log_attributes_failures
#print axioms Verif.TestFw.log_example
#print axioms Verif.TestFw.suite_heading_once_partial
#print axioms Verif.TestFw.case_heading_once_fails
#print axioms Verif.Fixed.copies_stay_equal
#print axioms Verif.Fixed.size_is_fixed
#print axioms Verif.Fixed.write_effect
#print axioms Verif.Fixed.fixed_example
#print axioms Verif.Fixed.constructed_is_independent
#print axioms Verif.Fixed.unshared_is_untouched
#print axioms Verif.Fixed.defined_iff_valid
#print axioms Verif.Fixed.storage_lifetime
#print axioms Verif.Fixed.move_transfers
#print axioms Verif.Fixed.copyTo_copies
#print axioms Verif.Chrono.C100_mul
#print axioms Verif.Chrono.C100_div_number
#print axioms Verif.Chrono.C100_div_mod
#print axioms Verif.Chrono.C100_neg
#print axioms Verif.Chrono.C100_step
#print axioms Verif.Chrono.C100_assign_coarser
#print axioms Verif.Chrono.C100_assign_finer
#print axioms Verif.Chrono.C100_assign_fails
#print axioms Verif.Chrono.C100_makers
#print axioms Verif.Chrono.C101_text
#print axioms Verif.Chrono.C101_time_point
#print axioms Verif.Chrono.C101_format
#print axioms Verif.Chrono.C101_min_fails
#print axioms Verif.Chrono.C101_example
#print axioms Verif.Message.C102_round_trip
#print axioms Verif.Message.C102_compressed
#print axioms Verif.Message.C102_compressed_accepts
#print axioms Verif.Message.C103_same_reads
#print axioms Verif.Message.C104_wire
#print axioms Verif.Message.C104_wire_compressed
#print axioms Verif.Util.C105_step
#print axioms Verif.Util.C105_runs
#print axioms Verif.Util.C105_array
#print axioms Verif.Util.C105_no_leak
#print axioms Verif.Util.Hex.C106_partial
#print axioms Verif.Util.Hex.C106_injective
#print axioms Verif.Util.Hex.C106_left_fails
#print axioms Verif.Util.Hex.C106_showbase_fails
#print axioms Verif.Util.Hex.C106_sticky_fails
#print axioms Verif.TestFw.Close.C107_signed_partial
#print axioms Verif.TestFw.Close.C107_signed_relative_partial
#print axioms Verif.TestFw.Close.C107_float_partial
#print axioms Verif.TestFw.Close.C107_float_relative_partial
#print axioms Verif.TestFw.Close.C107_unsigned_exact
#print axioms Verif.TestFw.Close.C107_unsigned_fails
#print axioms Verif.TestFw.Close.C107_nan_fails
#print axioms Verif.TestFw.Close.C107_double_close
#print axioms Verif.TestFw.Close.C107_double_pass_partial
#print axioms Verif.TestFw.Close.C107_double_exact
#print axioms Verif.TestFw.Close.C107_double_infinite
#print axioms Verif.TestFw.Close.C107_double_infinite_limit
#print axioms Verif.TestFw.Close.C107_double_nan_fails
#print axioms Verif.TestFw.Close.C107_double_fails
#print axioms Verif.TestFw.Close.C107_double_overflow_fails
#print axioms Verif.Ptr.C108_partial
#print axioms Verif.Ptr.C108_aggregated_fails
#print axioms Verif.Log.Functor.C109_partial
#print axioms Verif.Log.Functor.C109_temporaries_partial
#print axioms Verif.Log.Functor.C109_changed_fails
#print axioms Verif.Log.Functor.C109_shared_fails
#print axioms Verif.Log.Functor.C109_gone_fails
#print axioms Verif.Log.Macro.C110_partial
#print axioms Verif.Log.Macro.C110_capture_fails
#print axioms Verif.Log.Macro.C110_const_fails
#print axioms Verif.Packet.C111_sent
#print axioms Verif.Packet.C111_received
#print axioms Verif.Packet.C111_progress
#print axioms Verif.Random.C112_state_period
#print axioms Verif.Random.C112_output_period
#print axioms Verif.Random.C112_seeded
#print axioms Verif.Random.C113_even
#print axioms Verif.Random.C114_lifetime
#print axioms Verif.Random.C115_shared_stream
#print axioms Verif.Random.C116_no_interference
#print axioms Verif.Random.C117_replay
#print axioms Verif.Random.C117_seeding
#print axioms Verif.Random.C118_one_shot
#print axioms Verif.Random.C119_seed_fails
#print axioms Verif.Random.C119_seed_partial
#print axioms Verif.Random.C120_arguments_fails
#print axioms Verif.Random.C120_arguments_partial
#print axioms Verif.Buf.C121_read_only
#print axioms Verif.Buf.C121_defined
#print axioms Verif.Buf.C121_kinds
#print axioms Verif.Buf.C121_append
#print axioms Verif.Buf.C122_snapshot_partial
#print axioms Verif.Buf.C122_snapshot_fails
#print axioms Verif.Zc.C123_read_only
#print axioms Verif.Zc.C123_defined
#print axioms Verif.Zc.C123_kinds
#print axioms Verif.Zc.C123_append
#print axioms Verif.Zc.C124_snapshot_partial
#print axioms Verif.Zc.C124_snapshot_fails
#print axioms Verif.ZPacket.C125_isolated_partial
#print axioms Verif.ZPacket.C125_storing_partial
#print axioms Verif.ZPacket.C125_traffic_partial
#print axioms Verif.ZPacket.C125_copyTags_partial
#print axioms Verif.ZPacket.C125_copy
#print axioms Verif.ZPacket.C125_copyTags_fails
#print axioms Verif.ZPacket.C125_overwrite_fails
#print axioms Verif.ZPacket.C126_undo
#print axioms Verif.ZPacket.C126_nested
#print axioms Verif.ZPacket.C126_defined
#print axioms Verif.ZPacket.C127_add_size
#print axioms Verif.ZPacket.C127_remove
#print axioms Verif.ZPacket.C127_add_buffer_partial
#print axioms Verif.ZPacket.C127_add_packet_partial
#print axioms Verif.ZPacket.C127_fragment
#print axioms Verif.ZPacket.C127_hollow_fails
#print axioms Verif.ZPacket.C128_defined
#print axioms Verif.ZPacket.C128_bounds
#print axioms Verif.ZPacket.C128_byte_tag
#print axioms Verif.ZPacket.C129_sent
#print axioms Verif.ZPacket.C129_received
#print axioms Verif.ZPacket.C129_progress
#print axioms Verif.Packet.C130_sent
#print axioms Verif.Packet.C130_received
#print axioms Verif.Packet.C130_progress
#print axioms Verif.ZPacket.C131_sent
#print axioms Verif.ZPacket.C131_received
#print axioms Verif.ZPacket.C131_progress
#print axioms Verif.Random.Params.C132_sees
#print axioms Verif.Random.Params.C132_create
#print axioms Verif.Random.Params.C132_addWeight
#print axioms Verif.Random.Params.C132_setLower
#print axioms Verif.Random.Params.C132_addInterval
#print axioms Verif.Random.Params.C132_addBound
#print axioms Verif.Random.Params.C132_shape
#print axioms Verif.Sim.C133_agrees
#print axioms Verif.Sim.C133_list_partial
#print axioms Verif.Sim.C133_set_partial
#print axioms Verif.Sim.C133_heap_partial
#print axioms Verif.Sim.C133_completed
#print axioms Verif.Sim.C133_after_throw
#print axioms Verif.Sim.C133_list_fails
#print axioms Verif.Sim.C133_set_fails
#print axioms Verif.Sim.C133_heap_fails
#print axioms Verif.Sim.C133_interchangeable_fails
#print axioms Verif.Util.C134_push_partial
#print axioms Verif.Util.C134_assign_fails
#print axioms Verif.Util.C134_copyAssign_fails
#print axioms Verif.Util.C134_constructor_fails
#print axioms Verif.Event.C135_void_partial
#print axioms Verif.Event.C135_args_partial
#print axioms Verif.Event.C135_one_partial
#print axioms Verif.Event.C135_quiet
#print axioms Verif.Event.C135_held
#print axioms Verif.Event.C135_fails
#print axioms Verif.Event.C136_partial
#print axioms Verif.Event.C136_quiet
#print axioms Verif.Event.C136_fails
#print axioms Verif.Event.C136_nested_fails
#print axioms Verif.Sim.C137_agrees
#print axioms Verif.Sim.C137_heap_partial
#print axioms Verif.Sim.C137_completed
#print axioms Verif.Sim.C137_clock
#print axioms Verif.Sim.C137_list_fails
#print axioms Verif.Sim.C137_set_fails
#print axioms Verif.Sim.C137_run_fails
#print axioms Verif.Util.C138_partial
#print axioms Verif.Util.C138_no_leak
#print axioms Verif.Util.C138_fails
#print axioms Verif.Buf.C139_buffer_partial
#print axioms Verif.Zc.C139_zc_partial
#print axioms Verif.Buf.C139_buffer_fails
#print axioms Verif.Zc.C139_zc_add_fails
#print axioms Verif.Zc.C139_remove_fails
#print axioms Verif.Zc.C139_zeros_fails
#print axioms Verif.Util.C140_array_partial
#print axioms Verif.Util.C140_matrix_partial
#print axioms Verif.Util.C140_array_assign_fails
#print axioms Verif.Util.C140_array_constructor_fails
#print axioms Verif.Util.C140_matrix_share_fails
#print axioms Verif.Util.C140_matrix_assign_fails
#print axioms Verif.Util.C140_matrix_constructor_fails
#print axioms Verif.Tag.C141_tags
#print axioms Verif.Tag.C141_tags_others
#print axioms Verif.Tag.C141_tags_concat_partial
#print axioms Verif.Tag.C141_tags_after
#print axioms Verif.Tag.C141_tags_concat_fails
#print axioms Verif.Packet.C141_packets_partial
#print axioms Verif.Packet.C141_retry
#print axioms Verif.Packet.C141_others
#print axioms Verif.Packet.C141_shift_fails
#print axioms Verif.Packet.C141_terminates_fails
#print axioms Verif.ZPacket.C141_packets_partial
#print axioms Verif.ZPacket.C141_retry
#print axioms Verif.ZPacket.C141_others
#print axioms Verif.ZPacket.C141_shift_fails
#print axioms Verif.ZPacket.C141_terminates_fails
#print axioms Verif.Sim.C142_scheduleIn
#print axioms Verif.Sim.C142_scheduleIn_negative
#print axioms Verif.Sim.C142_range_heap
#print axioms Verif.Sim.C142_range_list
#print axioms Verif.Sim.C142_range_set
#print axioms Verif.Sim.C142_exact_partial
#print axioms Verif.Sim.C142_interchangeable
#print axioms Verif.Sim.C142_exactly_once
#print axioms Verif.Sim.C142_exactly_once_list
#print axioms Verif.Sim.C142_exactly_once_set
#print axioms Verif.Sim.C142_order
#print axioms Verif.Sim.C142_order_list
#print axioms Verif.Sim.C142_order_set
#print axioms Verif.Sim.C142_runFor_fails
#print axioms Verif.Sim.C142_scheduleIn_fails
#print axioms Verif.Stat.C143_min_max
#print axioms Verif.Stat.C143_count_partial
#print axioms Verif.Stat.C143_sum
#print axioms Verif.Stat.C143_sqrSum
#print axioms Verif.Stat.C143_mean_partial
#print axioms Verif.Stat.C143_variance_partial
#print axioms Verif.Stat.C143_stddev_partial
#print axioms Verif.Stat.C143_constant
#print axioms Verif.Stat.C143_integers
#print axioms Verif.Stat.C143_count_fails
#print axioms Verif.Stat.C143_equal_fails
#print axioms Verif.Stat.C143_stddev_fails
#print axioms Verif.Stat.C143_order_fails
#print axioms Verif.Event.C144_consistent
#print axioms Verif.Event.C144_fire
#print axioms Verif.Event.C144_void
#print axioms Verif.Event.C144_args_partial
#print axioms Verif.Event.C144_ends
#print axioms Verif.Event.C144_fuel
#print axioms Verif.Event.C144_connect
#print axioms Verif.Event.C144_add
#print axioms Verif.Event.C145_consistent
#print axioms Verif.Event.C145_alive_partial
#print axioms Verif.Event.C145_connect_partial
#print axioms Verif.Event.C145_connect_fails
#print axioms Verif.Event.C145_self_fails
#print axioms Verif.Event.C145_one_fails
#print axioms Verif.Log.Net.C146_enabled
#print axioms Verif.Log.Net.C146_calls
#print axioms Verif.Log.Net.C146_attached
#print axioms Verif.Log.Net.C146_delivered
#print axioms Verif.Log.Net.C146_times
#print axioms Verif.Log.Net.C146_once
#print axioms Verif.Log.Net.C146_cycle_refused
#print axioms Verif.Log.Net.C146_cycle_endless
#print axioms Verif.Log.Net.diamond_reach
#print axioms Verif.Log.Net.C147_values
#print axioms Verif.Log.Net.C147_filters
#print axioms Verif.Log.Net.C147_way_partial
#print axioms Verif.Log.Net.C147_file_partial
#print axioms Verif.Log.Net.C147_calls
#print axioms Verif.Log.Net.C147_fork_fails
#print axioms Verif.Log.Net.C147_rejected_fails
#print axioms Verif.Log.Typed.C148_get
#print axioms Verif.Log.Typed.C148_plain_partial
#print axioms Verif.Log.Typed.C148_defined_iff
#print axioms Verif.Log.Typed.C148_fails
#print axioms Verif.Log.Typed.C148_pending_fails
#print axioms Verif.Tag.C149_run
#print axioms Verif.Tag.C149_get
#print axioms Verif.Tag.C149_tags
#print axioms Verif.Tag.C149_assert_partial
#print axioms Verif.Tag.C149_assert_fails
#print axioms Verif.Tag.C149_drift_fails
#print axioms Verif.Log.Life.life_defined
#print axioms Verif.Log.Life.life_text_stays
#print axioms Verif.Log.Life.life_get
#print axioms Verif.Log.Life.life_made
#print axioms Verif.Log.Life.life_updated
#print axioms Verif.Log.Life.life_records
#print axioms Verif.Log.Life.life_sharing
#print axioms Verif.Log.Life.life_values
#print axioms Verif.Log.Life.life_exact
#print axioms Verif.Log.Life.life_plain
#print axioms Verif.Log.Life.life_no_leak
#print axioms Verif.Log.Life.life_no_leak_fails
#print axioms Verif.Event.Visit.visit_range
#print axioms Verif.Event.Visit.visit_items
#print axioms Verif.Event.Visit.visit_growth
#print axioms Verif.Event.Visit.visit_ref_partial
#print axioms Verif.Event.Visit.visit_reads
#print axioms Verif.Event.Visit.visit_ref_fails
#print axioms Verif.Stat.Feed.feed_reports
#print axioms Verif.Stat.Feed.feed_results
#print axioms Verif.Stat.Feed.feed_names
#print axioms Verif.Stat.Feed.feed_made
#print axioms Verif.Stat.special_min_max_partial
#print axioms Verif.Stat.special_count
#print axioms Verif.Stat.special_nan
#print axioms Verif.Stat.special_inf
#print axioms Verif.Stat.special_finite
#print axioms Verif.Stat.special_stddev
#print axioms Verif.Stat.special_min_max_fails
#print axioms Verif.Query.ptreq_partial
#print axioms Verif.Query.ptreq_object
#print axioms Verif.Query.ptreq_null
#print axioms Verif.Query.ptreq_differ
#print axioms Verif.Query.ptreq_symm
#print axioms Verif.Query.ptreq_hash
#print axioms Verif.Query.ptreq_fails
#print axioms Verif.Sim.C155_agrees
#print axioms Verif.Sim.C155_heap_partial
#print axioms Verif.Sim.C155_completed
#print axioms Verif.Sim.C155_begin
#print axioms Verif.Sim.C155_clock_partial
#print axioms Verif.Sim.C155_clock_throw_fails
#print axioms Verif.Sim.C155_clock_begin_fails
#print axioms Verif.Sim.C156_alive_partial
#print axioms Verif.Sim.C156_cancel_fails
#print axioms Verif.Sim.C156_run_fails
#print axioms Verif.Sim.C156_throw_fails
#print axioms Verif.Sim.C156_list_fails
#print axioms Verif.Sim.C156_pending_fails
#print axioms Verif.Sim.C156_apart
#print axioms Verif.Sim.C157_heap
#print axioms Verif.Sim.C157_safe_partial
#print axioms Verif.Sim.C157_exact_partial
#print axioms Verif.Sim.C157_released_partial
#print axioms Verif.Sim.C157_throw_fails
#print axioms Verif.Sim.C157_memory_fails
#print axioms Verif.Sim.C157_nested_fails
#print axioms Verif.Sim.C157_twice_fails
#print axioms Verif.Sim.C157_empty_fails
#print axioms Verif.Sim.Own.own_defined
#print axioms Verif.Sim.Own.own_held
#print axioms Verif.Sim.Own.own_exact
#print axioms Verif.Sim.Own.own_no_leak_partial
#print axioms Verif.Sim.Own.own_schedule
#print axioms Verif.Sim.Own.own_fire
#print axioms Verif.Sim.Own.own_plain
#print axioms Verif.Sim.Own.own_wired_fails
#print axioms Verif.Sim.Own.own_simulation_fails
#print axioms Verif.Random.C159_reports
#print axioms Verif.Random.C159_open
#print axioms Verif.Random.C160_trials_fails
#print axioms Verif.Random.C160_trials_partial
#print axioms Verif.Log.Own.own_defined
#print axioms Verif.Log.Own.own_held
#print axioms Verif.Log.Own.own_exact
#print axioms Verif.Log.Own.own_self
#print axioms Verif.Log.Own.own_feed
#print axioms Verif.Log.Own.own_effect
#print axioms Verif.Log.Own.own_filter
#print axioms Verif.Log.Own.own_plain
#print axioms Verif.Log.Own.own_released_partial
#print axioms Verif.Log.Own.own_logger_fails
#print axioms Verif.Log.Own.own_program_fails
#print axioms Verif.Log.Own.setup_plain
#print axioms Verif.Log.failed_connected
#print axioms Verif.Log.failed_connect
#print axioms Verif.Log.failed_connect_effect
#print axioms Verif.Log.failed_recover
#print axioms Verif.Log.failed_register
#print axioms Verif.Log.failed_register_fails
#print axioms Verif.Log.failed_connect_fails
#print axioms Verif.Util.Mem.mem_made_partial
#print axioms Verif.Util.Mem.mem_iff
#print axioms Verif.Util.Mem.mem_fails
#print axioms Verif.Util.Mem.mem_index
#print axioms Verif.Util.Mem.mem_moves
#print axioms Verif.Util.Mem.mem_order
#print axioms Verif.Stat.Short.short_add
#print axioms Verif.Stat.Short.short_merge
#print axioms Verif.Stat.Short.short_resume
#print axioms Verif.Stat.Short.short_clean_partial
#print axioms Verif.Stat.Short.short_cure
#print axioms Verif.Stat.Short.short_fails
#print axioms Verif.Stat.Typed.typed_calls
#print axioms Verif.Stat.Typed.typed_safe
#print axioms Verif.Stat.Typed.typed_connect
#print axioms Verif.Stat.Typed.typed_results
#print axioms Verif.Stat.Own.own_defined
#print axioms Verif.Stat.Own.own_held
#print axioms Verif.Stat.Own.own_exact
#print axioms Verif.Stat.Own.own_plain
#print axioms Verif.Stat.Own.own_no_leak
#print axioms Verif.Stat.Own.own_frame
#print axioms Verif.Stat.Own.own_add
#print axioms Verif.Stat.Own.own_get
#print axioms Verif.Stat.Own.own_erase
#print axioms Verif.Stat.Own.own_merge
#print axioms Verif.Stat.Own.own_connect
#print axioms Verif.Stat.Own.own_disconnect
#print axioms Verif.Stat.Own.own_fire
#print axioms Verif.Stat.Own.own_cycle
#print axioms Verif.Ptr.Build.C167_partial
#print axioms Verif.Ptr.Build.C167_no_leak
#print axioms Verif.Ptr.Build.C167_necessary
#print axioms Verif.Ptr.Build.C167_constructor_fails
#print axioms Verif.Ptr.Build.C167_destructor_fails
#print axioms Verif.Ptr.Build.C167_left_fails
#print axioms Verif.Ptr.Build.C167_throw_fails
#print axioms Verif.Log.Re.C168_effect
#print axioms Verif.Log.Re.C168_fire
#print axioms Verif.Log.Re.C168_throw
#print axioms Verif.Log.Re.C168_ends
#print axioms Verif.Log.Re.C168_life
#print axioms Verif.Log.Re.C168_life_partial
#print axioms Verif.Log.Re.C168_safe_partial
#print axioms Verif.Log.Re.C168_value_fails
#print axioms Verif.Log.Re.C168_filter_fails
#print axioms Verif.Log.Re.C168_update_fails
#print axioms Verif.Log.Re.C168_calls
#print axioms Verif.Util.MatIt.C169_moves
#print axioms Verif.Util.MatIt.C169_order
#print axioms Verif.Util.MatIt.C169_near
#print axioms Verif.Util.MatIt.C169_far_partial
#print axioms Verif.Util.MatIt.C169_strict_fails
#print axioms Verif.Util.MatIt.C169_plain_fails
#print axioms Verif.Util.MatIt.C169_end_fails
#print axioms Verif.Log.Ss.C170_effect
#print axioms Verif.Log.Ss.C170_fire
#print axioms Verif.Log.Ss.C170_throw
#print axioms Verif.Log.Ss.C170_ends
#print axioms Verif.Log.Ss.C170_life
#print axioms Verif.Log.Ss.C170_life_partial
#print axioms Verif.Log.Ss.C170_safe_partial
#print axioms Verif.Log.Ss.C170_stream_fails
#print axioms Verif.Log.Ss.C170_use_fails
#print axioms Verif.Log.Ss.C170_calls
