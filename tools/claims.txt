C01 proved C01_typed_round_trip
| all 16 type/order combinations, every state, offset and data
C02 proved C02_byte_layout
C03 proved C03_typed_read_value
C04 proved C04_typed_write_frame C04_writeBytes_frame C04_writeByte_frame
C05 proved C05_reads_pure
C06 proved C06_next_byte_ops C06_next_advance
C07 proved C07_typed_write_bounds C07_writeBytes_bounds C07_writeByte_bounds
C08 proved C08_typed_read_bounds C08_readBytes_bounds C08_readByte_bounds
C09 proved C09_failed_write_changes_nothing
C10 proved C10_no_disclosure
C11 partial C11_zero_length_raw_partial C11_zero_length_typed_false C11_zero_length_typed_panic
| false of the code for typed accessors (an empty transfer always panics); holds for WriteBytes/ReadBytes
C12 partial C12_library_errors_partial C12_library_errors_false
| false when off+size wraps around int64 (run-time error instead); holds otherwise
C13 proved C13_raw_round_trip C13_byte_round_trip C13_readByte_value
C14 proved C14_overlapping_source C13_raw_round_trip
C15 proved C15_bit_numbering
C16 proved C16_single_bit_updates
C17 proved C17_readBits_value
C18 proved C18_setBits_effect
C19 proved C19_bit_bounds C19_bits_bounds
C20 partial C20_failed_setBits_partial C20_failed_setBits_false
| false of the code: the bits that fit are written before the panic; the partial theorem gives the exact state left behind and the cases in which nothing changed
C21 partial C21_nonpositive_count_partial C21_nonpositive_count_false
| false of the code: the do-while loops run once for n<=0; the partial theorem says exactly what happens
C22 proved C22_next_bit_ops C22_next_bit_advance
C23 proved C23_bits_are_be_read C23_setBits_is_be_write
C24 proved C24_whole_buffer_ops C24_flipBit_twice
C25 partial C25_whole_buffer_never_panic_partial C25_whole_buffer_never_panic_false
| false of the code for the empty buffer (index panic); holds for every non-empty buffer
C27 proved C27_seek C27_after
C28 proved C28_alignBit C28_alignByte C28_align_round_trip C28_align_down
C29 proved C29_truncate C29_truncate_errors
C30 proved C30_truncate_algebra
C31 proved C31_grow C31_grow_outcome
C32 partial C32_grown_zero_partial C32_grown_zero_false
| false of the code when spare capacity holds old data; holds whenever Grow reallocates or the spare bytes are zero
C33 proved C33_grow_undoes_truncateRight
C37 proved C37_reset
C41 proved C41_disjoint_writes_commute C41_last_write_wins
C42 proved C42_reinterpretation C42_signed_and_float_reads C42_byte_swap
C47 proved C47_mini_negative
C26 proved C26_cached_capacities C26_after_history
C34 proved C34_constructor_concatenates
C35 proved C35_one_slice_shared C35_several_slices_copied
C36 proved C36_views C36_stays_in_place C36_views_live C36_detached
C38 proved C38_history C38_history_foreign C38_final_state
C39 proved C39_message_stream
C40 proved C40_field_stream
C48 proved C48_outside_unchanged C48_buffers_independent C48_mini_outside_unchanged
C49 proved C49_refresh_noop
C43 partial C43_mini_agrees_partial C43_mini_agrees_false C43_constructors
| false of the code for ReadBits into a variable that is not zero; proved for every operation when the result variable is prepared (zero for ReadBits, slice of the requested length for typed reads)
C44 partial C44_mini_readBits_partial C44_mini_readBits_false
| false of the code: the old value is shifted left and kept; the partial theorem gives the exact result and says exactly when it is the number read
C45 partial C45_mini_typed_partial C45_mini_raw_partial C45_mini_bits_partial C45_readBytes_false C45_writeBytes_false C45_bits_false
| false of the code: ReadBytes reads spare capacity, WriteBytes drops what does not fit, bit positions -7..-1 are accepted; the partial theorems give the exact limits of each accessor
C46 partial C46_failed_mini_write_partial C46_failed_mini_write_false
| false of the code: elements that fit are stored before the panic; the partial theorem gives the exact content left
C64 proved C64_mini_history C64_final_state
C65 proved C65_mini_capacities
C50 proved C50_v2_agrees_with_v3 C50_writeBytes_agrees C50_writeByte_agrees
C51 proved C51_grow_appends_zeros C51_mini_grow_appends_zeros
C55 partial C55_releases_lock_partial C55_releases_lock_false C55_writeBytes_leak C55_returns_unlocked C55_reads_unlocked C55_then_blocked
| false of the code: write, writeU* and grow unlock without defer, so a run-time panic inside (an empty slice, a wrapped offset, a negative count) leaves the mutex taken; the partial theorem says exactly when
C66 partial C66_overlapping_write_partial C66_overlapping_write_false
| false of the code: bytes are copied forwards one at a time, so an overlapping source repeats; the partial theorem gives every byte
C52 proved C52_mutual_exclusion C52_changes_inside
C53 proved C53_sections_serial C53_sections_serial_always
C54 partial C54_moves_kept_partial C54_bit_moves_kept_partial C54_no_overlap_partial C54_own_regions_false
| false of the code: the offset is read before the write takes the lock, so two calls can write the same place and leave a hole; the partial theorems say that no move of an offset is lost and that calls not overlapping in time are sequential
C67 proved C67_linearizable C67_real_time
C56 partial C56_empty_false C56_complex_roundtrip_partial C56_mini_complex_roundtrip_partial
| False as stated: WriteComplex of an empty slice panics with an index error inside the locked section (and a []byte taken from the buffer itself may be overwritten while it is copied). Proved for Buffer and MiniBuffer, every size, order, state and in-range offset: at least one integer, and bytes whose interior the destination does not start in.
C57 partial C57_reads_past_the_end_false C57_read_complex_partial
| False as stated: readComplex checks n bytes but slices n*size, so it can return bytes of the spare capacity or panic with a slice bounds error. Proved for every state, offset, count and size: exactly when a call returns and the integers it returns, that they are inside the buffer if they fit or there is no spare capacity, when it reports the overread, and that nothing changes.
C58 partial C58_range_first_false C58_writeComplex_invalid C58_readComplex_invalid_partial C58_setBit_invalid_partial C58_mini_readComplex_invalid_partial C58_mini_invalid C58_v2_setBit_invalid C58_v2_mini_setBit_invalid
| False as stated: ReadComplex and SetBit report an offset outside the buffer before the invalid size or bit value. Proved: WriteComplex and MiniBuffer SetBit/WriteComplex always report it; ReadComplex and SetBit do when the range is inside the buffer, and never change anything.
C59 proved C59_committed_is_generated C59_every_directive
| Token level: go/format spacing is not modelled, so the two texts are compared as token streams, comments included.
C60 proved C60_line_by_line C60_outcome_unique
C61 proved C61_outputs_distinct C61_output_not_source
C62 partial C62_outputs_partial C62_not_truncated_false
| false of the code: the output is opened without O_TRUNC, so the end of a longer old output stays; the partial theorem gives the exact contents and says exactly when they are the generated ones
C63 proved C63_text_determines_error C63_format C63_errors_distinct
C68 proved C68_order_irrelevant C68_other_kind
C69 proved C69_same_steps C69_whole_buffer C69_constructor
C70 proved C70_no_bits C70_no_bits_next C70_empty_buffer
C71 proved C71_writeComplex_is_write C71_readComplex_is_read
C72 proved C72_mutual_exclusion C72_changes_inside C72_sections_serial C72_linearizable
C73 partial C73_releases_lock_false C73_releases_lock_partial C73_exactly_partial
| false of the code: a run-time panic inside the locked section of a write or Grow leaves the mutex taken; the partial theorems say that nothing else does, and exactly when it stays taken
C74 proved C74_readComplexNext C74_writeComplexNext
C75 partial C75_torn_read_false C75_torn_read_partial C75_calm_partial
| false of the code: readComplex decodes the integers after releasing the mutex, so a concurrent write can be seen half; the partial theorems cover calls that do not overlap in time, and overlapping calls during which no other goroutine changes what the read looks at (WriteComplex is in C72)
C76 proved C76_mini_agrees C76_writeBytes C76_writeBytesNext C76_reset C76_grow C76_constructor
C77 proved C77_mini_same C77_mini_whole_buffer C77_mini_nothing_to_do C77_mini_constructor
C78 proved C78_v2_history C78_final_state C78_from_new
C79 proved C79_v2_mini_history C79_final_state C79_from_new
C80 proved C80_mini_writeComplex C80_mini_readComplex C80_mini_readComplexNext C80_mini_writeComplexNext
C81 proved C81_text C81_buffer_text C81_constructor_text
C82 proved C82_text C82_mini_text C82_constructor_text
C83 proved C83_text_history
C84 proved C84_mini_text C84_constructor_text C84_mini_history_text
C85 proved C85_mini_text C85_constructor_text
C86 proved C86_buffer_text C86_alone_text C86_constructor_text C86_goroutines_text C86_exclusion_text C86_linearizable_text
C87 proved C87_buffer_text C87_alone_text C87_constructor_text C87_goroutines_text C87_exclusion_text C87_linearizable_text C87_torn_read_text
C88 proved C88_typed_examples C88_bytes_example C88_typed_examples_text C88_bytes_example_text
C89 proved C89_errors_v3_text C89_errors_v2_text C89_errors_v1_text C89_constants_text
C90 proved C90_no_deadlock C90_no_livelock C90_calls_finish C90_reads_finish C90_stuck C90_v1_no_deadlock C90_v1_no_livelock C90_v1_calls_finish C90_v1_reads_finish C90_v1_stuck
C91 partial C91_race_free_false C91_one_writer_partial C91_bytes_partial C91_atomic_partial C91_v1_race_free_false C91_v1_one_writer_partial C91_v1_bytes_partial C91_v1_atomic_partial
| false of the code: fields are read without the mutex, and ReadByte and v1 ReadComplex load bytes after releasing it; the partial theorems say that there are never two writers, that bytes are not raced for without those reads, and that the calls of C67 and C72 never race
C92 proved C92_capacity_bound C92_capacity_exact C92_capacity_idle C92_capacity_lags C92_v1_capacity_bound C92_v1_capacity_exact C92_v1_capacity_idle
C93 partial C93_in_range_false C93_in_range_partial C93_errors_partial C93_leak_partial C93_finish_partial C93_v1_in_range C93_v1_errors C93_v1_leak C93_v1_finish
| v1: proved as stated. v2: false because of Reset (witness: a WriteByte that has passed its check fails inside its section after another goroutine's Reset and leaves the mutex locked); proved for any schedule of the other calls. The Next methods for bytes are not among the calls covered by the arithmetic condition, since their offset is whatever the others have made it.
C94 proved C94_v1_history C94_final_state C94_from_new C94_result_type
C95 proved C95_v1_mini_history C95_final_state C95_from_new C95_result_type
C96 proved C96_v3_mini_text C96_v2_mini_text C96_v1_mini_text C96_v2_text C96_v1_text
C97 proved C97_finish_text C97_reads_finish_text C97_races_text C97_race_text C97_capacity_text C97_failures_text C97_decent_finish_text C97_reset_text C97_v1_finish_text C97_v1_reads_finish_text C97_v1_races_text C97_v1_race_text C97_v1_capacity_text C97_v1_failures_text C97_v1_decent_finish_text
C98 proved C98_fair_finish C98_reads_fair C98_decent_fair C98_starvation C98_fair_text C98_v1_fair_finish C98_v1_reads_fair C98_v1_decent_fair C98_v1_starvation C98_v1_fair_text
C99 proved C99_text_is_generator C99_line_by_line C99_committed_is_generated C99_messages_unique
C100 proved C100_ends C100_only_outputs C100_never_shorter
C101 proved C101_output C101_text_is_model
C102 proved C102_faults
C103 partial C103_place_partial C103_elsewhere_false
| false of the code: main ignores the error of Chdir (generation/main.go:65), so if the directory can be opened and listed but not entered, sources and outputs with the same names in the working directory are read and written (C103_elsewhere_false). Proved: the place is one of the two, depending on Chdir.
C104 partial C104_closed_partial C104_leak_false
| false of the code: after a failed read or write the loops continue without closing the file (generation/main.go:84,115; C104_leak_false). Proved: only files whose reading or writing failed stay open.
C105 partial C105_silence_partial C105_elsewhere_false
| false of the code: a failed Chdir is silent (generation/main.go:65), so the outputs may be made elsewhere (C105_elsewhere_false). Proved: every other failure is reported, so after a silent run all outputs are complete where the program was.
C106 proved C106_refusals_reported
C107 proved C107_made_of_single_bits C107_not_atomic C107_v1_made_of_single_bits
C108 proved C108_no_interference C108_v1_no_interference
C109 proved C109_look_act_move C109_v1_look_act_move
C110 proved C110_own_cursor C110_real_time C110_v1_own_cursor
C111 proved C111_own_cursor_text C111_parts_text C111_no_interference_text C111_v1_own_cursor_text C111_v1_parts_text C111_v1_no_interference_text
C112 proved C112_reference C112_own_cursor_reference C112_v1_reference C112_v1_own_cursor_reference
C113 proved C113_footprint C113_frame C113_depends C113_v1_footprint C113_v1_frame C113_v1_depends
C114 proved C114_separate C114_placed C114_v1_separate C114_v1_placed
C115 proved C115_readers C115_v1_readers
C116 proved C116_footprint_text C116_separate_text C116_readers_text C116_v1_footprint_text C116_v1_separate_text C116_v1_readers_text
C117 proved C117_calm C117_moment C117_v1_calm C117_v1_moment C117_calm_text C117_moment_text C117_v1_calm_text C117_v1_moment_text
C118 proved C118_linear C118_v1_linear C118_linear_text C118_v1_linear_text
C119 partial C119_race_free_false C119_table_partial C119_friendly_partial C119_atomic_partial C119_separate_partial C119_table_text C119_friendly_text C119_separate_text C119_races_text C119_v1_race_free_false C119_v1_table_partial C119_v1_friendly_partial C119_v1_atomic_partial C119_v1_separate_partial C119_v1_table_text C119_v1_friendly_text C119_v1_separate_text C119_v1_races_text
| false of the code on every part of a Buffer: fields are read without the mutex, Bytes reads the slice without it, and ReadByte and v1 ReadComplex load bytes after releasing it; the partial theorems say that two changes are always ordered, which calls can be in a data race at all, and that calls which are not in each other's tables, the calls of C67 and C72, and goroutines with separate places are in none
C120 proved C120_buffer_alone C120_mini_alone C120_v2_mini_alone C120_v1_mini_alone
C121 proved C121_buffer_table C121_buffer_apart C121_buffer_readers C121_buffer_races C121_mini_table C121_mini_apart C121_mini_readers C121_mini_races C121_v2_mini_table C121_v2_mini_apart C121_v2_mini_readers C121_v2_mini_races C121_v1_mini_table C121_v1_mini_apart C121_v1_mini_readers C121_v1_mini_races C121_buffer_next_twice C121_buffer_check_passed
C122 proved C122_buffer C122_mini C122_v2_mini C122_v1_mini C122_no_lost_update C122_lost_update_without
C123 proved C123_buffer C123_mini C123_v2_mini C123_v1_mini
C124 proved C124_buffer_footprint C124_mini_footprint C124_buffer_frame C124_mini_frame C124_buffer_depends C124_mini_depends C124_buffer_separate C124_mini_separate C124_buffer_placed C124_mini_placed C124_ranges
C125 proved C125_footprint C125_frame C125_depends C125_separate C125_placed C125_ranges
C126 proved C126_footprint C126_frame C126_depends C126_separate C126_placed C126_ranges
C127 proved C127_buffer_bytes C127_mini_bytes C127_buffer_race C127_mini_race
C128 proved C128_v2_bytes C128_v1_bytes C128_v2_race C128_v1_race
C129 proved C129_v2 C129_v1 C129_v2_text C129_v1_text
C130 proved C130_v2_text_reference C130_v1_text_reference
C131 proved C131_composition C131_linearizable C131_real_time C131_shared_bytes C131_v1_composition C131_v1_linearizable C131_composition_text C131_linearizable_text C131_v1_composition_text C131_v1_linearizable_text
C132 proved C132_written C132_read C132_text
C133 proved C133_programs C133_helloworld C133_signed_integers C133_floating_point
C134 proved C134_v3_buffer C134_v3_mini C134_v2_buffer C134_v2_mini C134_v1_buffer C134_v1_mini C134_v3_errors C134_v2_errors C134_v1_errors
C135 proved C135_v3_room C135_v3_seen C135_new C135_v3_policy C135_v2_room C135_v2_policy C135_v1_room C135_v1_seen C135_v1_policy C135_v3_text C135_v2_text C135_v1_text
C136 proved C136_v3_room C136_v3_seen C136_v3_policy C136_v3_text C136_v2_room C136_v2_seen C136_v2_policy C136_v2_text C136_v1_room C136_v1_seen C136_v1_policy C136_v1_text
C137 proved C137_v3_buffer C137_v3_mini C137_v2_buffer C137_v2_mini C137_v1_buffer C137_v1_mini
C138 proved C138_nearest C138_integers C138_float64 C138_float32
C139 proved C139_written C139_read C139_across
C140 proved C140_any_type C140_as_v3
C141 proved C141_any_type C141_exchange
C142 proved C142_strict C142_others
C143 proved C143_same_errors C143_results
C144 proved C144_same_outcome C144_others
C145 proved C145_shared C145_as_v3
C146 proved C146_shared C146_exchange
