import Verif.Props.Apart
import Verif.Props.Bench
import Verif.Props.BenchCalls
import Verif.Props.BenchRef
import Verif.Props.Benches
import Verif.Props.Bits
import Verif.Props.Bytes
import Verif.Props.Calm
import Verif.Props.Capacity
import Verif.Props.Client
import Verif.Props.Conc
import Verif.Props.Cursors
import Verif.Props.Decls
import Verif.Props.Demo
import Verif.Props.ErrTests
import Verif.Props.Errors
import Verif.Props.ExactRace
import Verif.Props.ExactRaceMini
import Verif.Props.ExactShared
import Verif.Props.Examples
import Verif.Props.Fair
import Verif.Props.Footprints
import Verif.Props.Gen
import Verif.Props.GenGo
import Verif.Props.GenMainText
import Verif.Props.Happens
import Verif.Props.History
import Verif.Props.Laws
import Verif.Props.Looks
import Verif.Props.Many
import Verif.Props.Mini
import Verif.Props.Mixed
import Verif.Props.MixedGrow
import Verif.Props.MixedMini
import Verif.Props.MixedPanic
import Verif.Props.MixedStrict
import Verif.Props.Nearest
import Verif.Props.Nexts
import Verif.Props.Parts
import Verif.Props.Program
import Verif.Props.Progress
import Verif.Props.Resize
import Verif.Props.Room
import Verif.Props.RoomMini
import Verif.Props.Safe
import Verif.Props.SharedRef
import Verif.Props.Sharing
import Verif.Props.SharingPanic
import Verif.Props.SourceCalm
import Verif.Props.SourceConc
import Verif.Props.SourceFoot
import Verif.Props.SourceHappens
import Verif.Props.SourceHist
import Verif.Props.SourceLooks
import Verif.Props.SourceMany
import Verif.Props.SourceNexts
import Verif.Props.SourceSharedRef
import Verif.Props.SourceV1
import Verif.Props.SourceV1Buffer
import Verif.Props.SourceV2
import Verif.Props.SourceV2Buffer
import Verif.Props.SourceV3
import Verif.Props.SourceWire
import Verif.Props.Streams
import Verif.Props.Tests
import Verif.Props.TestsNew
import Verif.Props.TestsV1Buffer
import Verif.Props.TestsV1Mini
import Verif.Props.TestsV2Buffer
import Verif.Props.TestsV2Mini
import Verif.Props.TestsV3Buffer
import Verif.Props.TestsV3Mini
import Verif.Props.Unlocked
import Verif.Props.UnlockedApart
import Verif.Props.UnlockedFoot
import Verif.Props.UnlockedFootV1
import Verif.Props.UnlockedFootV2
import Verif.Props.V1
import Verif.Props.V1Hist
import Verif.Props.V1Mini
import Verif.Props.V1Seq
import Verif.Props.V2
import Verif.Props.V2Mini
import Verif.Props.Wire
import Verif.Props.WireBits

/-! The axioms every property theorem depends on (generated by tools/manifest_gen.py). -/

#print axioms Crunch.C63_errors_distinct
#print axioms Crunch.C63_format
#print axioms Crunch.C63_text_determines_error
#print axioms Crunch.Gen.C59_committed_is_generated
#print axioms Crunch.Gen.C59_every_directive
#print axioms Crunch.Gen.C60_line_by_line
#print axioms Crunch.Gen.C60_outcome_unique
#print axioms Crunch.Gen.C61_output_not_source
#print axioms Crunch.Gen.C61_outputs_distinct
#print axioms Crunch.Gen.C62_not_truncated_false
#print axioms Crunch.Gen.C62_outputs_partial
#print axioms Crunch.Gen.C68_order_irrelevant
#print axioms Crunch.Gen.C68_other_kind
#print axioms Crunch.Gen.Go.C100_ends
#print axioms Crunch.Gen.Go.C100_never_shorter
#print axioms Crunch.Gen.Go.C100_only_outputs
#print axioms Crunch.Gen.Go.C101_output
#print axioms Crunch.Gen.Go.C101_text_is_model
#print axioms Crunch.Gen.Go.C102_faults
#print axioms Crunch.Gen.Go.C103_elsewhere_false
#print axioms Crunch.Gen.Go.C103_place_partial
#print axioms Crunch.Gen.Go.C104_closed_partial
#print axioms Crunch.Gen.Go.C104_leak_false
#print axioms Crunch.Gen.Go.C105_elsewhere_false
#print axioms Crunch.Gen.Go.C105_silence_partial
#print axioms Crunch.Gen.Go.C106_refusals_reported
#print axioms Crunch.Gen.Go.C99_committed_is_generated
#print axioms Crunch.Gen.Go.C99_line_by_line
#print axioms Crunch.Gen.Go.C99_messages_unique
#print axioms Crunch.Gen.Go.C99_text_is_generator
#print axioms Crunch.Src.C111_no_interference_text
#print axioms Crunch.Src.C111_own_cursor_text
#print axioms Crunch.Src.C111_parts_text
#print axioms Crunch.Src.C111_v1_no_interference_text
#print axioms Crunch.Src.C111_v1_own_cursor_text
#print axioms Crunch.Src.C111_v1_parts_text
#print axioms Crunch.Src.C116_footprint_text
#print axioms Crunch.Src.C116_readers_text
#print axioms Crunch.Src.C116_separate_text
#print axioms Crunch.Src.C116_v1_footprint_text
#print axioms Crunch.Src.C116_v1_readers_text
#print axioms Crunch.Src.C116_v1_separate_text
#print axioms Crunch.Src.C117_calm_text
#print axioms Crunch.Src.C117_moment_text
#print axioms Crunch.Src.C117_v1_calm_text
#print axioms Crunch.Src.C117_v1_moment_text
#print axioms Crunch.Src.C118_linear_text
#print axioms Crunch.Src.C118_v1_linear_text
#print axioms Crunch.Src.C119_friendly_text
#print axioms Crunch.Src.C119_races_text
#print axioms Crunch.Src.C119_separate_text
#print axioms Crunch.Src.C119_table_text
#print axioms Crunch.Src.C119_v1_friendly_text
#print axioms Crunch.Src.C119_v1_races_text
#print axioms Crunch.Src.C119_v1_separate_text
#print axioms Crunch.Src.C119_v1_table_text
#print axioms Crunch.Src.C120_buffer_alone
#print axioms Crunch.Src.C120_mini_alone
#print axioms Crunch.Src.C120_v1_mini_alone
#print axioms Crunch.Src.C120_v2_mini_alone
#print axioms Crunch.Src.C121_buffer_apart
#print axioms Crunch.Src.C121_buffer_check_passed
#print axioms Crunch.Src.C121_buffer_next_twice
#print axioms Crunch.Src.C121_buffer_races
#print axioms Crunch.Src.C121_buffer_readers
#print axioms Crunch.Src.C121_buffer_table
#print axioms Crunch.Src.C121_mini_apart
#print axioms Crunch.Src.C121_mini_races
#print axioms Crunch.Src.C121_mini_readers
#print axioms Crunch.Src.C121_mini_table
#print axioms Crunch.Src.C121_v1_mini_apart
#print axioms Crunch.Src.C121_v1_mini_races
#print axioms Crunch.Src.C121_v1_mini_readers
#print axioms Crunch.Src.C121_v1_mini_table
#print axioms Crunch.Src.C121_v2_mini_apart
#print axioms Crunch.Src.C121_v2_mini_races
#print axioms Crunch.Src.C121_v2_mini_readers
#print axioms Crunch.Src.C121_v2_mini_table
#print axioms Crunch.Src.C122_buffer
#print axioms Crunch.Src.C122_lost_update_without
#print axioms Crunch.Src.C122_mini
#print axioms Crunch.Src.C122_no_lost_update
#print axioms Crunch.Src.C122_v1_mini
#print axioms Crunch.Src.C122_v2_mini
#print axioms Crunch.Src.C123_buffer
#print axioms Crunch.Src.C123_mini
#print axioms Crunch.Src.C123_v1_mini
#print axioms Crunch.Src.C123_v2_mini
#print axioms Crunch.Src.C124_buffer_depends
#print axioms Crunch.Src.C124_buffer_footprint
#print axioms Crunch.Src.C124_buffer_frame
#print axioms Crunch.Src.C124_buffer_placed
#print axioms Crunch.Src.C124_buffer_separate
#print axioms Crunch.Src.C124_mini_depends
#print axioms Crunch.Src.C124_mini_footprint
#print axioms Crunch.Src.C124_mini_frame
#print axioms Crunch.Src.C124_mini_placed
#print axioms Crunch.Src.C124_mini_separate
#print axioms Crunch.Src.C124_ranges
#print axioms Crunch.Src.C125_depends
#print axioms Crunch.Src.C125_footprint
#print axioms Crunch.Src.C125_frame
#print axioms Crunch.Src.C125_placed
#print axioms Crunch.Src.C125_ranges
#print axioms Crunch.Src.C125_separate
#print axioms Crunch.Src.C126_depends
#print axioms Crunch.Src.C126_footprint
#print axioms Crunch.Src.C126_frame
#print axioms Crunch.Src.C126_placed
#print axioms Crunch.Src.C126_ranges
#print axioms Crunch.Src.C126_separate
#print axioms Crunch.Src.C127_buffer_bytes
#print axioms Crunch.Src.C127_buffer_race
#print axioms Crunch.Src.C127_mini_bytes
#print axioms Crunch.Src.C127_mini_race
#print axioms Crunch.Src.C128_v1_bytes
#print axioms Crunch.Src.C128_v1_race
#print axioms Crunch.Src.C128_v2_bytes
#print axioms Crunch.Src.C128_v2_race
#print axioms Crunch.Src.C129_v1_text
#print axioms Crunch.Src.C129_v2_text
#print axioms Crunch.Src.C130_v1_text_reference
#print axioms Crunch.Src.C130_v2_text_reference
#print axioms Crunch.Src.C131_composition_text
#print axioms Crunch.Src.C131_linearizable_text
#print axioms Crunch.Src.C131_v1_composition_text
#print axioms Crunch.Src.C131_v1_linearizable_text
#print axioms Crunch.Src.C134_v1_errors
#print axioms Crunch.Src.C134_v2_errors
#print axioms Crunch.Src.C134_v3_errors
#print axioms Crunch.Src.C135_v1_text
#print axioms Crunch.Src.C135_v2_text
#print axioms Crunch.Src.C135_v3_text
#print axioms Crunch.Src.C136_v1_text
#print axioms Crunch.Src.C136_v2_text
#print axioms Crunch.Src.C136_v3_text
#print axioms Crunch.Src.C81_buffer_text
#print axioms Crunch.Src.C81_constructor_text
#print axioms Crunch.Src.C81_text
#print axioms Crunch.Src.C82_constructor_text
#print axioms Crunch.Src.C82_mini_text
#print axioms Crunch.Src.C82_text
#print axioms Crunch.Src.C83_text_history
#print axioms Crunch.Src.C84_constructor_text
#print axioms Crunch.Src.C84_mini_history_text
#print axioms Crunch.Src.C84_mini_text
#print axioms Crunch.Src.C85_constructor_text
#print axioms Crunch.Src.C85_mini_text
#print axioms Crunch.Src.C86_alone_text
#print axioms Crunch.Src.C86_buffer_text
#print axioms Crunch.Src.C86_constructor_text
#print axioms Crunch.Src.C86_exclusion_text
#print axioms Crunch.Src.C86_goroutines_text
#print axioms Crunch.Src.C86_linearizable_text
#print axioms Crunch.Src.C87_alone_text
#print axioms Crunch.Src.C87_buffer_text
#print axioms Crunch.Src.C87_constructor_text
#print axioms Crunch.Src.C87_exclusion_text
#print axioms Crunch.Src.C87_goroutines_text
#print axioms Crunch.Src.C87_linearizable_text
#print axioms Crunch.Src.C87_torn_read_text
#print axioms Crunch.Src.C88_bytes_example_text
#print axioms Crunch.Src.C88_typed_examples_text
#print axioms Crunch.Src.C89_constants_text
#print axioms Crunch.Src.C89_errors_v1_text
#print axioms Crunch.Src.C89_errors_v2_text
#print axioms Crunch.Src.C89_errors_v3_text
#print axioms Crunch.Src.C96_v1_mini_text
#print axioms Crunch.Src.C96_v1_text
#print axioms Crunch.Src.C96_v2_mini_text
#print axioms Crunch.Src.C96_v2_text
#print axioms Crunch.Src.C96_v3_mini_text
#print axioms Crunch.Src.C97_capacity_text
#print axioms Crunch.Src.C97_decent_finish_text
#print axioms Crunch.Src.C97_failures_text
#print axioms Crunch.Src.C97_finish_text
#print axioms Crunch.Src.C97_race_text
#print axioms Crunch.Src.C97_races_text
#print axioms Crunch.Src.C97_reads_finish_text
#print axioms Crunch.Src.C97_reset_text
#print axioms Crunch.Src.C97_v1_capacity_text
#print axioms Crunch.Src.C97_v1_decent_finish_text
#print axioms Crunch.Src.C97_v1_failures_text
#print axioms Crunch.Src.C97_v1_finish_text
#print axioms Crunch.Src.C97_v1_race_text
#print axioms Crunch.Src.C97_v1_races_text
#print axioms Crunch.Src.C97_v1_reads_finish_text
#print axioms Crunch.Src.C98_fair_text
#print axioms Crunch.Src.C98_v1_fair_text
#print axioms Crunch.Src.Program.C133_floating_point
#print axioms Crunch.Src.Program.C133_helloworld
#print axioms Crunch.Src.Program.C133_programs
#print axioms Crunch.Src.Program.C133_signed_integers
#print axioms Crunch.Src.Program.C138_float32
#print axioms Crunch.Src.Program.C138_float64
#print axioms Crunch.Src.Program.C138_integers
#print axioms Crunch.Src.Program.C138_nearest
#print axioms Crunch.Src.Tests.C137_v1_buffer
#print axioms Crunch.Src.Tests.C137_v1_mini
#print axioms Crunch.Src.Tests.C137_v2_buffer
#print axioms Crunch.Src.Tests.C137_v2_mini
#print axioms Crunch.Src.Tests.C137_v3_buffer
#print axioms Crunch.Src.Tests.C137_v3_mini
#print axioms Crunch.Src.Tests.V1BufferTest.C134_v1_buffer
#print axioms Crunch.Src.Tests.V1MiniTest.C134_v1_mini
#print axioms Crunch.Src.Tests.V2BufferTest.C134_v2_buffer
#print axioms Crunch.Src.Tests.V2MiniTest.C134_v2_mini
#print axioms Crunch.Src.Tests.V3BufferTest.C134_v3_buffer
#print axioms Crunch.Src.Tests.V3MiniTest.C134_v3_mini
#print axioms Crunch.V1.C107_v1_made_of_single_bits
#print axioms Crunch.V1.C108_v1_no_interference
#print axioms Crunch.V1.C109_v1_look_act_move
#print axioms Crunch.V1.C110_v1_own_cursor
#print axioms Crunch.V1.C112_v1_own_cursor_reference
#print axioms Crunch.V1.C112_v1_reference
#print axioms Crunch.V1.C113_v1_depends
#print axioms Crunch.V1.C113_v1_footprint
#print axioms Crunch.V1.C113_v1_frame
#print axioms Crunch.V1.C114_v1_placed
#print axioms Crunch.V1.C114_v1_separate
#print axioms Crunch.V1.C115_v1_readers
#print axioms Crunch.V1.C117_v1_calm
#print axioms Crunch.V1.C117_v1_moment
#print axioms Crunch.V1.C118_v1_linear
#print axioms Crunch.V1.C119_v1_atomic_partial
#print axioms Crunch.V1.C119_v1_friendly_partial
#print axioms Crunch.V1.C119_v1_race_free_false
#print axioms Crunch.V1.C119_v1_separate_partial
#print axioms Crunch.V1.C119_v1_table_partial
#print axioms Crunch.V1.C129_v1
#print axioms Crunch.V1.C131_v1_composition
#print axioms Crunch.V1.C131_v1_linearizable
#print axioms Crunch.V1.C135_v1_policy
#print axioms Crunch.V1.C135_v1_room
#print axioms Crunch.V1.C135_v1_seen
#print axioms Crunch.V1.C136_v1_policy
#print axioms Crunch.V1.C136_v1_room
#print axioms Crunch.V1.C136_v1_seen
#print axioms Crunch.V1.C56_complex_roundtrip_partial
#print axioms Crunch.V1.C56_empty_false
#print axioms Crunch.V1.C56_mini_complex_roundtrip_partial
#print axioms Crunch.V1.C57_read_complex_partial
#print axioms Crunch.V1.C57_reads_past_the_end_false
#print axioms Crunch.V1.C58_mini_invalid
#print axioms Crunch.V1.C58_mini_readComplex_invalid_partial
#print axioms Crunch.V1.C58_range_first_false
#print axioms Crunch.V1.C58_readComplex_invalid_partial
#print axioms Crunch.V1.C58_setBit_invalid_partial
#print axioms Crunch.V1.C58_writeComplex_invalid
#print axioms Crunch.V1.C69_constructor
#print axioms Crunch.V1.C69_same_steps
#print axioms Crunch.V1.C69_whole_buffer
#print axioms Crunch.V1.C70_empty_buffer
#print axioms Crunch.V1.C70_no_bits
#print axioms Crunch.V1.C70_no_bits_next
#print axioms Crunch.V1.C71_readComplex_is_read
#print axioms Crunch.V1.C71_writeComplex_is_write
#print axioms Crunch.V1.C72_changes_inside
#print axioms Crunch.V1.C72_linearizable
#print axioms Crunch.V1.C72_mutual_exclusion
#print axioms Crunch.V1.C72_sections_serial
#print axioms Crunch.V1.C73_exactly_partial
#print axioms Crunch.V1.C73_releases_lock_false
#print axioms Crunch.V1.C73_releases_lock_partial
#print axioms Crunch.V1.C74_readComplexNext
#print axioms Crunch.V1.C74_writeComplexNext
#print axioms Crunch.V1.C75_calm_partial
#print axioms Crunch.V1.C75_torn_read_false
#print axioms Crunch.V1.C75_torn_read_partial
#print axioms Crunch.V1.C77_mini_constructor
#print axioms Crunch.V1.C77_mini_nothing_to_do
#print axioms Crunch.V1.C77_mini_same
#print axioms Crunch.V1.C77_mini_whole_buffer
#print axioms Crunch.V1.C80_mini_readComplex
#print axioms Crunch.V1.C80_mini_readComplexNext
#print axioms Crunch.V1.C80_mini_writeComplex
#print axioms Crunch.V1.C80_mini_writeComplexNext
#print axioms Crunch.V1.C90_v1_calls_finish
#print axioms Crunch.V1.C90_v1_no_deadlock
#print axioms Crunch.V1.C90_v1_no_livelock
#print axioms Crunch.V1.C90_v1_reads_finish
#print axioms Crunch.V1.C90_v1_stuck
#print axioms Crunch.V1.C91_v1_atomic_partial
#print axioms Crunch.V1.C91_v1_bytes_partial
#print axioms Crunch.V1.C91_v1_one_writer_partial
#print axioms Crunch.V1.C91_v1_race_free_false
#print axioms Crunch.V1.C92_v1_capacity_bound
#print axioms Crunch.V1.C92_v1_capacity_exact
#print axioms Crunch.V1.C92_v1_capacity_idle
#print axioms Crunch.V1.C93_v1_errors
#print axioms Crunch.V1.C93_v1_finish
#print axioms Crunch.V1.C93_v1_in_range
#print axioms Crunch.V1.C93_v1_leak
#print axioms Crunch.V1.C94_final_state
#print axioms Crunch.V1.C94_from_new
#print axioms Crunch.V1.C94_result_type
#print axioms Crunch.V1.C94_v1_history
#print axioms Crunch.V1.C95_final_state
#print axioms Crunch.V1.C95_from_new
#print axioms Crunch.V1.C95_result_type
#print axioms Crunch.V1.C95_v1_mini_history
#print axioms Crunch.V1.C98_v1_decent_fair
#print axioms Crunch.V1.C98_v1_fair_finish
#print axioms Crunch.V1.C98_v1_reads_fair
#print axioms Crunch.V1.C98_v1_starvation
#print axioms Crunch.V2.C107_made_of_single_bits
#print axioms Crunch.V2.C107_not_atomic
#print axioms Crunch.V2.C108_no_interference
#print axioms Crunch.V2.C109_look_act_move
#print axioms Crunch.V2.C110_own_cursor
#print axioms Crunch.V2.C110_real_time
#print axioms Crunch.V2.C112_own_cursor_reference
#print axioms Crunch.V2.C112_reference
#print axioms Crunch.V2.C113_depends
#print axioms Crunch.V2.C113_footprint
#print axioms Crunch.V2.C113_frame
#print axioms Crunch.V2.C114_placed
#print axioms Crunch.V2.C114_separate
#print axioms Crunch.V2.C115_readers
#print axioms Crunch.V2.C117_calm
#print axioms Crunch.V2.C117_moment
#print axioms Crunch.V2.C118_linear
#print axioms Crunch.V2.C119_atomic_partial
#print axioms Crunch.V2.C119_friendly_partial
#print axioms Crunch.V2.C119_race_free_false
#print axioms Crunch.V2.C119_separate_partial
#print axioms Crunch.V2.C119_table_partial
#print axioms Crunch.V2.C129_v2
#print axioms Crunch.V2.C131_composition
#print axioms Crunch.V2.C131_linearizable
#print axioms Crunch.V2.C131_real_time
#print axioms Crunch.V2.C131_shared_bytes
#print axioms Crunch.V2.C135_v2_policy
#print axioms Crunch.V2.C135_v2_room
#print axioms Crunch.V2.C136_v2_policy
#print axioms Crunch.V2.C136_v2_room
#print axioms Crunch.V2.C136_v2_seen
#print axioms Crunch.V2.C50_v2_agrees_with_v3
#print axioms Crunch.V2.C50_writeByte_agrees
#print axioms Crunch.V2.C50_writeBytes_agrees
#print axioms Crunch.V2.C51_grow_appends_zeros
#print axioms Crunch.V2.C51_mini_grow_appends_zeros
#print axioms Crunch.V2.C52_changes_inside
#print axioms Crunch.V2.C52_mutual_exclusion
#print axioms Crunch.V2.C53_sections_serial
#print axioms Crunch.V2.C53_sections_serial_always
#print axioms Crunch.V2.C54_bit_moves_kept_partial
#print axioms Crunch.V2.C54_moves_kept_partial
#print axioms Crunch.V2.C54_no_overlap_partial
#print axioms Crunch.V2.C54_own_regions_false
#print axioms Crunch.V2.C55_reads_unlocked
#print axioms Crunch.V2.C55_releases_lock_false
#print axioms Crunch.V2.C55_releases_lock_partial
#print axioms Crunch.V2.C55_returns_unlocked
#print axioms Crunch.V2.C55_then_blocked
#print axioms Crunch.V2.C55_writeBytes_leak
#print axioms Crunch.V2.C58_v2_mini_setBit_invalid
#print axioms Crunch.V2.C58_v2_setBit_invalid
#print axioms Crunch.V2.C66_overlapping_write_false
#print axioms Crunch.V2.C66_overlapping_write_partial
#print axioms Crunch.V2.C67_linearizable
#print axioms Crunch.V2.C67_real_time
#print axioms Crunch.V2.C76_constructor
#print axioms Crunch.V2.C76_grow
#print axioms Crunch.V2.C76_mini_agrees
#print axioms Crunch.V2.C76_reset
#print axioms Crunch.V2.C76_writeBytes
#print axioms Crunch.V2.C76_writeBytesNext
#print axioms Crunch.V2.C78_final_state
#print axioms Crunch.V2.C78_from_new
#print axioms Crunch.V2.C78_v2_history
#print axioms Crunch.V2.C79_final_state
#print axioms Crunch.V2.C79_from_new
#print axioms Crunch.V2.C79_v2_mini_history
#print axioms Crunch.V2.C90_calls_finish
#print axioms Crunch.V2.C90_no_deadlock
#print axioms Crunch.V2.C90_no_livelock
#print axioms Crunch.V2.C90_reads_finish
#print axioms Crunch.V2.C90_stuck
#print axioms Crunch.V2.C91_atomic_partial
#print axioms Crunch.V2.C91_bytes_partial
#print axioms Crunch.V2.C91_one_writer_partial
#print axioms Crunch.V2.C91_race_free_false
#print axioms Crunch.V2.C92_capacity_bound
#print axioms Crunch.V2.C92_capacity_exact
#print axioms Crunch.V2.C92_capacity_idle
#print axioms Crunch.V2.C92_capacity_lags
#print axioms Crunch.V2.C93_errors_partial
#print axioms Crunch.V2.C93_finish_partial
#print axioms Crunch.V2.C93_in_range_false
#print axioms Crunch.V2.C93_in_range_partial
#print axioms Crunch.V2.C93_leak_partial
#print axioms Crunch.V2.C98_decent_fair
#print axioms Crunch.V2.C98_fair_finish
#print axioms Crunch.V2.C98_reads_fair
#print axioms Crunch.V2.C98_starvation
#print axioms Crunch.V3.C01_typed_round_trip
#print axioms Crunch.V3.C02_byte_layout
#print axioms Crunch.V3.C03_typed_read_value
#print axioms Crunch.V3.C04_typed_write_frame
#print axioms Crunch.V3.C04_writeByte_frame
#print axioms Crunch.V3.C04_writeBytes_frame
#print axioms Crunch.V3.C05_reads_pure
#print axioms Crunch.V3.C06_next_advance
#print axioms Crunch.V3.C06_next_byte_ops
#print axioms Crunch.V3.C07_typed_write_bounds
#print axioms Crunch.V3.C07_writeByte_bounds
#print axioms Crunch.V3.C07_writeBytes_bounds
#print axioms Crunch.V3.C08_readByte_bounds
#print axioms Crunch.V3.C08_readBytes_bounds
#print axioms Crunch.V3.C08_typed_read_bounds
#print axioms Crunch.V3.C09_failed_write_changes_nothing
#print axioms Crunch.V3.C10_no_disclosure
#print axioms Crunch.V3.C11_zero_length_raw_partial
#print axioms Crunch.V3.C11_zero_length_typed_false
#print axioms Crunch.V3.C11_zero_length_typed_panic
#print axioms Crunch.V3.C12_library_errors_false
#print axioms Crunch.V3.C12_library_errors_partial
#print axioms Crunch.V3.C135_new
#print axioms Crunch.V3.C135_v3_policy
#print axioms Crunch.V3.C135_v3_room
#print axioms Crunch.V3.C135_v3_seen
#print axioms Crunch.V3.C136_v3_policy
#print axioms Crunch.V3.C136_v3_room
#print axioms Crunch.V3.C136_v3_seen
#print axioms Crunch.V3.C13_byte_round_trip
#print axioms Crunch.V3.C13_raw_round_trip
#print axioms Crunch.V3.C13_readByte_value
#print axioms Crunch.V3.C14_overlapping_source
#print axioms Crunch.V3.C15_bit_numbering
#print axioms Crunch.V3.C16_single_bit_updates
#print axioms Crunch.V3.C17_readBits_value
#print axioms Crunch.V3.C18_setBits_effect
#print axioms Crunch.V3.C19_bit_bounds
#print axioms Crunch.V3.C19_bits_bounds
#print axioms Crunch.V3.C20_failed_setBits_false
#print axioms Crunch.V3.C20_failed_setBits_partial
#print axioms Crunch.V3.C21_nonpositive_count_false
#print axioms Crunch.V3.C21_nonpositive_count_partial
#print axioms Crunch.V3.C22_next_bit_advance
#print axioms Crunch.V3.C22_next_bit_ops
#print axioms Crunch.V3.C23_bits_are_be_read
#print axioms Crunch.V3.C23_setBits_is_be_write
#print axioms Crunch.V3.C24_flipBit_twice
#print axioms Crunch.V3.C24_whole_buffer_ops
#print axioms Crunch.V3.C25_whole_buffer_never_panic_false
#print axioms Crunch.V3.C25_whole_buffer_never_panic_partial
#print axioms Crunch.V3.C26_after_history
#print axioms Crunch.V3.C26_cached_capacities
#print axioms Crunch.V3.C27_after
#print axioms Crunch.V3.C27_seek
#print axioms Crunch.V3.C28_alignBit
#print axioms Crunch.V3.C28_alignByte
#print axioms Crunch.V3.C28_align_down
#print axioms Crunch.V3.C28_align_round_trip
#print axioms Crunch.V3.C29_truncate
#print axioms Crunch.V3.C29_truncate_errors
#print axioms Crunch.V3.C30_truncate_algebra
#print axioms Crunch.V3.C31_grow
#print axioms Crunch.V3.C31_grow_outcome
#print axioms Crunch.V3.C32_grown_zero_false
#print axioms Crunch.V3.C32_grown_zero_partial
#print axioms Crunch.V3.C33_grow_undoes_truncateRight
#print axioms Crunch.V3.C34_constructor_concatenates
#print axioms Crunch.V3.C35_one_slice_shared
#print axioms Crunch.V3.C35_several_slices_copied
#print axioms Crunch.V3.C36_detached
#print axioms Crunch.V3.C36_stays_in_place
#print axioms Crunch.V3.C36_views
#print axioms Crunch.V3.C36_views_live
#print axioms Crunch.V3.C37_reset
#print axioms Crunch.V3.C38_final_state
#print axioms Crunch.V3.C38_history
#print axioms Crunch.V3.C38_history_foreign
#print axioms Crunch.V3.C39_message_stream
#print axioms Crunch.V3.C40_field_stream
#print axioms Crunch.V3.C41_disjoint_writes_commute
#print axioms Crunch.V3.C41_last_write_wins
#print axioms Crunch.V3.C42_byte_swap
#print axioms Crunch.V3.C42_reinterpretation
#print axioms Crunch.V3.C42_signed_and_float_reads
#print axioms Crunch.V3.C43_constructors
#print axioms Crunch.V3.C43_mini_agrees_false
#print axioms Crunch.V3.C43_mini_agrees_partial
#print axioms Crunch.V3.C44_mini_readBits_false
#print axioms Crunch.V3.C44_mini_readBits_partial
#print axioms Crunch.V3.C45_bits_false
#print axioms Crunch.V3.C45_mini_bits_partial
#print axioms Crunch.V3.C45_mini_raw_partial
#print axioms Crunch.V3.C45_mini_typed_partial
#print axioms Crunch.V3.C45_readBytes_false
#print axioms Crunch.V3.C45_writeBytes_false
#print axioms Crunch.V3.C46_failed_mini_write_false
#print axioms Crunch.V3.C46_failed_mini_write_partial
#print axioms Crunch.V3.C47_mini_negative
#print axioms Crunch.V3.C48_buffers_independent
#print axioms Crunch.V3.C48_mini_outside_unchanged
#print axioms Crunch.V3.C48_outside_unchanged
#print axioms Crunch.V3.C49_refresh_noop
#print axioms Crunch.V3.C64_final_state
#print axioms Crunch.V3.C64_mini_history
#print axioms Crunch.V3.C65_mini_capacities
#print axioms Crunch.V3.C88_bytes_example
#print axioms Crunch.V3.C88_typed_examples
#print axioms Crunch.Wire.C132_read
#print axioms Crunch.Wire.C132_text
#print axioms Crunch.Wire.C132_written
#print axioms Crunch.Wire.C139_across
#print axioms Crunch.Wire.C139_read
#print axioms Crunch.Wire.C139_written
#print axioms Crunch.Wire.C140_any_type
#print axioms Crunch.Wire.C140_as_v3
#print axioms Crunch.Wire.C141_any_type
#print axioms Crunch.Wire.C141_exchange
#print axioms Crunch.Wire.C142_others
#print axioms Crunch.Wire.C142_strict
#print axioms Crunch.Wire.C143_results
#print axioms Crunch.Wire.C143_same_errors
#print axioms Crunch.Wire.C144_others
#print axioms Crunch.Wire.C144_same_outcome
#print axioms Crunch.Wire.C145_as_v3
#print axioms Crunch.Wire.C145_shared
#print axioms Crunch.Wire.C146_exchange
#print axioms Crunch.Wire.C146_shared
