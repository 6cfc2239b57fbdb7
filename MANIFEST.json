{
 "claims": [
  {
   "property": "C01",
   "status": "proved",
   "theorems": [
    "Crunch.V3.C01_typed_round_trip"
   ],
   "note": "all 16 type/order combinations, every state, offset and data"
  },
  {
   "property": "C02",
   "status": "proved",
   "theorems": [
    "Crunch.V3.C02_byte_layout"
   ],
   "note": ""
  },
  {
   "property": "C03",
   "status": "proved",
   "theorems": [
    "Crunch.V3.C03_typed_read_value"
   ],
   "note": ""
  },
  {
   "property": "C04",
   "status": "proved",
   "theorems": [
    "Crunch.V3.C04_typed_write_frame",
    "Crunch.V3.C04_writeBytes_frame",
    "Crunch.V3.C04_writeByte_frame"
   ],
   "note": ""
  },
  {
   "property": "C05",
   "status": "proved",
   "theorems": [
    "Crunch.V3.C05_reads_pure"
   ],
   "note": ""
  },
  {
   "property": "C06",
   "status": "proved",
   "theorems": [
    "Crunch.V3.C06_next_byte_ops",
    "Crunch.V3.C06_next_advance"
   ],
   "note": ""
  },
  {
   "property": "C07",
   "status": "proved",
   "theorems": [
    "Crunch.V3.C07_typed_write_bounds",
    "Crunch.V3.C07_writeBytes_bounds",
    "Crunch.V3.C07_writeByte_bounds"
   ],
   "note": ""
  },
  {
   "property": "C08",
   "status": "proved",
   "theorems": [
    "Crunch.V3.C08_typed_read_bounds",
    "Crunch.V3.C08_readBytes_bounds",
    "Crunch.V3.C08_readByte_bounds"
   ],
   "note": ""
  },
  {
   "property": "C09",
   "status": "proved",
   "theorems": [
    "Crunch.V3.C09_failed_write_changes_nothing"
   ],
   "note": ""
  },
  {
   "property": "C10",
   "status": "proved",
   "theorems": [
    "Crunch.V3.C10_no_disclosure"
   ],
   "note": ""
  },
  {
   "property": "C11",
   "status": "partial",
   "theorems": [
    "Crunch.V3.C11_zero_length_raw_partial",
    "Crunch.V3.C11_zero_length_typed_false",
    "Crunch.V3.C11_zero_length_typed_panic"
   ],
   "note": "false of the code for typed accessors (an empty transfer always panics); holds for WriteBytes/ReadBytes"
  },
  {
   "property": "C12",
   "status": "partial",
   "theorems": [
    "Crunch.V3.C12_library_errors_partial",
    "Crunch.V3.C12_library_errors_false"
   ],
   "note": "false when off+size wraps around int64 (run-time error instead); holds otherwise"
  },
  {
   "property": "C13",
   "status": "proved",
   "theorems": [
    "Crunch.V3.C13_raw_round_trip",
    "Crunch.V3.C13_byte_round_trip",
    "Crunch.V3.C13_readByte_value"
   ],
   "note": ""
  },
  {
   "property": "C14",
   "status": "proved",
   "theorems": [
    "Crunch.V3.C14_overlapping_source",
    "Crunch.V3.C13_raw_round_trip"
   ],
   "note": ""
  },
  {
   "property": "C15",
   "status": "proved",
   "theorems": [
    "Crunch.V3.C15_bit_numbering"
   ],
   "note": ""
  },
  {
   "property": "C16",
   "status": "proved",
   "theorems": [
    "Crunch.V3.C16_single_bit_updates"
   ],
   "note": ""
  },
  {
   "property": "C17",
   "status": "proved",
   "theorems": [
    "Crunch.V3.C17_readBits_value"
   ],
   "note": ""
  },
  {
   "property": "C18",
   "status": "proved",
   "theorems": [
    "Crunch.V3.C18_setBits_effect"
   ],
   "note": ""
  },
  {
   "property": "C19",
   "status": "proved",
   "theorems": [
    "Crunch.V3.C19_bit_bounds",
    "Crunch.V3.C19_bits_bounds"
   ],
   "note": ""
  },
  {
   "property": "C20",
   "status": "partial",
   "theorems": [
    "Crunch.V3.C20_failed_setBits_partial",
    "Crunch.V3.C20_failed_setBits_false"
   ],
   "note": "false of the code: the bits that fit are written before the panic; the partial theorem gives the exact state left behind and the cases in which nothing changed"
  },
  {
   "property": "C21",
   "status": "partial",
   "theorems": [
    "Crunch.V3.C21_nonpositive_count_partial",
    "Crunch.V3.C21_nonpositive_count_false"
   ],
   "note": "false of the code: the do-while loops run once for n<=0; the partial theorem says exactly what happens"
  },
  {
   "property": "C22",
   "status": "proved",
   "theorems": [
    "Crunch.V3.C22_next_bit_ops",
    "Crunch.V3.C22_next_bit_advance"
   ],
   "note": ""
  },
  {
   "property": "C23",
   "status": "proved",
   "theorems": [
    "Crunch.V3.C23_bits_are_be_read",
    "Crunch.V3.C23_setBits_is_be_write"
   ],
   "note": ""
  },
  {
   "property": "C24",
   "status": "proved",
   "theorems": [
    "Crunch.V3.C24_whole_buffer_ops",
    "Crunch.V3.C24_flipBit_twice"
   ],
   "note": ""
  },
  {
   "property": "C25",
   "status": "partial",
   "theorems": [
    "Crunch.V3.C25_whole_buffer_never_panic_partial",
    "Crunch.V3.C25_whole_buffer_never_panic_false"
   ],
   "note": "false of the code for the empty buffer (index panic); holds for every non-empty buffer"
  },
  {
   "property": "C27",
   "status": "proved",
   "theorems": [
    "Crunch.V3.C27_seek",
    "Crunch.V3.C27_after"
   ],
   "note": ""
  },
  {
   "property": "C28",
   "status": "proved",
   "theorems": [
    "Crunch.V3.C28_alignBit",
    "Crunch.V3.C28_alignByte",
    "Crunch.V3.C28_align_round_trip",
    "Crunch.V3.C28_align_down"
   ],
   "note": ""
  },
  {
   "property": "C29",
   "status": "proved",
   "theorems": [
    "Crunch.V3.C29_truncate",
    "Crunch.V3.C29_truncate_errors"
   ],
   "note": ""
  },
  {
   "property": "C30",
   "status": "proved",
   "theorems": [
    "Crunch.V3.C30_truncate_algebra"
   ],
   "note": ""
  },
  {
   "property": "C31",
   "status": "proved",
   "theorems": [
    "Crunch.V3.C31_grow",
    "Crunch.V3.C31_grow_outcome"
   ],
   "note": ""
  },
  {
   "property": "C32",
   "status": "partial",
   "theorems": [
    "Crunch.V3.C32_grown_zero_partial",
    "Crunch.V3.C32_grown_zero_false"
   ],
   "note": "false of the code when spare capacity holds old data; holds whenever Grow reallocates or the spare bytes are zero"
  },
  {
   "property": "C33",
   "status": "proved",
   "theorems": [
    "Crunch.V3.C33_grow_undoes_truncateRight"
   ],
   "note": ""
  },
  {
   "property": "C37",
   "status": "proved",
   "theorems": [
    "Crunch.V3.C37_reset"
   ],
   "note": ""
  },
  {
   "property": "C41",
   "status": "proved",
   "theorems": [
    "Crunch.V3.C41_disjoint_writes_commute",
    "Crunch.V3.C41_last_write_wins"
   ],
   "note": ""
  },
  {
   "property": "C42",
   "status": "proved",
   "theorems": [
    "Crunch.V3.C42_reinterpretation",
    "Crunch.V3.C42_signed_and_float_reads",
    "Crunch.V3.C42_byte_swap"
   ],
   "note": ""
  },
  {
   "property": "C47",
   "status": "proved",
   "theorems": [
    "Crunch.V3.C47_mini_negative"
   ],
   "note": ""
  },
  {
   "property": "C26",
   "status": "proved",
   "theorems": [
    "Crunch.V3.C26_cached_capacities",
    "Crunch.V3.C26_after_history"
   ],
   "note": ""
  },
  {
   "property": "C34",
   "status": "proved",
   "theorems": [
    "Crunch.V3.C34_constructor_concatenates"
   ],
   "note": ""
  },
  {
   "property": "C35",
   "status": "proved",
   "theorems": [
    "Crunch.V3.C35_one_slice_shared",
    "Crunch.V3.C35_several_slices_copied"
   ],
   "note": ""
  },
  {
   "property": "C36",
   "status": "proved",
   "theorems": [
    "Crunch.V3.C36_views",
    "Crunch.V3.C36_stays_in_place",
    "Crunch.V3.C36_views_live",
    "Crunch.V3.C36_detached"
   ],
   "note": ""
  },
  {
   "property": "C38",
   "status": "proved",
   "theorems": [
    "Crunch.V3.C38_history",
    "Crunch.V3.C38_history_foreign",
    "Crunch.V3.C38_final_state"
   ],
   "note": ""
  },
  {
   "property": "C39",
   "status": "proved",
   "theorems": [
    "Crunch.V3.C39_message_stream"
   ],
   "note": ""
  },
  {
   "property": "C40",
   "status": "proved",
   "theorems": [
    "Crunch.V3.C40_field_stream"
   ],
   "note": ""
  },
  {
   "property": "C48",
   "status": "proved",
   "theorems": [
    "Crunch.V3.C48_outside_unchanged",
    "Crunch.V3.C48_buffers_independent",
    "Crunch.V3.C48_mini_outside_unchanged"
   ],
   "note": ""
  },
  {
   "property": "C49",
   "status": "proved",
   "theorems": [
    "Crunch.V3.C49_refresh_noop"
   ],
   "note": ""
  },
  {
   "property": "C43",
   "status": "partial",
   "theorems": [
    "Crunch.V3.C43_mini_agrees_partial",
    "Crunch.V3.C43_mini_agrees_false",
    "Crunch.V3.C43_constructors"
   ],
   "note": "false of the code for ReadBits into a variable that is not zero; proved for every operation when the result variable is prepared (zero for ReadBits, slice of the requested length for typed reads)"
  },
  {
   "property": "C44",
   "status": "partial",
   "theorems": [
    "Crunch.V3.C44_mini_readBits_partial",
    "Crunch.V3.C44_mini_readBits_false"
   ],
   "note": "false of the code: the old value is shifted left and kept; the partial theorem gives the exact result and says exactly when it is the number read"
  },
  {
   "property": "C45",
   "status": "partial",
   "theorems": [
    "Crunch.V3.C45_mini_typed_partial",
    "Crunch.V3.C45_mini_raw_partial",
    "Crunch.V3.C45_mini_bits_partial",
    "Crunch.V3.C45_readBytes_false",
    "Crunch.V3.C45_writeBytes_false",
    "Crunch.V3.C45_bits_false"
   ],
   "note": "false of the code: ReadBytes reads spare capacity, WriteBytes drops what does not fit, bit positions -7..-1 are accepted; the partial theorems give the exact limits of each accessor"
  },
  {
   "property": "C46",
   "status": "partial",
   "theorems": [
    "Crunch.V3.C46_failed_mini_write_partial",
    "Crunch.V3.C46_failed_mini_write_false"
   ],
   "note": "false of the code: elements that fit are stored before the panic; the partial theorem gives the exact content left"
  },
  {
   "property": "C64",
   "status": "proved",
   "theorems": [
    "Crunch.V3.C64_mini_history",
    "Crunch.V3.C64_final_state"
   ],
   "note": ""
  },
  {
   "property": "C65",
   "status": "proved",
   "theorems": [
    "Crunch.V3.C65_mini_capacities"
   ],
   "note": ""
  },
  {
   "property": "C50",
   "status": "proved",
   "theorems": [
    "Crunch.V2.C50_v2_agrees_with_v3",
    "Crunch.V2.C50_writeBytes_agrees",
    "Crunch.V2.C50_writeByte_agrees"
   ],
   "note": ""
  },
  {
   "property": "C51",
   "status": "proved",
   "theorems": [
    "Crunch.V2.C51_grow_appends_zeros",
    "Crunch.V2.C51_mini_grow_appends_zeros"
   ],
   "note": ""
  },
  {
   "property": "C55",
   "status": "partial",
   "theorems": [
    "Crunch.V2.C55_releases_lock_partial",
    "Crunch.V2.C55_releases_lock_false",
    "Crunch.V2.C55_writeBytes_leak",
    "Crunch.V2.C55_returns_unlocked",
    "Crunch.V2.C55_reads_unlocked",
    "Crunch.V2.C55_then_blocked"
   ],
   "note": "false of the code: write, writeU* and grow unlock without defer, so a run-time panic inside (an empty slice, a wrapped offset, a negative count) leaves the mutex taken; the partial theorem says exactly when"
  },
  {
   "property": "C66",
   "status": "partial",
   "theorems": [
    "Crunch.V2.C66_overlapping_write_partial",
    "Crunch.V2.C66_overlapping_write_false"
   ],
   "note": "false of the code: bytes are copied forwards one at a time, so an overlapping source repeats; the partial theorem gives every byte"
  },
  {
   "property": "C52",
   "status": "proved",
   "theorems": [
    "Crunch.V2.C52_mutual_exclusion",
    "Crunch.V2.C52_changes_inside"
   ],
   "note": ""
  },
  {
   "property": "C53",
   "status": "proved",
   "theorems": [
    "Crunch.V2.C53_sections_serial",
    "Crunch.V2.C53_sections_serial_always"
   ],
   "note": ""
  },
  {
   "property": "C54",
   "status": "partial",
   "theorems": [
    "Crunch.V2.C54_moves_kept_partial",
    "Crunch.V2.C54_bit_moves_kept_partial",
    "Crunch.V2.C54_no_overlap_partial",
    "Crunch.V2.C54_own_regions_false"
   ],
   "note": "false of the code: the offset is read before the write takes the lock, so two calls can write the same place and leave a hole; the partial theorems say that no move of an offset is lost and that calls not overlapping in time are sequential"
  },
  {
   "property": "C67",
   "status": "proved",
   "theorems": [
    "Crunch.V2.C67_linearizable",
    "Crunch.V2.C67_real_time"
   ],
   "note": ""
  },
  {
   "property": "C56",
   "status": "partial",
   "theorems": [
    "Crunch.V1.C56_empty_false",
    "Crunch.V1.C56_complex_roundtrip_partial",
    "Crunch.V1.C56_mini_complex_roundtrip_partial"
   ],
   "note": "False as stated: WriteComplex of an empty slice panics with an index error inside the locked section (and a []byte taken from the buffer itself may be overwritten while it is copied). Proved for Buffer and MiniBuffer, every size, order, state and in-range offset: at least one integer, and bytes whose interior the destination does not start in."
  },
  {
   "property": "C57",
   "status": "partial",
   "theorems": [
    "Crunch.V1.C57_reads_past_the_end_false",
    "Crunch.V1.C57_read_complex_partial"
   ],
   "note": "False as stated: readComplex checks n bytes but slices n*size, so it can return bytes of the spare capacity or panic with a slice bounds error. Proved for every state, offset, count and size: exactly when a call returns and the integers it returns, that they are inside the buffer if they fit or there is no spare capacity, when it reports the overread, and that nothing changes."
  },
  {
   "property": "C58",
   "status": "partial",
   "theorems": [
    "Crunch.V1.C58_range_first_false",
    "Crunch.V1.C58_writeComplex_invalid",
    "Crunch.V1.C58_readComplex_invalid_partial",
    "Crunch.V1.C58_setBit_invalid_partial",
    "Crunch.V1.C58_mini_readComplex_invalid_partial",
    "Crunch.V1.C58_mini_invalid",
    "Crunch.V2.C58_v2_setBit_invalid",
    "Crunch.V2.C58_v2_mini_setBit_invalid"
   ],
   "note": "False as stated: ReadComplex and SetBit report an offset outside the buffer before the invalid size or bit value. Proved: WriteComplex and MiniBuffer SetBit/WriteComplex always report it; ReadComplex and SetBit do when the range is inside the buffer, and never change anything."
  },
  {
   "property": "C59",
   "status": "proved",
   "theorems": [
    "Crunch.Gen.C59_committed_is_generated",
    "Crunch.Gen.C59_every_directive"
   ],
   "note": "Token level: go/format spacing is not modelled, so the two texts are compared as token streams, comments included."
  },
  {
   "property": "C60",
   "status": "proved",
   "theorems": [
    "Crunch.Gen.C60_line_by_line",
    "Crunch.Gen.C60_outcome_unique"
   ],
   "note": ""
  },
  {
   "property": "C61",
   "status": "proved",
   "theorems": [
    "Crunch.Gen.C61_outputs_distinct",
    "Crunch.Gen.C61_output_not_source"
   ],
   "note": ""
  },
  {
   "property": "C62",
   "status": "partial",
   "theorems": [
    "Crunch.Gen.C62_outputs_partial",
    "Crunch.Gen.C62_not_truncated_false"
   ],
   "note": "false of the code: the output is opened without O_TRUNC, so the end of a longer old output stays; the partial theorem gives the exact contents and says exactly when they are the generated ones"
  },
  {
   "property": "C63",
   "status": "proved",
   "theorems": [
    "Crunch.C63_text_determines_error",
    "Crunch.C63_format",
    "Crunch.C63_errors_distinct"
   ],
   "note": ""
  },
  {
   "property": "C68",
   "status": "proved",
   "theorems": [
    "Crunch.Gen.C68_order_irrelevant",
    "Crunch.Gen.C68_other_kind"
   ],
   "note": ""
  },
  {
   "property": "C69",
   "status": "proved",
   "theorems": [
    "Crunch.V1.C69_same_steps",
    "Crunch.V1.C69_whole_buffer",
    "Crunch.V1.C69_constructor"
   ],
   "note": ""
  },
  {
   "property": "C70",
   "status": "proved",
   "theorems": [
    "Crunch.V1.C70_no_bits",
    "Crunch.V1.C70_no_bits_next",
    "Crunch.V1.C70_empty_buffer"
   ],
   "note": ""
  },
  {
   "property": "C71",
   "status": "proved",
   "theorems": [
    "Crunch.V1.C71_writeComplex_is_write",
    "Crunch.V1.C71_readComplex_is_read"
   ],
   "note": ""
  },
  {
   "property": "C72",
   "status": "proved",
   "theorems": [
    "Crunch.V1.C72_mutual_exclusion",
    "Crunch.V1.C72_changes_inside",
    "Crunch.V1.C72_sections_serial",
    "Crunch.V1.C72_linearizable"
   ],
   "note": ""
  },
  {
   "property": "C73",
   "status": "partial",
   "theorems": [
    "Crunch.V1.C73_releases_lock_false",
    "Crunch.V1.C73_releases_lock_partial",
    "Crunch.V1.C73_exactly_partial"
   ],
   "note": "false of the code: a run-time panic inside the locked section of a write or Grow leaves the mutex taken; the partial theorems say that nothing else does, and exactly when it stays taken"
  },
  {
   "property": "C74",
   "status": "proved",
   "theorems": [
    "Crunch.V1.C74_readComplexNext",
    "Crunch.V1.C74_writeComplexNext"
   ],
   "note": ""
  },
  {
   "property": "C75",
   "status": "partial",
   "theorems": [
    "Crunch.V1.C75_torn_read_false",
    "Crunch.V1.C75_torn_read_partial",
    "Crunch.V1.C75_calm_partial"
   ],
   "note": "false of the code: readComplex decodes the integers after releasing the mutex, so a concurrent write can be seen half; the partial theorems cover calls that do not overlap in time, and overlapping calls during which no other goroutine changes what the read looks at (WriteComplex is in C72)"
  },
  {
   "property": "C76",
   "status": "proved",
   "theorems": [
    "Crunch.V2.C76_mini_agrees",
    "Crunch.V2.C76_writeBytes",
    "Crunch.V2.C76_writeBytesNext",
    "Crunch.V2.C76_reset",
    "Crunch.V2.C76_grow",
    "Crunch.V2.C76_constructor"
   ],
   "note": ""
  },
  {
   "property": "C77",
   "status": "proved",
   "theorems": [
    "Crunch.V1.C77_mini_same",
    "Crunch.V1.C77_mini_whole_buffer",
    "Crunch.V1.C77_mini_nothing_to_do",
    "Crunch.V1.C77_mini_constructor"
   ],
   "note": ""
  },
  {
   "property": "C78",
   "status": "proved",
   "theorems": [
    "Crunch.V2.C78_v2_history",
    "Crunch.V2.C78_final_state",
    "Crunch.V2.C78_from_new"
   ],
   "note": ""
  },
  {
   "property": "C79",
   "status": "proved",
   "theorems": [
    "Crunch.V2.C79_v2_mini_history",
    "Crunch.V2.C79_final_state",
    "Crunch.V2.C79_from_new"
   ],
   "note": ""
  },
  {
   "property": "C80",
   "status": "proved",
   "theorems": [
    "Crunch.V1.C80_mini_writeComplex",
    "Crunch.V1.C80_mini_readComplex",
    "Crunch.V1.C80_mini_readComplexNext",
    "Crunch.V1.C80_mini_writeComplexNext"
   ],
   "note": ""
  },
  {
   "property": "C81",
   "status": "proved",
   "theorems": [
    "Crunch.Src.C81_text",
    "Crunch.Src.C81_buffer_text",
    "Crunch.Src.C81_constructor_text"
   ],
   "note": ""
  },
  {
   "property": "C82",
   "status": "proved",
   "theorems": [
    "Crunch.Src.C82_text",
    "Crunch.Src.C82_mini_text",
    "Crunch.Src.C82_constructor_text"
   ],
   "note": ""
  },
  {
   "property": "C83",
   "status": "proved",
   "theorems": [
    "Crunch.Src.C83_text_history"
   ],
   "note": ""
  },
  {
   "property": "C84",
   "status": "proved",
   "theorems": [
    "Crunch.Src.C84_mini_text",
    "Crunch.Src.C84_constructor_text",
    "Crunch.Src.C84_mini_history_text"
   ],
   "note": ""
  },
  {
   "property": "C85",
   "status": "proved",
   "theorems": [
    "Crunch.Src.C85_mini_text",
    "Crunch.Src.C85_constructor_text"
   ],
   "note": ""
  },
  {
   "property": "C86",
   "status": "proved",
   "theorems": [
    "Crunch.Src.C86_buffer_text",
    "Crunch.Src.C86_alone_text",
    "Crunch.Src.C86_constructor_text",
    "Crunch.Src.C86_goroutines_text",
    "Crunch.Src.C86_exclusion_text",
    "Crunch.Src.C86_linearizable_text"
   ],
   "note": ""
  },
  {
   "property": "C87",
   "status": "proved",
   "theorems": [
    "Crunch.Src.C87_buffer_text",
    "Crunch.Src.C87_alone_text",
    "Crunch.Src.C87_constructor_text",
    "Crunch.Src.C87_goroutines_text",
    "Crunch.Src.C87_exclusion_text",
    "Crunch.Src.C87_linearizable_text",
    "Crunch.Src.C87_torn_read_text"
   ],
   "note": ""
  },
  {
   "property": "C88",
   "status": "proved",
   "theorems": [
    "Crunch.V3.C88_typed_examples",
    "Crunch.V3.C88_bytes_example",
    "Crunch.Src.C88_typed_examples_text",
    "Crunch.Src.C88_bytes_example_text"
   ],
   "note": ""
  },
  {
   "property": "C89",
   "status": "proved",
   "theorems": [
    "Crunch.Src.C89_errors_v3_text",
    "Crunch.Src.C89_errors_v2_text",
    "Crunch.Src.C89_errors_v1_text",
    "Crunch.Src.C89_constants_text"
   ],
   "note": ""
  },
  {
   "property": "C90",
   "status": "proved",
   "theorems": [
    "Crunch.V2.C90_no_deadlock",
    "Crunch.V2.C90_no_livelock",
    "Crunch.V2.C90_calls_finish",
    "Crunch.V2.C90_reads_finish",
    "Crunch.V2.C90_stuck",
    "Crunch.V1.C90_v1_no_deadlock",
    "Crunch.V1.C90_v1_no_livelock",
    "Crunch.V1.C90_v1_calls_finish",
    "Crunch.V1.C90_v1_reads_finish",
    "Crunch.V1.C90_v1_stuck"
   ],
   "note": ""
  },
  {
   "property": "C91",
   "status": "partial",
   "theorems": [
    "Crunch.V2.C91_race_free_false",
    "Crunch.V2.C91_one_writer_partial",
    "Crunch.V2.C91_bytes_partial",
    "Crunch.V2.C91_atomic_partial",
    "Crunch.V1.C91_v1_race_free_false",
    "Crunch.V1.C91_v1_one_writer_partial",
    "Crunch.V1.C91_v1_bytes_partial",
    "Crunch.V1.C91_v1_atomic_partial"
   ],
   "note": "false of the code: fields are read without the mutex, and ReadByte and v1 ReadComplex load bytes after releasing it; the partial theorems say that there are never two writers, that bytes are not raced for without those reads, and that the calls of C67 and C72 never race"
  },
  {
   "property": "C92",
   "status": "proved",
   "theorems": [
    "Crunch.V2.C92_capacity_bound",
    "Crunch.V2.C92_capacity_exact",
    "Crunch.V2.C92_capacity_idle",
    "Crunch.V2.C92_capacity_lags",
    "Crunch.V1.C92_v1_capacity_bound",
    "Crunch.V1.C92_v1_capacity_exact",
    "Crunch.V1.C92_v1_capacity_idle"
   ],
   "note": ""
  },
  {
   "property": "C93",
   "status": "partial",
   "theorems": [
    "Crunch.V2.C93_in_range_false",
    "Crunch.V2.C93_in_range_partial",
    "Crunch.V2.C93_errors_partial",
    "Crunch.V2.C93_leak_partial",
    "Crunch.V2.C93_finish_partial",
    "Crunch.V1.C93_v1_in_range",
    "Crunch.V1.C93_v1_errors",
    "Crunch.V1.C93_v1_leak",
    "Crunch.V1.C93_v1_finish"
   ],
   "note": "v1: proved as stated. v2: false because of Reset (witness: a WriteByte that has passed its check fails inside its section after another goroutine's Reset and leaves the mutex locked); proved for any schedule of the other calls. The Next methods for bytes are not among the calls covered by the arithmetic condition, since their offset is whatever the others have made it."
  },
  {
   "property": "C94",
   "status": "proved",
   "theorems": [
    "Crunch.V1.C94_v1_history",
    "Crunch.V1.C94_final_state",
    "Crunch.V1.C94_from_new",
    "Crunch.V1.C94_result_type"
   ],
   "note": ""
  },
  {
   "property": "C95",
   "status": "proved",
   "theorems": [
    "Crunch.V1.C95_v1_mini_history",
    "Crunch.V1.C95_final_state",
    "Crunch.V1.C95_from_new",
    "Crunch.V1.C95_result_type"
   ],
   "note": ""
  },
  {
   "property": "C96",
   "status": "proved",
   "theorems": [
    "Crunch.Src.C96_v3_mini_text",
    "Crunch.Src.C96_v2_mini_text",
    "Crunch.Src.C96_v1_mini_text",
    "Crunch.Src.C96_v2_text",
    "Crunch.Src.C96_v1_text"
   ],
   "note": ""
  },
  {
   "property": "C97",
   "status": "proved",
   "theorems": [
    "Crunch.Src.C97_finish_text",
    "Crunch.Src.C97_reads_finish_text",
    "Crunch.Src.C97_races_text",
    "Crunch.Src.C97_race_text",
    "Crunch.Src.C97_capacity_text",
    "Crunch.Src.C97_failures_text",
    "Crunch.Src.C97_decent_finish_text",
    "Crunch.Src.C97_reset_text",
    "Crunch.Src.C97_v1_finish_text",
    "Crunch.Src.C97_v1_reads_finish_text",
    "Crunch.Src.C97_v1_races_text",
    "Crunch.Src.C97_v1_race_text",
    "Crunch.Src.C97_v1_capacity_text",
    "Crunch.Src.C97_v1_failures_text",
    "Crunch.Src.C97_v1_decent_finish_text"
   ],
   "note": ""
  },
  {
   "property": "C98",
   "status": "proved",
   "theorems": [
    "Crunch.V2.C98_fair_finish",
    "Crunch.V2.C98_reads_fair",
    "Crunch.V2.C98_decent_fair",
    "Crunch.V2.C98_starvation",
    "Crunch.Src.C98_fair_text",
    "Crunch.V1.C98_v1_fair_finish",
    "Crunch.V1.C98_v1_reads_fair",
    "Crunch.V1.C98_v1_decent_fair",
    "Crunch.V1.C98_v1_starvation",
    "Crunch.Src.C98_v1_fair_text"
   ],
   "note": ""
  },
  {
   "property": "C99",
   "status": "proved",
   "theorems": [
    "Crunch.Gen.Go.C99_text_is_generator",
    "Crunch.Gen.Go.C99_line_by_line",
    "Crunch.Gen.Go.C99_committed_is_generated",
    "Crunch.Gen.Go.C99_messages_unique"
   ],
   "note": ""
  },
  {
   "property": "C100",
   "status": "proved",
   "theorems": [
    "Crunch.Gen.Go.C100_ends",
    "Crunch.Gen.Go.C100_only_outputs",
    "Crunch.Gen.Go.C100_never_shorter"
   ],
   "note": ""
  },
  {
   "property": "C101",
   "status": "proved",
   "theorems": [
    "Crunch.Gen.Go.C101_output",
    "Crunch.Gen.Go.C101_text_is_model"
   ],
   "note": ""
  },
  {
   "property": "C102",
   "status": "proved",
   "theorems": [
    "Crunch.Gen.Go.C102_faults"
   ],
   "note": ""
  },
  {
   "property": "C103",
   "status": "partial",
   "theorems": [
    "Crunch.Gen.Go.C103_place_partial",
    "Crunch.Gen.Go.C103_elsewhere_false"
   ],
   "note": "false of the code: main ignores the error of Chdir (generation/main.go:65), so if the directory can be opened and listed but not entered, sources and outputs with the same names in the working directory are read and written (C103_elsewhere_false). Proved: the place is one of the two, depending on Chdir."
  },
  {
   "property": "C104",
   "status": "partial",
   "theorems": [
    "Crunch.Gen.Go.C104_closed_partial",
    "Crunch.Gen.Go.C104_leak_false"
   ],
   "note": "false of the code: after a failed read or write the loops continue without closing the file (generation/main.go:84,115; C104_leak_false). Proved: only files whose reading or writing failed stay open."
  },
  {
   "property": "C105",
   "status": "partial",
   "theorems": [
    "Crunch.Gen.Go.C105_silence_partial",
    "Crunch.Gen.Go.C105_elsewhere_false"
   ],
   "note": "false of the code: a failed Chdir is silent (generation/main.go:65), so the outputs may be made elsewhere (C105_elsewhere_false). Proved: every other failure is reported, so after a silent run all outputs are complete where the program was."
  },
  {
   "property": "C106",
   "status": "proved",
   "theorems": [
    "Crunch.Gen.Go.C106_refusals_reported"
   ],
   "note": ""
  },
  {
   "property": "C107",
   "status": "proved",
   "theorems": [
    "Crunch.V2.C107_made_of_single_bits",
    "Crunch.V2.C107_not_atomic",
    "Crunch.V1.C107_v1_made_of_single_bits"
   ],
   "note": ""
  },
  {
   "property": "C108",
   "status": "proved",
   "theorems": [
    "Crunch.V2.C108_no_interference",
    "Crunch.V1.C108_v1_no_interference"
   ],
   "note": ""
  },
  {
   "property": "C109",
   "status": "proved",
   "theorems": [
    "Crunch.V2.C109_look_act_move",
    "Crunch.V1.C109_v1_look_act_move"
   ],
   "note": ""
  },
  {
   "property": "C110",
   "status": "proved",
   "theorems": [
    "Crunch.V2.C110_own_cursor",
    "Crunch.V2.C110_real_time",
    "Crunch.V1.C110_v1_own_cursor"
   ],
   "note": ""
  },
  {
   "property": "C111",
   "status": "proved",
   "theorems": [
    "Crunch.Src.C111_own_cursor_text",
    "Crunch.Src.C111_parts_text",
    "Crunch.Src.C111_no_interference_text",
    "Crunch.Src.C111_v1_own_cursor_text",
    "Crunch.Src.C111_v1_parts_text",
    "Crunch.Src.C111_v1_no_interference_text"
   ],
   "note": ""
  },
  {
   "property": "C112",
   "status": "proved",
   "theorems": [
    "Crunch.V2.C112_reference",
    "Crunch.V2.C112_own_cursor_reference",
    "Crunch.V1.C112_v1_reference",
    "Crunch.V1.C112_v1_own_cursor_reference"
   ],
   "note": ""
  },
  {
   "property": "C113",
   "status": "proved",
   "theorems": [
    "Crunch.V2.C113_footprint",
    "Crunch.V2.C113_frame",
    "Crunch.V2.C113_depends",
    "Crunch.V1.C113_v1_footprint",
    "Crunch.V1.C113_v1_frame",
    "Crunch.V1.C113_v1_depends"
   ],
   "note": ""
  },
  {
   "property": "C114",
   "status": "proved",
   "theorems": [
    "Crunch.V2.C114_separate",
    "Crunch.V2.C114_placed",
    "Crunch.V1.C114_v1_separate",
    "Crunch.V1.C114_v1_placed"
   ],
   "note": ""
  },
  {
   "property": "C115",
   "status": "proved",
   "theorems": [
    "Crunch.V2.C115_readers",
    "Crunch.V1.C115_v1_readers"
   ],
   "note": ""
  },
  {
   "property": "C116",
   "status": "proved",
   "theorems": [
    "Crunch.Src.C116_footprint_text",
    "Crunch.Src.C116_separate_text",
    "Crunch.Src.C116_readers_text",
    "Crunch.Src.C116_v1_footprint_text",
    "Crunch.Src.C116_v1_separate_text",
    "Crunch.Src.C116_v1_readers_text"
   ],
   "note": ""
  },
  {
   "property": "C117",
   "status": "proved",
   "theorems": [
    "Crunch.V2.C117_calm",
    "Crunch.V2.C117_moment",
    "Crunch.V1.C117_v1_calm",
    "Crunch.V1.C117_v1_moment",
    "Crunch.Src.C117_calm_text",
    "Crunch.Src.C117_moment_text",
    "Crunch.Src.C117_v1_calm_text",
    "Crunch.Src.C117_v1_moment_text"
   ],
   "note": ""
  },
  {
   "property": "C118",
   "status": "proved",
   "theorems": [
    "Crunch.V2.C118_linear",
    "Crunch.V1.C118_v1_linear",
    "Crunch.Src.C118_linear_text",
    "Crunch.Src.C118_v1_linear_text"
   ],
   "note": ""
  },
  {
   "property": "C119",
   "status": "partial",
   "theorems": [
    "Crunch.V2.C119_race_free_false",
    "Crunch.V2.C119_table_partial",
    "Crunch.V2.C119_friendly_partial",
    "Crunch.V2.C119_atomic_partial",
    "Crunch.V2.C119_separate_partial",
    "Crunch.Src.C119_table_text",
    "Crunch.Src.C119_friendly_text",
    "Crunch.Src.C119_separate_text",
    "Crunch.Src.C119_races_text",
    "Crunch.V1.C119_v1_race_free_false",
    "Crunch.V1.C119_v1_table_partial",
    "Crunch.V1.C119_v1_friendly_partial",
    "Crunch.V1.C119_v1_atomic_partial",
    "Crunch.V1.C119_v1_separate_partial",
    "Crunch.Src.C119_v1_table_text",
    "Crunch.Src.C119_v1_friendly_text",
    "Crunch.Src.C119_v1_separate_text",
    "Crunch.Src.C119_v1_races_text"
   ],
   "note": "false of the code on every part of a Buffer: fields are read without the mutex, Bytes reads the slice without it, and ReadByte and v1 ReadComplex load bytes after releasing it; the partial theorems say that two changes are always ordered, which calls can be in a data race at all, and that calls which are not in each other's tables, the calls of C67 and C72, and goroutines with separate places are in none"
  },
  {
   "property": "C120",
   "status": "proved",
   "theorems": [
    "Crunch.Src.C120_buffer_alone",
    "Crunch.Src.C120_mini_alone",
    "Crunch.Src.C120_v2_mini_alone",
    "Crunch.Src.C120_v1_mini_alone"
   ],
   "note": ""
  },
  {
   "property": "C121",
   "status": "proved",
   "theorems": [
    "Crunch.Src.C121_buffer_table",
    "Crunch.Src.C121_buffer_apart",
    "Crunch.Src.C121_buffer_readers",
    "Crunch.Src.C121_buffer_races",
    "Crunch.Src.C121_mini_table",
    "Crunch.Src.C121_mini_apart",
    "Crunch.Src.C121_mini_readers",
    "Crunch.Src.C121_mini_races",
    "Crunch.Src.C121_v2_mini_table",
    "Crunch.Src.C121_v2_mini_apart",
    "Crunch.Src.C121_v2_mini_readers",
    "Crunch.Src.C121_v2_mini_races",
    "Crunch.Src.C121_v1_mini_table",
    "Crunch.Src.C121_v1_mini_apart",
    "Crunch.Src.C121_v1_mini_readers",
    "Crunch.Src.C121_v1_mini_races",
    "Crunch.Src.C121_buffer_next_twice",
    "Crunch.Src.C121_buffer_check_passed"
   ],
   "note": ""
  },
  {
   "property": "C122",
   "status": "proved",
   "theorems": [
    "Crunch.Src.C122_buffer",
    "Crunch.Src.C122_mini",
    "Crunch.Src.C122_v2_mini",
    "Crunch.Src.C122_v1_mini",
    "Crunch.Src.C122_no_lost_update",
    "Crunch.Src.C122_lost_update_without"
   ],
   "note": ""
  },
  {
   "property": "C123",
   "status": "proved",
   "theorems": [
    "Crunch.Src.C123_buffer",
    "Crunch.Src.C123_mini",
    "Crunch.Src.C123_v2_mini",
    "Crunch.Src.C123_v1_mini"
   ],
   "note": ""
  },
  {
   "property": "C124",
   "status": "proved",
   "theorems": [
    "Crunch.Src.C124_buffer_footprint",
    "Crunch.Src.C124_mini_footprint",
    "Crunch.Src.C124_buffer_frame",
    "Crunch.Src.C124_mini_frame",
    "Crunch.Src.C124_buffer_depends",
    "Crunch.Src.C124_mini_depends",
    "Crunch.Src.C124_buffer_separate",
    "Crunch.Src.C124_mini_separate",
    "Crunch.Src.C124_buffer_placed",
    "Crunch.Src.C124_mini_placed",
    "Crunch.Src.C124_ranges"
   ],
   "note": ""
  },
  {
   "property": "C125",
   "status": "proved",
   "theorems": [
    "Crunch.Src.C125_footprint",
    "Crunch.Src.C125_frame",
    "Crunch.Src.C125_depends",
    "Crunch.Src.C125_separate",
    "Crunch.Src.C125_placed",
    "Crunch.Src.C125_ranges"
   ],
   "note": ""
  },
  {
   "property": "C126",
   "status": "proved",
   "theorems": [
    "Crunch.Src.C126_footprint",
    "Crunch.Src.C126_frame",
    "Crunch.Src.C126_depends",
    "Crunch.Src.C126_separate",
    "Crunch.Src.C126_placed",
    "Crunch.Src.C126_ranges"
   ],
   "note": ""
  },
  {
   "property": "C127",
   "status": "proved",
   "theorems": [
    "Crunch.Src.C127_buffer_bytes",
    "Crunch.Src.C127_mini_bytes",
    "Crunch.Src.C127_buffer_race",
    "Crunch.Src.C127_mini_race"
   ],
   "note": ""
  },
  {
   "property": "C128",
   "status": "proved",
   "theorems": [
    "Crunch.Src.C128_v2_bytes",
    "Crunch.Src.C128_v1_bytes",
    "Crunch.Src.C128_v2_race",
    "Crunch.Src.C128_v1_race"
   ],
   "note": ""
  },
  {
   "property": "C129",
   "status": "proved",
   "theorems": [
    "Crunch.V2.C129_v2",
    "Crunch.V1.C129_v1",
    "Crunch.Src.C129_v2_text",
    "Crunch.Src.C129_v1_text"
   ],
   "note": ""
  },
  {
   "property": "C130",
   "status": "proved",
   "theorems": [
    "Crunch.Src.C130_v2_text_reference",
    "Crunch.Src.C130_v1_text_reference"
   ],
   "note": ""
  },
  {
   "property": "C131",
   "status": "proved",
   "theorems": [
    "Crunch.V2.C131_composition",
    "Crunch.V2.C131_linearizable",
    "Crunch.V2.C131_real_time",
    "Crunch.V2.C131_shared_bytes",
    "Crunch.V1.C131_v1_composition",
    "Crunch.V1.C131_v1_linearizable",
    "Crunch.Src.C131_composition_text",
    "Crunch.Src.C131_linearizable_text",
    "Crunch.Src.C131_v1_composition_text",
    "Crunch.Src.C131_v1_linearizable_text"
   ],
   "note": ""
  },
  {
   "property": "C132",
   "status": "proved",
   "theorems": [
    "Crunch.Wire.C132_written",
    "Crunch.Wire.C132_read",
    "Crunch.Wire.C132_text"
   ],
   "note": ""
  },
  {
   "property": "C133",
   "status": "proved",
   "theorems": [
    "Crunch.Src.Program.C133_programs",
    "Crunch.Src.Program.C133_helloworld",
    "Crunch.Src.Program.C133_signed_integers",
    "Crunch.Src.Program.C133_floating_point"
   ],
   "note": ""
  },
  {
   "property": "C134",
   "status": "proved",
   "theorems": [
    "Crunch.Src.Tests.V3BufferTest.C134_v3_buffer",
    "Crunch.Src.Tests.V3MiniTest.C134_v3_mini",
    "Crunch.Src.Tests.V2BufferTest.C134_v2_buffer",
    "Crunch.Src.Tests.V2MiniTest.C134_v2_mini",
    "Crunch.Src.Tests.V1BufferTest.C134_v1_buffer",
    "Crunch.Src.Tests.V1MiniTest.C134_v1_mini",
    "Crunch.Src.C134_v3_errors",
    "Crunch.Src.C134_v2_errors",
    "Crunch.Src.C134_v1_errors"
   ],
   "note": ""
  },
  {
   "property": "C135",
   "status": "proved",
   "theorems": [
    "Crunch.V3.C135_v3_room",
    "Crunch.V3.C135_v3_seen",
    "Crunch.V3.C135_new",
    "Crunch.V3.C135_v3_policy",
    "Crunch.V2.C135_v2_room",
    "Crunch.V2.C135_v2_policy",
    "Crunch.V1.C135_v1_room",
    "Crunch.V1.C135_v1_seen",
    "Crunch.V1.C135_v1_policy",
    "Crunch.Src.C135_v3_text",
    "Crunch.Src.C135_v2_text",
    "Crunch.Src.C135_v1_text"
   ],
   "note": ""
  },
  {
   "property": "C136",
   "status": "proved",
   "theorems": [
    "Crunch.V3.C136_v3_room",
    "Crunch.V3.C136_v3_seen",
    "Crunch.V3.C136_v3_policy",
    "Crunch.Src.C136_v3_text",
    "Crunch.V2.C136_v2_room",
    "Crunch.V2.C136_v2_seen",
    "Crunch.V2.C136_v2_policy",
    "Crunch.Src.C136_v2_text",
    "Crunch.V1.C136_v1_room",
    "Crunch.V1.C136_v1_seen",
    "Crunch.V1.C136_v1_policy",
    "Crunch.Src.C136_v1_text"
   ],
   "note": ""
  },
  {
   "property": "C137",
   "status": "proved",
   "theorems": [
    "Crunch.Src.Tests.C137_v3_buffer",
    "Crunch.Src.Tests.C137_v3_mini",
    "Crunch.Src.Tests.C137_v2_buffer",
    "Crunch.Src.Tests.C137_v2_mini",
    "Crunch.Src.Tests.C137_v1_buffer",
    "Crunch.Src.Tests.C137_v1_mini"
   ],
   "note": ""
  },
  {
   "property": "C138",
   "status": "proved",
   "theorems": [
    "Crunch.Src.Program.C138_nearest",
    "Crunch.Src.Program.C138_integers",
    "Crunch.Src.Program.C138_float64",
    "Crunch.Src.Program.C138_float32"
   ],
   "note": ""
  },
  {
   "property": "C139",
   "status": "proved",
   "theorems": [
    "Crunch.Wire.C139_written",
    "Crunch.Wire.C139_read",
    "Crunch.Wire.C139_across"
   ],
   "note": ""
  },
  {
   "property": "C140",
   "status": "proved",
   "theorems": [
    "Crunch.Wire.C140_any_type",
    "Crunch.Wire.C140_as_v3"
   ],
   "note": ""
  },
  {
   "property": "C141",
   "status": "proved",
   "theorems": [
    "Crunch.Wire.C141_any_type",
    "Crunch.Wire.C141_exchange"
   ],
   "note": ""
  },
  {
   "property": "C142",
   "status": "proved",
   "theorems": [
    "Crunch.Wire.C142_strict",
    "Crunch.Wire.C142_others"
   ],
   "note": ""
  },
  {
   "property": "C143",
   "status": "proved",
   "theorems": [
    "Crunch.Wire.C143_same_errors",
    "Crunch.Wire.C143_results"
   ],
   "note": ""
  },
  {
   "property": "C144",
   "status": "proved",
   "theorems": [
    "Crunch.Wire.C144_same_outcome",
    "Crunch.Wire.C144_others"
   ],
   "note": ""
  },
  {
   "property": "C145",
   "status": "proved",
   "theorems": [
    "Crunch.Wire.C145_shared",
    "Crunch.Wire.C145_as_v3"
   ],
   "note": ""
  },
  {
   "property": "C146",
   "status": "proved",
   "theorems": [
    "Crunch.Wire.C146_shared",
    "Crunch.Wire.C146_exchange"
   ],
   "note": ""
  }
 ]
}
