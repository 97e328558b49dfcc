{
 "claims": [
  {
   "property": "C01",
   "status": "proved",
   "theorems": [
    "Redsea.C01_codeword_recognised",
    "Redsea.C01_only_codewords"
   ],
   "note": ""
  },
  {
   "property": "C02",
   "status": "proved",
   "theorems": [
    "Redsea.C02_burst_corrected"
   ],
   "note": ""
  },
  {
   "property": "C03",
   "status": "proved",
   "theorems": [
    "Redsea.C03_correction_exact",
    "Redsea.C03_failure",
    "Redsea.C03_invalid_offset"
   ],
   "note": ""
  },
  {
   "property": "C04",
   "status": "proved",
   "theorems": [
    "Redsea.C04_received_blocks_genuine",
    "Redsea.C04_no_fec_only_clean_blocks"
   ],
   "note": ""
  },
  {
   "property": "C05",
   "status": "proved",
   "theorems": [
    "Redsea.C05_clean_stream_lossless"
   ],
   "note": ""
  },
  {
   "property": "C06",
   "status": "proved",
   "theorems": [
    "Redsea.C06_bursty_stream_lossless",
    "Redsea.C06_cprime_burst_violated"
   ],
   "note": "The exception for third blocks with offset C' is real: C06_cprime_burst_violated shows a single wrong bit there giving wrong data."
  },
  {
   "property": "C07",
   "status": "proved",
   "theorems": [
    "Redsea.C07_three_consistent_pulses"
   ],
   "note": "Distances are modulo 2^32 (range of the bit counter); the register starts with zeros, so a codeword may begin before the input."
  },
  {
   "property": "C08",
   "status": "proved",
   "theorems": [
    "Redsea.C08_acquires_from_three_blocks"
   ],
   "note": ""
  },
  {
   "property": "C09",
   "status": "proved",
   "theorems": [
    "Redsea.C09_sync_loss"
   ],
   "note": ""
  },
  {
   "property": "C10",
   "status": "proved",
   "theorems": [
    "Redsea.C10_delivered_iff",
    "Redsea.C10_spacing"
   ],
   "note": ""
  },
  {
   "property": "C100",
   "status": "proved",
   "theorems": [
    "Redsea.C100_groups",
    "Redsea.C100_independent",
    "Redsea.C100_sound"
   ],
   "note": "Groups of a stream are those a block decoder finds in the bits of this stream, for all interleavings; also for sound."
  },
  {
   "property": "C101",
   "status": "proved",
   "theorems": [
    "Redsea.C101_calls",
    "Redsea.C101_independent",
    "Redsea.C101_other_members",
    "Redsea.C101_sound",
    "Redsea.C101_program",
    "Redsea.C101_error_rates"
   ],
   "note": "Lines of stream 0 do not depend on upper streams, for calls, recordings and the program. With -t and -E (calls) apart from rx_time and bler; C101_error_rates shows that bler does depend on upper streams."
  },
  {
   "property": "C102",
   "status": "partial",
   "theorems": [
    "Redsea.C102_description_partial",
    "Redsea.C102_quantifier_partial",
    "Redsea.C102_place_partial",
    "Redsea.C51_violated"
   ],
   "note": "Complete for messages of two and five groups. Violated for three and four groups as in C51: only fields in the first 28 bits are read; for those, messages whose fields fit there. Several events with quantifiers: C65 with any event list."
  },
  {
   "property": "C103",
   "status": "proved",
   "theorems": [
    "Redsea.C103_not_printed",
    "Redsea.C103_same_lines",
    "Redsea.C103_sound_hex",
    "Redsea.C103_sound",
    "Redsea.C103_program"
   ],
   "note": "Two channels with the same calls print the same lines apart from the member channel, whatever their numbers and the numbers of channels. Two channels of a recording with the same samples do so too, with the clock either not printed or the same at the end of both."
  },
  {
   "property": "C104",
   "status": "proved",
   "theorems": [
    "Redsea.C104_same_lines",
    "Redsea.C104_sound",
    "Redsea.C104_program",
    "Redsea.C104_program_sound",
    "Redsea.C104_nothing_to_drop",
    "Redsea.C104_only_added",
    "Redsea.C104_only_added_sound",
    "Redsea.C104_only_added_program",
    "Redsea.C104_only_added_program_sound"
   ],
   "note": "Two runs with any two sets of location tables: same state, same lines apart from the five place members of traffic messages; without tables the members are absent. Names in the tables are assumed to be UTF-8."
  },
  {
   "property": "C105",
   "status": "proved",
   "theorems": [
    "Redsea.C105_adds_locations",
    "Redsea.C105_two_keys",
    "Redsea.C105_sound",
    "Redsea.C105_program",
    "Redsea.C105_program_sound"
   ],
   "note": "A run with keys against the same run without: same state, same lines apart from the location added to encrypted traffic messages; two sets of keys agree but for the location. Texts of tables are assumed to be UTF-8."
  },
  {
   "property": "C11",
   "status": "proved",
   "theorems": [
    "Redsea.C11_shift_invariant",
    "Redsea.C11_arithmetic"
   ],
   "note": ""
  },
  {
   "property": "C12",
   "status": "proved",
   "theorems": [
    "Redsea.C12_group_type",
    "Redsea.C12_group_type_hex"
   ],
   "note": ""
  },
  {
   "property": "C13",
   "status": "proved",
   "theorems": [
    "Redsea.C13_group_pi",
    "Redsea.C13_group_pi_general"
   ],
   "note": ""
  },
  {
   "property": "C14",
   "status": "partial",
   "theorems": [
    "Redsea.C14_no_type_without_block2",
    "Redsea.C14_15B_from_block4_violated"
   ],
   "note": "Violated by the code: the flag the branch depends on is never set. The negation is proved for every bit stream, and for a concrete one."
  },
  {
   "property": "C15",
   "status": "proved",
   "theorems": [
    "Redsea.C15_three_consecutive",
    "Redsea.C15_known_pi"
   ],
   "note": "For every history of PI receptions and cache resets; and for a channel that is made for a known PI."
  },
  {
   "property": "C16",
   "status": "proved",
   "theorems": [
    "Redsea.C16_isolated_errors_harmless",
    "Redsea.C16_applies_after_confirmation",
    "Redsea.C16_two_errors_reannounce_violated"
   ],
   "note": "Any number of isolated wrong PIs. Limit outside the claim: two different wrong PIs in a row reset the cache and the same PI is announced again."
  },
  {
   "property": "C17",
   "status": "partial",
   "theorems": [
    "Redsea.C17_three_in_a_row_partial",
    "Redsea.C17_startup_third_group",
    "Redsea.C17_pi_zero_violated"
   ],
   "note": "Proved for every PI except 0x0000, from any cache state. Violated for PI 0x0000, which is never confirmed after start-up."
  },
  {
   "property": "C18",
   "status": "partial",
   "theorems": [
    "Redsea.C18_json_has_confirmed_pi_partial",
    "Redsea.C18_announced_three_times",
    "Redsea.C18_error_report_violated"
   ],
   "note": "All call sequences. Every printed line comes after an announced PI and A/B lines carry it as 0xHHHH. Violated only where a text that is not UTF-8 makes the JSON library throw: the line is replaced by an error report without pi."
  },
  {
   "property": "C19",
   "status": "proved",
   "theorems": [
    "Redsea.C19_change_erases_station",
    "Redsea.C19_histories_do_not_matter",
    "Redsea.C19_station_of_channel"
   ],
   "note": "Any two channel states, any continuation of calls. C19_station_of_channel: the state of the current station is that of a new station that received the groups since its PI was announced."
  },
  {
   "property": "C20",
   "status": "partial",
   "theorems": [
    "Redsea.C20_buffers_partial",
    "Redsea.C20_clock_steady_partial",
    "Redsea.C20_clock_backwards_violated",
    "Redsea.C20_timed_groups_violated"
   ],
   "note": "Proved for buffers of bits with any clock, and for all calls when the clock never goes backwards. Violated for single groups after a clock step back, and for groups with their own time."
  },
  {
   "property": "C21",
   "status": "proved",
   "theorems": [
    "Redsea.C21_bler_last_twelve",
    "Redsea.C21_printed",
    "Redsea.C21_rounding_margin"
   ],
   "note": "All call sequences. The float computation is modelled exactly; the margin theorem shows that float rounding can not change the printed integer."
  },
  {
   "property": "C22",
   "status": "partial",
   "theorems": [
    "Redsea.C22_partial_group_handed_over_partial",
    "Redsea.C22_stream0_violated"
   ],
   "note": "Proved for streams 1 to 3 (whole blocks of an error-free start of a group). Violated for stream 0: Channel::flush skips it."
  },
  {
   "property": "C23",
   "status": "proved",
   "theorems": [
    "Redsea.C23_printed_iff",
    "Redsea.C23_no_two_without_pi"
   ],
   "note": "All call sequences, as an equivalence."
  },
  {
   "property": "C24",
   "status": "proved",
   "theorems": [
    "Redsea.C24_complete_text_latest_bytes"
   ],
   "note": "For every buffer size, encoding and history of receptions and clears; fields whose buffer is not resized (RadioText: see C27)."
  },
  {
   "property": "C25",
   "status": "proved",
   "theorems": [
    "Redsea.C25_in_order_text_complete",
    "Redsea.C25_characters_after_the_end",
    "Redsea.decode_total"
   ],
   "note": ""
  },
  {
   "property": "C26",
   "status": "partial",
   "theorems": [
    "Redsea.C26_no_mixing_partial",
    "Redsea.C26_mixing_violated"
   ],
   "note": "Violated: segments of a later transmission are merged into a complete text when position 0 of the later transmission is lost. Proved when position 0 of the last transmission was received."
  },
  {
   "property": "C27",
   "status": "partial",
   "theorems": [
    "Redsea.C27_radiotext_received_partial",
    "Redsea.C27_alternating_versions_violated"
   ],
   "note": "Violated when 2A and 2B alternate without a flag change. Proved for stations that change the version only together with the A/B flag."
  },
  {
   "property": "C28",
   "status": "partial",
   "theorems": [
    "Redsea.C28_rtplus_substring_partial",
    "Redsea.C28_received_text_partial",
    "Redsea.C28_multibyte_violated",
    "Redsea.C28_tag_at_end_violated"
   ],
   "note": "Violated for tags bordered by multi-byte characters and for tags reaching the end of the text; proved otherwise."
  },
  {
   "property": "C29",
   "status": "partial",
   "theorems": [
    "Redsea.C29_flag_separates_partial",
    "Redsea.C29_change_group",
    "Redsea.C29_change_group_violated"
   ],
   "note": "Proved for all groups except the one that carries the flag change; there the old message may be printed (witness)."
  },
  {
   "property": "C30",
   "status": "proved",
   "theorems": [
    "Redsea.C30_alt_freq_in_bounds",
    "Redsea.C30_decoder_in_bounds"
   ],
   "note": "AltFreqList with explicit array bounds; every history of insertions and clears, and every sequence of type 0A groups."
  },
  {
   "property": "C31",
   "status": "proved",
   "theorems": [
    "Redsea.C31_list_received",
    "Redsea.C31_list_origin",
    "Redsea.C31_printed_list_was_sent",
    "Redsea.C31_sent_list_is_printed"
   ],
   "note": "Both directions, for the list itself and for the frequency part of decodeType0."
  },
  {
   "property": "C32",
   "status": "proved",
   "theorems": [
    "Redsea.C32_fm",
    "Redsea.C32_lf_mf",
    "Redsea.C32_injective"
   ],
   "note": "Every code and both bands."
  },
  {
   "property": "C33",
   "status": "proved",
   "theorems": [
    "Redsea.C33_method_b",
    "Redsea.C31_printed_list_was_sent"
   ],
   "note": "A complete method B list is printed exactly if no pair is repeated (the decoder's plausibility check)."
  },
  {
   "property": "C34",
   "status": "proved",
   "theorems": [
    "Redsea.C34_base64_decodes",
    "Redsea.C34_base64_length",
    "Redsea.C34_base64_alphabet"
   ],
   "note": "Round trip with a strict RFC 4648 decoder written independently."
  },
  {
   "property": "C35",
   "status": "proved",
   "theorems": [
    "Redsea.C35_printed_file_is_consistent",
    "Redsea.C35_complete_file_is_printed",
    "Redsea.C35_pipes_are_separate",
    "Redsea.C35_oversized_announcement_ignored"
   ],
   "note": "Soundness and completeness for every history of events on a pipe; pipes are independent."
  },
  {
   "property": "C36",
   "status": "proved",
   "theorems": [
    "Redsea.C36_rft_in_bounds"
   ],
   "note": "Every sequence of type C groups; vectors with explicit bounds."
  },
  {
   "property": "C37",
   "status": "proved",
   "theorems": [
    "Redsea.C37_crc"
   ],
   "note": "Equality with the bit-by-bit CRC by linearity over the 40 input bits of one step and induction over the bytes."
  },
  {
   "property": "C38",
   "status": "proved",
   "theorems": [
    "Redsea.C38_hex_round_trip",
    "Redsea.C38_hex_file_round_trip"
   ],
   "note": "Single group and whole recordings, any time stamp text without line breaks."
  },
  {
   "property": "C39",
   "status": "partial",
   "theorems": [
    "Redsea.C39_hex_blocks_partial",
    "Redsea.C39_hex_damaged_partial",
    "Redsea.C39_hex_blocks_violated"
   ],
   "note": "Proved for lines with at least 16 non-blank characters; violated for truncated lines (a cut-off or absent block is marked as received)."
  },
  {
   "property": "C40",
   "status": "partial",
   "theorems": [
    "Redsea.C40_tef_flags_partial",
    "Redsea.C40_tef_pi",
    "Redsea.C40_tef_flags_violated"
   ],
   "note": "Received implies own error field zero; the converse is violated (an error in an earlier block drops the later ones), and the group type is taken from a damaged block 2."
  },
  {
   "property": "C41",
   "status": "partial",
   "theorems": [
    "Redsea.C41_ascii_bits_partial",
    "Redsea.C41_ascii_bits_violated"
   ],
   "note": "Exact description: the bits of the text followed by one extra zero bit at end of file."
  },
  {
   "property": "C42",
   "status": "partial",
   "theorems": [
    "Redsea.C42_deinterleave_partial",
    "Redsea.C42_single_channel",
    "Redsea.C42_whole_chunks",
    "Redsea.C42_deinterleave_violated"
   ],
   "note": "Proved for one channel and for whole chunks; violated for the last incomplete chunk of multi-channel input, which every channel receives interleaved."
  },
  {
   "property": "C43",
   "status": "proved",
   "theorems": [
    "Redsea.C43_callsign",
    "Redsea.C43_injective",
    "Redsea.C43_listed_codes"
   ],
   "note": "All 2x26^3 call signs by arithmetic; the listed three-letter and linked-station codes by evaluating the whole tables."
  },
  {
   "property": "C44",
   "status": "proved",
   "theorems": [
    "Redsea.C44_tables_in_range",
    "Redsea.C44_decoder_tables_in_range"
   ],
   "note": "PTY, language, RT+ content type, DI, country, DAB mode and TMC gap lookups, for all values; totality of the decoder as a whole is C60."
  },
  {
   "property": "C45",
   "status": "partial",
   "theorems": [
    "Redsea.C45_clock_time_partial",
    "Redsea.C45_clock_time_violated",
    "Redsea.C45_invalid_iff",
    "Redsea.C45_missing_block",
    "Redsea.C45_float_margin"
   ],
   "note": "Correct for all groups with day numbers 15079..88128 (1 March 1900 to 1 March 2100), all times and offsets. Violated from 88129 on: 2100 is taken for a leap year. Assumes a process time zone without offset changes (mktime/localtime). Doubles are modelled by exact fractions; C45_float_margin shows that rounding cannot change the truncated values."
  },
  {
   "property": "C46",
   "status": "partial",
   "theorems": [
    "Redsea.C46_pin_partial",
    "Redsea.C46_pin_violated"
   ],
   "note": "Violated: hour 24 is accepted and printed as 24:mm. Everything else holds for all 65536 values."
  },
  {
   "property": "C47",
   "status": "proved",
   "theorems": [
    "Redsea.C47_latest_assignment",
    "Redsea.C47_routed",
    "Redsea.C47_application",
    "Redsea.C47_fixed_types"
   ],
   "note": "For every history of a station. The routing table is the latest assignment per group type; groups of the fixed types are not routed by it."
  },
  {
   "property": "C48",
   "status": "proved",
   "theorems": [
    "Redsea.C48_state_of_one_network",
    "Redsea.C48_networks_separate",
    "Redsea.C48_name",
    "Redsea.C48_name_complete",
    "Redsea.C48_frequencies"
   ],
   "note": "For every history; the printed name and frequency list of another network depend only on the groups about it."
  },
  {
   "property": "C49",
   "status": "partial",
   "theorems": [
    "Redsea.C49_station_partial",
    "Redsea.C49_channel_partial",
    "Redsea.C49_hex_input_type",
    "Redsea.C49_transparent_data_violated",
    "Redsea.C49_enhanced_radiotext_violated",
    "Redsea.C49_dab_violated",
    "Redsea.C49_tef_type_violated"
   ],
   "note": "All decoders, all groups, station and channel. Violated for transparent data, enhanced RadioText and DAB groups with a missing block 3 or 4, and for TEF6686 input with a damaged block 2; these are excluded by hypotheses."
  },
  {
   "property": "C50",
   "status": "proved",
   "theorems": [
    "Redsea.C50_decrypt",
    "Redsea.C50_injective",
    "Redsea.C50_printed",
    "Redsea.C50_no_key"
   ],
   "note": "Holds for every shift up to 24 (beyond that the C++ shift may overflow); decryption, injectivity, and the output of single-group messages with and without key."
  },
  {
   "property": "C51",
   "status": "partial",
   "theorems": [
    "Redsea.C51_fields_partial",
    "Redsea.C51_violated"
   ],
   "note": "Proved for all field lists in 2- and 5-group messages. Violated for 3- and 4-group messages: only the first 28 bits are read (witness); for those the theorem covers lists that fit in 28 bits. A separator in the very last 4 bits is excluded (it would be dropped)."
  },
  {
   "property": "C52",
   "status": "proved",
   "theorems": [
    "Redsea.C52_own_groups",
    "Redsea.C52_incomplete",
    "Redsea.C52_printed"
   ],
   "note": "Non-interference over all user group sequences: output depends only on own groups; nothing printed without first group; first event and location come from the latest first group."
  },
  {
   "property": "C53",
   "status": "proved",
   "theorems": [
    "Redsea.C53_single",
    "Redsea.C53_uninitialized",
    "Redsea.C53_before_encid",
    "Redsea.C53_history_uninitialized",
    "Redsea.C53_history_before_encid"
   ],
   "note": "Event code, location, directionality and signed extent for every single-group message; nothing printed before initialisation / before the encryption administration group, also over all histories."
  },
  {
   "property": "C54",
   "status": "proved",
   "theorems": [
    "Redsea.C54_unknown",
    "Redsea.C54_coordinates"
   ],
   "note": "For every location database incl. cyclic and dangling ones."
  },
  {
   "property": "C55",
   "status": "proved",
   "theorems": [
    "Redsea.C55_times"
   ],
   "note": "All 256 codes (finite table checked in the kernel) against an independent coding of times, with uniqueness."
  },
  {
   "property": "C56",
   "status": "partial",
   "theorems": [
    "Redsea.C56_access",
    "Redsea.C56_fields_partial",
    "Redsea.C56_carriage_return_violated",
    "Redsea.C56_titles"
   ],
   "note": "Fields are the split of the line at delimiters when no delimiter follows the line end; a carriage return before a delimiter is kept in the field (violated, witness). Lookup by title and index is exact."
  },
  {
   "property": "C57",
   "status": "partial",
   "theorems": [
    "Redsea.C57_accepted_partial",
    "Redsea.C57_processing_partial",
    "Redsea.C57_exit_code_partial",
    "Redsea.C57_rate_violated",
    "Redsea.C57_unknown_option_violated"
   ],
   "note": "Proved for every list of options: accepted combinations are consistent, the rate is in range unless it is NaN. Violated: NaN is accepted; an unknown option exits with success. getopt_long and strtof are parameters."
  },
  {
   "property": "C58",
   "status": "proved",
   "theorems": [
    "Redsea.C58_round_trip",
    "Redsea.C58_inversion",
    "Redsea.C58_one_error"
   ],
   "note": "For all bit lists."
  },
  {
   "property": "C59",
   "status": "proved",
   "theorems": [
    "Redsea.C59_index_in_range",
    "Redsea.C59_output",
    "Redsea.C59_sixty_four_bits"
   ],
   "note": "For all symbol lists and every arithmetic (floating point operations are parameters)."
  },
  {
   "property": "C60",
   "status": "proved",
   "theorems": [
    "Redsea.C60_never_fails"
   ],
   "note": "All call sequences; totality of the whole decoder from bits to JSON, including vector accesses and JSON type errors."
  },
  {
   "property": "C61",
   "status": "proved",
   "theorems": [
    "Redsea.C61_ideal_signal"
   ],
   "note": "For all bit lists of at least 65 bits, exact arithmetic."
  },
  {
   "property": "C62",
   "status": "partial",
   "theorems": [
    "Redsea.C62_common",
    "Redsea.C62_switching",
    "Redsea.C62_slow_labelling_partial",
    "Redsea.C62_programme_item",
    "Redsea.C62_broadcaster_bits_violated",
    "Redsea.C62_application",
    "Redsea.C62_transparent_data",
    "Redsea.C62_in_house",
    "Redsea.C62_other_network",
    "Redsea.C62_other_network_variants_partial",
    "Redsea.C62_mapped_am_violated",
    "Redsea.C62_dab",
    "Redsea.C62_radiotext_plus",
    "Redsea.C62_heard"
   ],
   "note": "All fields as listed, for all values. Slow labelling variant 6 prints 11 of 12 bits and 14A variant 9 prints a wrong frequency: both are proved as violations. Texts, alternative frequencies and traffic messages are other properties."
  },
  {
   "property": "C63",
   "status": "partial",
   "theorems": [
    "Redsea.C63_ps",
    "Redsea.C63_ps_complete",
    "Redsea.C63_programme_type_name",
    "Redsea.C63_programme_type_name_complete",
    "Redsea.C63_long_ps",
    "Redsea.C63_long_ps_complete",
    "Redsea.C63_radiotext_partial",
    "Redsea.C63_radiotext_complete",
    "Redsea.C63_enhanced_radiotext_partial",
    "Redsea.C63_enhanced_radiotext_complete_partial"
   ],
   "note": "Names in full. RadioText: for stations that change between 2A and 2B only together with the A/B flag (otherwise C27_alternating_versions_violated); that a text received in order is printed needs no such condition on the past. Enhanced RadioText: if block 3 was received in its groups and all announcements tell one encoding; texts of up to 64 bytes."
  },
  {
   "property": "C64",
   "status": "proved",
   "theorems": [
    "Redsea.C64_printed_lists_were_sent",
    "Redsea.C64_sent_lists_are_printed"
   ],
   "note": "All histories of a station. A method B list in which a pair is repeated is not printed (cf. C33)."
  },
  {
   "property": "C65",
   "status": "partial",
   "theorems": [
    "Redsea.C65_single_message",
    "Redsea.C65_message_content_partial",
    "Redsea.C75_message_groups_partial"
   ],
   "note": "Single-group messages in full; messages of several groups for the fields that getFreeformFields can read (C51: for 3 and 4 groups only the first 28 bits). Event list and keys are parameters."
  },
  {
   "property": "C66",
   "status": "partial",
   "theorems": [
    "Redsea.C66_five_bit",
    "Redsea.C66_eight_bit_partial",
    "Redsea.C66_time_violated",
    "Redsea.C66_description"
   ],
   "note": "Violated for times with code 0 and codes above 144, which have no value but are printed. All other codes of all types proved."
  },
  {
   "property": "C67",
   "status": "partial",
   "theorems": [
    "Redsea.C67_rows",
    "Redsea.C67_builtin_events",
    "Redsea.C67_builtin_supplementary",
    "Redsea.C67_quantifier_place_partial",
    "Redsea.C67_quantifier_lost_violated"
   ],
   "note": "Loading and completeness proved for all lists and for the built-in tables. Violated: 29 events take a quantifier but have no place for it in their text."
  },
  {
   "property": "C68",
   "status": "partial",
   "theorems": [
    "Redsea.C68_keys",
    "Redsea.C68_other_lines",
    "Redsea.C68_usable_partial",
    "Redsea.C68_shift_violated"
   ],
   "note": "Loading is proved for all tables. Applying the keys is defined for shifts of at most 24; the code does not check the shift, and larger ones are undefined (C68_shift_violated)."
  },
  {
   "property": "C69",
   "status": "partial",
   "theorems": [
    "Redsea.C69_locations",
    "Redsea.C69_road_name_partial",
    "Redsea.C69_number",
    "Redsea.C69_encoding",
    "Redsea.C69_road_name_violated",
    "Redsea.C69_one_offset_violated"
   ],
   "note": "Everything but two cases: the name of the road of a point that has its road from its segment, and neighbours where only one is given. The code is wrong there (C69_road_name_violated, C69_one_offset_violated)."
  },
  {
   "property": "C70",
   "status": "proved",
   "theorems": [
    "Redsea.C70_every_group_printed",
    "Redsea.C70_ps_printed",
    "Redsea.C70_radiotext_printed",
    "Redsea.C70_hex_lines"
   ],
   "note": "For receptions that begin at a group boundary of a synchronised channel, with correctable errors only. The line of a group that may belong to an open data application can be an error report (see C71). RadioText is covered while groups with fixed functions are sent."
  },
  {
   "property": "C71",
   "status": "partial",
   "theorems": [
    "Redsea.C71_utf8_check",
    "Redsea.C71_valid_output_partial",
    "Redsea.C71_radiotext_plus_violated",
    "Redsea.C71_long_ps_violated",
    "Redsea.C71_builtin_tables"
   ],
   "note": "Proved for all groups other than long PS (15A), RadioText Plus, enhanced RadioText and enhanced RadioText Plus. Violated by RadioText Plus tags next to characters that are not ASCII and by long PS."
  },
  {
   "property": "C72",
   "status": "partial",
   "theorems": [
    "Redsea.C72_bits_of_samples_partial",
    "Redsea.C72_any_chunks_partial",
    "Redsea.C72_ideal_symbols_partial",
    "Redsea.C72_counter_violated",
    "Redsea.C72_rates_partial",
    "Redsea.C72_rates_violated"
   ],
   "note": "Up to 2^32 samples; beyond, and for sample rates above 34.2 MHz, the negation is proved. liquid-dsp objects are arbitrary state machines; the resampler is assumed to keep its rate."
  },
  {
   "property": "C73",
   "status": "proved",
   "theorems": [
    "Redsea.C73_channel_stories",
    "Redsea.C73_separate",
    "Redsea.C73_reception",
    "Redsea.C73_ideal_symbols"
   ],
   "note": "The connection of bits with samples holds for the first 2^32 samples (see C72). Which samples belong to a channel is C42."
  },
  {
   "property": "C74",
   "status": "partial",
   "theorems": [
    "Redsea.C74_pipe_partial",
    "Redsea.C74_ascii_bits_partial",
    "Redsea.C74_all_blocks",
    "Redsea.C74_program_partial",
    "Redsea.C74_version_violated",
    "Redsea.C74_second_pi_violated",
    "Redsea.C74_empty_group_violated",
    "Redsea.C74_empty_data_violated"
   ],
   "note": "Proved for all inputs in which what hexadecimal lines do not tell does not matter (Pipeable), for the reading loops and for three whole program runs (C74_program_partial); for each of the four conditions of Pipeable the negation is proved with concrete bits."
  },
  {
   "property": "C75",
   "status": "proved",
   "theorems": [
    "Redsea.C75_known",
    "Redsea.C75_service",
    "Redsea.C75_no_member",
    "Redsea.C75_printed",
    "Redsea.C75_location_table",
    "Redsea.C75_service_id",
    "Redsea.C75_country",
    "Redsea.C75_before_service",
    "Redsea.C75_encryption",
    "Redsea.C75_no_encryption_id",
    "Redsea.C75_single_message"
   ],
   "note": "The TMC receiver inside of a station; messages of several groups: see C65."
  },
  {
   "property": "C76",
   "status": "partial",
   "theorems": [
    "Redsea.C76_provider",
    "Redsea.C76_provider_complete",
    "Redsea.C76_network",
    "Redsea.C76_frequency_partial",
    "Redsea.C76_frequencies_violated",
    "Redsea.C76_codes_partial",
    "Redsea.C76_codes_violated",
    "Redsea.C76_other_service"
   ],
   "note": "Violated by the code: frequencies without a number before them are never printed; a PI code in the second place only is lost. The rest is proved."
  },
  {
   "property": "C77",
   "status": "proved",
   "theorems": [
    "Redsea.C77_event",
    "Redsea.C77_files_and_channels",
    "Redsea.C77_transfer",
    "Redsea.C77_segment",
    "Redsea.C77_file_sound",
    "Redsea.C77_file_received",
    "Redsea.C77_channel_data",
    "Redsea.C77_assignment",
    "Redsea.C77_assignment_data",
    "Redsea.C77_file_info",
    "Redsea.C77_file_crc",
    "Redsea.C77_chunk_crc",
    "Redsea.C77_variant_data"
   ],
   "note": "Type C groups at the level of the station, with arbitrary other groups in between. Checksum mode 6 is not defined and not covered by C77_chunk_crc."
  },
  {
   "property": "C78",
   "status": "proved",
   "theorems": [
    "Redsea.C78_stream",
    "Redsea.C78_time",
    "Redsea.C78_bler",
    "Redsea.C78_channel",
    "Redsea.C78_raw_data",
    "Redsea.C78_pi",
    "Redsea.C78_group_C",
    "Redsea.C78_unknown_application",
    "Redsea.C78_unannounced"
   ],
   "note": "The formatting of the time of reception is a parameter of the model. The value of the error rate is C21, the callsign for a PI code is C43."
  },
  {
   "property": "C79",
   "status": "proved",
   "theorems": [
    "Redsea.C79_mpx",
    "Redsea.C79_bits",
    "Redsea.C79_hex",
    "Redsea.C79_tef"
   ],
   "note": "The conversion between bytes and samples by libsndfile is not modelled."
  },
  {
   "property": "C80",
   "status": "proved",
   "theorems": [
    "Redsea.C80_session",
    "Redsea.C80_never_fails"
   ],
   "note": "The error flags are those that the code uses; see C40 for how they differ from the flags of the tuner."
  },
  {
   "property": "C81",
   "status": "partial",
   "theorems": [
    "Redsea.C81_time_partial",
    "Redsea.C81_length_violated",
    "Redsea.C81_second_fraction_violated",
    "Redsea.C81_percent_violated",
    "Redsea.C81_before_1970_violated",
    "Redsea.C81_printed"
   ],
   "note": "Violated by a second %f, by %%f, by texts that are empty or longer than 63 bytes, and by times before 1970. Everything else is proved."
  },
  {
   "property": "C82",
   "status": "partial",
   "theorems": [
    "Redsea.C82_country_partial",
    "Redsea.C82_nigeria_violated",
    "Redsea.C82_printed_partial"
   ],
   "note": "Violated for extended country code D1 with digit F, which is printed as Bulgaria. All other 4095 cases are proved."
  },
  {
   "property": "C83",
   "status": "partial",
   "theorems": [
    "Redsea.C83_text_input_partial",
    "Redsea.C83_encoding_violated",
    "Redsea.C83_bits_reception",
    "Redsea.C83_bits_ps",
    "Redsea.C83_hex_output_violated",
    "Redsea.C83_sound_partial",
    "Redsea.C83_rate_violated"
   ],
   "note": "Violated by unknown encodings of location tables, by sample rates above 34.2 MHz, and by the JSON line about location tables in hexadecimal output. With these excluded, everything else in the statement is proved."
  },
  {
   "property": "C84",
   "status": "proved",
   "theorems": [
    "Redsea.C84_listed_event",
    "Redsea.C84_unlisted_event",
    "Redsea.C84_place",
    "Redsea.C84_no_table"
   ],
   "note": "Messages of one group. Those of several groups: C75 and C65 with any event list and any location table."
  },
  {
   "property": "C85",
   "status": "proved",
   "theorems": [
    "Redsea.C85_line",
    "Redsea.C85_program"
   ],
   "note": "For all inputs. The text of a floating point number is a parameter (any text that is a number with a fraction or an exponent); the library's way of writing is modelled from its documentation."
  },
  {
   "property": "C86",
   "status": "partial",
   "theorems": [
    "Redsea.C86_line",
    "Redsea.C86_counts",
    "Redsea.C86_names_partial",
    "Redsea.C86_names_violated"
   ],
   "note": "Proved for the number, points and roads, and for names if every point that has its road from a segment has a known road name of its own. Violated otherwise: each other number is counted as one more name."
  },
  {
   "property": "C87",
   "status": "proved",
   "theorems": [
    "Redsea.C87_lines",
    "Redsea.C87_every_text",
    "Redsea.C87_table",
    "Redsea.C87_number",
    "Redsea.C87_keys",
    "Redsea.C87_missing"
   ],
   "note": "For all texts and directories. That the content of a file does not change while the program runs is assumed."
  },
  {
   "property": "C88",
   "status": "proved",
   "theorems": [
    "Redsea.C88_effects",
    "Redsea.C88_accepted",
    "Redsea.C88_channels",
    "Redsea.C88_early_exit"
   ],
   "note": "For options known to getopt_long; an unknown one is reported by getopt_long as '?' and treated like --help (see C57_unknown_option_violated). The values of strtof and of float products are arbitrary."
  },
  {
   "property": "C89",
   "status": "partial",
   "theorems": [
    "Redsea.C89_same_lines",
    "Redsea.C89_equal_lines",
    "Redsea.C89_no_partial_data",
    "Redsea.C89_program",
    "Redsea.C89_partial_data_partial",
    "Redsea.C89_partial_data_violated",
    "Redsea.C89_sound"
   ],
   "note": "Proved for every option except -p. With -p a line with half a multi-byte letter in partial_long_ps is replaced by an error report (C89_partial_data_violated); apart from such reports -p only adds members (C89_partial_data_partial). C89_program is for text input, C89_sound for sound with the same number of streams."
  },
  {
   "property": "C90",
   "status": "proved",
   "theorems": [
    "Redsea.C90_line",
    "Redsea.C90_program",
    "Redsea.C90_members",
    "Redsea.C90_report"
   ],
   "note": "The schema (Spec/Schema) is our own, from the documentation of the output and the code; the program has none. Texts inside are not restricted further except for fixed choices and hexadecimal codes. Reports of exceptions do not conform: debug is a text there and an array elsewhere."
  },
  {
   "property": "C91",
   "status": "proved",
   "theorems": [
    "Redsea.C91_ratio",
    "Redsea.C91_from_start",
    "Redsea.C91_range",
    "Redsea.C91_first",
    "Redsea.C91_no_new_start"
   ],
   "note": "Exact arithmetic (rational numbers), not single precision floating point; the oscillator of liquid-dsp shows in the phases it reports. C91_no_new_start records that a reset is not a new start for streams 1 to 3."
  },
  {
   "property": "C92",
   "status": "partial",
   "theorems": [
    "Redsea.C92_taken_iff",
    "Redsea.takenAs_stored",
    "Redsea.C92_one_or_two_bits",
    "Redsea.C92_burst_partial",
    "Redsea.C92_burst11",
    "Redsea.C92_third_block_violated",
    "Redsea.C92_third_block",
    "Redsea.C92_noise_clean",
    "Redsea.C92_noise_corrected",
    "Redsea.C92_noise_pulses"
   ],
   "note": "Proved for all blocks, except that bursts in the third block are not all detected: offset C' is accepted where C is expected (C92_third_block_violated)."
  },
  {
   "property": "C93",
   "status": "proved",
   "theorems": [
    "Redsea.C93_filter",
    "Redsea.C93_independent",
    "Redsea.C93_pi_needed"
   ],
   "note": "For groups whose PI code was received or that are of version C; C93_pi_needed shows that the condition is needed."
  },
  {
   "property": "C94",
   "status": "partial",
   "theorems": [
    "Redsea.C94_recovers_partial",
    "Redsea.C94_false_lock_violated"
   ],
   "note": "Holds for transmissions whose first 19 groups are unmistakable (conditions on accidental codewords); without them the code violates it: a repeated group whose shifted bits form another valid group is received as that group for ever."
  },
  {
   "property": "C95",
   "status": "proved",
   "theorems": [
    "Redsea.C95_bounded",
    "Redsea.C95_each_bounded"
   ],
   "note": "Counted in elements of all strings, vectors and maps of a station; iconv is assumed to give at most three bytes for each byte."
  },
  {
   "property": "C96",
   "status": "proved",
   "theorems": [
    "Redsea.C96_text",
    "Redsea.C96_whole_lines",
    "Redsea.C96_sound"
   ],
   "note": "Program level. Text inputs cut anywhere, hexadecimal input cut after a newline, sound cut after whole chunks."
  },
  {
   "property": "C97",
   "status": "proved",
   "theorems": [
    "Redsea.C97_no_times",
    "Redsea.C97_only_times",
    "Redsea.C97_program"
   ],
   "note": "Without -t the result of the program is equal on machines with different clocks, delays and strftime, for all kinds of input. With -t and JSON output, only rx_time differs."
  },
  {
   "property": "C98",
   "status": "proved",
   "theorems": [
    "Redsea.C98_lines",
    "Redsea.C98_program"
   ],
   "note": "All command lines, with -u at any place. Assumes usable keys for encrypted TMC services, and that opening a recording does not depend on -u."
  },
  {
   "property": "C99",
   "status": "proved",
   "theorems": [
    "Redsea.C99_calls",
    "Redsea.C99_program",
    "Redsea.C99_identical"
   ],
   "note": "Two runs with -x on arbitrary machines that share the input; lines equal up to the time at the end; identical output without -t and -l."
  }
 ]
}
