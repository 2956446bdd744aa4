{
 "claims": [
  {
   "property": "C01",
   "status": "proved",
   "theorems": [
    "Dash7.C01_command_roundtrip"
   ],
   "note": "Well-formed: see Spec/WF.lean. Status of an unknown interface, TX status and token search without mask are excluded there; C24, C41 and C27 show they do not round trip."
  },
  {
   "property": "C02",
   "status": "proved",
   "theorems": [
    "Dash7.C02_action_roundtrip"
   ],
   "note": "Same well-formedness as C01."
  },
  {
   "property": "C03",
   "status": "partial",
   "theorems": [
    "Dash7.C03_reencodes",
    "Dash7.C03_decode_encode_decode_partial",
    "Dash7.C03_longer",
    "Dash7.C03_other_status_violates",
    "Dash7.C03_tx_status_violates"
   ],
   "note": "Re-encoding always succeeds (C03_reencodes); decode after encode is the identity unless the command holds a TX status or the status of an unknown interface (both proved to fail). \"Never longer\" is false: C03_longer."
  },
  {
   "property": "C04",
   "status": "proved",
   "theorems": [
    "Dash7.C04_command_total",
    "Dash7.C04_action_total",
    "Dash7.C04_reader_total"
   ],
   "note": ""
  },
  {
   "property": "C05",
   "status": "proved",
   "theorems": [
    "Dash7.C05_decode_behind",
    "Dash7.C05_try_from_both",
    "Dash7.C05_try_from_rest",
    "Dash7.C05_try_from_rest_needed",
    "Dash7.C05_encode_concat",
    "Dash7.C05_decode_concat",
    "Dash7.C05_indirect_needed"
   ],
   "note": ""
  },
  {
   "property": "C06",
   "status": "proved",
   "theorems": [
    "Dash7.C06_truncation"
   ],
   "note": ""
  },
  {
   "property": "C07",
   "status": "proved",
   "theorems": [
    "Dash7.C07_suffix_insensitive"
   ],
   "note": ""
  },
  {
   "property": "C08",
   "status": "proved",
   "theorems": [
    "Dash7.C08_wire_format",
    "Dash7.C08_minimal"
   ],
   "note": ""
  },
  {
   "property": "C09",
   "status": "proved",
   "theorems": [
    "Dash7.C09_decode",
    "Dash7.C09_below",
    "Dash7.C09_non_minimal",
    "Dash7.C09_inverts"
   ],
   "note": ""
  },
  {
   "property": "C10",
   "status": "partial",
   "theorems": [
    "Dash7.C10_rounds_down_partial",
    "Dash7.C10_rounds_down_violates"
   ],
   "note": "Below, within one unit and representable: proved. Largest such number: false in the gaps between exponents (C10_rounds_down_violates); the partial theorem says exactly where it holds."
  },
  {
   "property": "C11",
   "status": "proved",
   "theorems": [
    "Dash7.C11_rounds_up"
   ],
   "note": ""
  },
  {
   "property": "C12",
   "status": "proved",
   "theorems": [
    "Dash7.C12_range",
    "Dash7.C12_errors",
    "Dash7.C12_max"
   ],
   "note": ""
  },
  {
   "property": "C13",
   "status": "partial",
   "theorems": [
    "Dash7.C13_decodes",
    "Dash7.C13_reencode",
    "Dash7.C13_decompress_partial",
    "Dash7.C13_error_violates"
   ],
   "note": "Missing: a mantissa out of range is reported as an exponent (C13_error_violates)."
  },
  {
   "property": "C14",
   "status": "proved",
   "theorems": [
    "Dash7.C14_kind",
    "Dash7.C14_unknown_opcode",
    "Dash7.C14_top_bits"
   ],
   "note": ""
  },
  {
   "property": "C15",
   "status": "partial",
   "theorems": [
    "Dash7.C15_opcode_on_wire_partial",
    "Dash7.C15_field_ignored",
    "Dash7.C15_tx_status_violates"
   ],
   "note": "All actions but the wizzilab TX status, whose first byte holds opcode 0 (C15_tx_status_violates)."
  },
  {
   "property": "C16",
   "status": "proved",
   "theorems": [
    "Dash7.C16_nothing_follows",
    "Dash7.C16_stops",
    "Dash7.C16_behind"
   ],
   "note": ""
  },
  {
   "property": "C17",
   "status": "proved",
   "theorems": [
    "Dash7.C17_interface_status",
    "Dash7.C17_request_tag",
    "Dash7.C17_response_tag",
    "Dash7.C17_ids",
    "Dash7.C17_without_interface_status"
   ],
   "note": ""
  },
  {
   "property": "C18",
   "status": "partial",
   "theorems": [
    "Dash7.C18_junk_byte_accepted",
    "Dash7.C18_trailing_partial"
   ],
   "note": "False by one byte: one trailing byte is accepted (C18_junk_byte_accepted); two or more are refused."
  },
  {
   "property": "C19",
   "status": "partial",
   "theorems": [
    "Dash7.C19_junk_swallowed",
    "Dash7.C19_rest_partial",
    "Dash7.C19_rest_empty"
   ],
   "note": "False: up to two bytes behind an indirect forward are lost (C19_junk_swallowed); the partial theorem gives the exact rest."
  },
  {
   "property": "C20",
   "status": "partial",
   "theorems": [
    "Dash7.C20_length_operand_partial",
    "Dash7.C20_length_decodes_partial",
    "Dash7.C20_huge_violates"
   ],
   "note": "Payloads below 2^32 bytes; at 2^32 bytes the operand wraps to 0 (C20_huge_violates)."
  },
  {
   "property": "C21",
   "status": "proved",
   "theorems": [
    "Dash7.C21_size",
    "Dash7.C21_roundtrip",
    "Dash7.C21_types"
   ],
   "note": "Size for every content; round trip for representable contents (scan periods compressible, strings of 6 and 7 bytes, count right), which C10, C29 and C30 delimit."
  },
  {
   "property": "C22",
   "status": "partial",
   "theorems": [
    "Dash7.C22_consumed",
    "Dash7.C22_plain_partial",
    "Dash7.C22_structured_violates"
   ],
   "note": "False for the structured system files, which ignore the declared length (C22_structured_violates); C22_consumed gives the exact number of bytes in all cases."
  },
  {
   "property": "C23",
   "status": "partial",
   "theorems": [
    "Dash7.C23_named_partial",
    "Dash7.C23_violates",
    "Dash7.C23_back"
   ],
   "note": "False: converting back panics for every id without a name (C23_violates)."
  },
  {
   "property": "C24",
   "status": "partial",
   "theorems": [
    "Dash7.C24_exact",
    "Dash7.C24_known_partial",
    "Dash7.C24_unknown_id_violates",
    "Dash7.C24_unknown_partial",
    "Dash7.C24_unknown_violates"
   ],
   "note": "Exact description of the values that come back (C24_exact). Unknown interfaces have no id on the wire (C24_unknown_id_violates) and mostly do not come back (C24_unknown_violates, C24_unknown_partial)."
  },
  {
   "property": "C25",
   "status": "partial",
   "theorems": [
    "Dash7.C25_consumed",
    "Dash7.C25_unknown_partial",
    "Dash7.C25_host_violates",
    "Dash7.C25_dash7_violates"
   ],
   "note": "Host, serial and DASH7 status ignore the declared length (C25_host_violates, C25_dash7_violates); C25_consumed gives the exact number of bytes in all cases."
  },
  {
   "property": "C26",
   "status": "proved",
   "theorems": [
    "Dash7.C26_size",
    "Dash7.C26_new",
    "Dash7.C26_update"
   ],
   "note": ""
  },
  {
   "property": "C27",
   "status": "partial",
   "theorems": [
    "Dash7.C27_non_void",
    "Dash7.C27_with_zero",
    "Dash7.C27_with_other_file",
    "Dash7.C27_bitmap_range",
    "Dash7.C27_with_value_partial",
    "Dash7.C27_token_search_partial",
    "Dash7.C27_token_search_violates",
    "Dash7.C27_with_value_violates"
   ],
   "note": "Exact for each constructor. False for token searches without mask and for value comparisons with a mask of another length (C27_token_search_violates, C27_with_value_violates)."
  },
  {
   "property": "C28",
   "status": "partial",
   "theorems": [
    "Dash7.C28_as_new",
    "Dash7.C28_agree",
    "Dash7.C28_idempotent",
    "Dash7.C28_decoded_zero_partial",
    "Dash7.C28_decoded_value_partial",
    "Dash7.C28_decoded_other_partial",
    "Dash7.C28_decoded_bitmap_partial",
    "Dash7.C28_decoded_token_partial",
    "Dash7.C28_decoded",
    "Dash7.C28_zero_violates",
    "Dash7.C28_bitmap_violates",
    "Dash7.C28_stale_length_violates",
    "Dash7.C28_action_violates"
   ],
   "note": "Consistency and idempotence hold; the encoding of a decoded query may change (C28_zero_violates, C28_bitmap_violates), and the length of two query types goes stale (C28_stale_length_violates). update of an Action does nothing at all (C28_action_violates). Exact condition per type."
  },
  {
   "property": "C29",
   "status": "partial",
   "theorems": [
    "Dash7.C29_layout",
    "Dash7.C29_read_back",
    "Dash7.C29_exact",
    "Dash7.C29_short",
    "Dash7.C29_long_partial",
    "Dash7.C29_split_violates"
   ],
   "note": "Cutting inside a character makes the file unreadable (C29_split_violates); C29_read_back is exact for all strings."
  },
  {
   "property": "C30",
   "status": "partial",
   "theorems": [
    "Dash7.C30_new_partial",
    "Dash7.C30_encodes",
    "Dash7.C30_count_partial",
    "Dash7.C30_violates",
    "Dash7.C30_update"
   ],
   "note": "False from 256 channels on (C30_violates)."
  },
  {
   "property": "C31",
   "status": "proved",
   "theorems": [
    "Dash7.C31_restores",
    "Dash7.C31_layout",
    "Dash7.C31_accepts",
    "Dash7.C31_roundtrip"
   ],
   "note": ""
  },
  {
   "property": "C32",
   "status": "partial",
   "theorems": [
    "Dash7.C32_host_independent_partial",
    "Dash7.C32_security_key_violates",
    "Dash7.C32_abp_violates",
    "Dash7.C32_tx_violates"
   ],
   "note": "All commands without a security key file, a LoRaWAN ABP configuration or a DASH7 TX status; these are written in host order (C32_security_key_violates, C32_abp_violates, C32_tx_violates). C76 says exactly how."
  },
  {
   "property": "C33",
   "status": "partial",
   "theorems": [
    "Dash7.C33_partial",
    "Dash7.C33_length_violates",
    "Dash7.C33_header_partial",
    "Dash7.C33_violates"
   ],
   "note": "Exact set of frames that come back (C33_partial): the transport header has 8k+7 bits, so every command is read one bit late. Only one-action commands of one shape survive; the header always does."
  },
  {
   "property": "C34",
   "status": "partial",
   "theorems": [
    "Dash7.C34_partial",
    "Dash7.C34_empty_partial",
    "Dash7.C34_nonempty_violates",
    "Dash7.C34_wizzilab_violates",
    "Dash7.C34_wizzilab_partial",
    "Dash7.C34_length_partial",
    "Dash7.C34_wizzilab_single_violates"
   ],
   "note": "Outside wizzilab builds the frame is decoded to itself, but each action makes the derived functions count bytes that are not there: exact rest, refusals and panics in C34_partial; the full claim holds for empty commands only (C34_nonempty_violates). C34_length_partial: for any length field, exactly the frames without actions whose length ends them in time are accepted. Wizzilab builds: C34_wizzilab_partial gives the exact set of frames that come back (a single action, a condition on two bits and on the length; C34_wizzilab_violates, C34_wizzilab_single_violates)."
  },
  {
   "property": "C35",
   "status": "partial",
   "theorems": [
    "Dash7.C35_is_err_partial",
    "Dash7.C35_unknown_error_violates"
   ],
   "note": "False for UNKNOWN_ERROR, 0x80 (C35_unknown_error_violates)."
  },
  {
   "property": "C36",
   "status": "partial",
   "theorems": [
    "Dash7.C36_no_panic_partial",
    "Dash7.C36_rest_suffix",
    "Dash7.C36_byte_offset_partial",
    "Dash7.C36_panics",
    "Dash7.C36_sub_byte_offset_violates",
    "Dash7.C36_panics_exactly",
    "Dash7.C36_no_other_panic"
   ],
   "note": "No panic up to offset 8 and correct decoding at whole-byte offsets; panics at larger offsets (C36_panics; exactly when: C36_panics_exactly, and nothing else goes wrong: C36_no_other_panic) and decodes something else at sub-byte offsets (C36_sub_byte_offset_violates)."
  },
  {
   "property": "C37",
   "status": "partial",
   "theorems": [
    "Dash7.C37_success",
    "Dash7.C37_agrees",
    "Dash7.C37_drops_partial",
    "Dash7.C37_first_partial",
    "Dash7.C37_violates",
    "Dash7.C37_outside_violates"
   ],
   "note": "False unless the first element fails: the guard's pointer moves with every element, so slots i..2i-1 are dropped instead of 0..i-1 (C37_drops_partial, C37_violates), from the second half on outside the array (C37_outside_violates)."
  },
  {
   "property": "C38",
   "status": "proved",
   "theorems": [
    "Dash7.C38_accepts",
    "Dash7.C38_refuses",
    "Dash7.C38_refuses_characters",
    "Dash7.C38_refuses_odd",
    "Dash7.C38_every_byte_string"
   ],
   "note": ""
  },
  {
   "property": "C39",
   "status": "partial",
   "theorems": [
    "Dash7.C39_foreground",
    "Dash7.C39_background",
    "Dash7.C39_command",
    "Dash7.C39_files_partial",
    "Dash7.C39_never_fails_violates",
    "Dash7.C39_system_files_violates"
   ],
   "note": "Order and first success: proved. No input is ever reported as unparseable (C39_never_fails_violates), and files are read with length 0, so that only UID and empty files are ever recognised (C39_system_files_violates)."
  },
  {
   "property": "C40",
   "status": "partial",
   "theorems": [
    "Dash7.C40_channel_header",
    "Dash7.C40_file_header",
    "Dash7.C40_dll_config",
    "Dash7.C40_addressee",
    "Dash7.C40_interface_status",
    "Dash7.C40_interface_tx_status",
    "Dash7.C40_lorawan",
    "Dash7.C40_hopping_control",
    "Dash7.C40_network_control",
    "Dash7.C40_non_void",
    "Dash7.C40_string_token_search",
    "Dash7.C40_forward_partial",
    "Dash7.C40_request_tag_partial",
    "Dash7.C40_file_properties_partial",
    "Dash7.C40_query_non_void_partial",
    "Dash7.C40_query_token_search_partial",
    "Dash7.C40_tx_status_violates",
    "Dash7.C40_channel_header_zero",
    "Dash7.C40_dll_config_zero",
    "Dash7.C40_file_header_zero",
    "Dash7.C40_addressee_zero",
    "Dash7.C40_interface_status_zero",
    "Dash7.C40_interface_tx_status_zero",
    "Dash7.C40_lorawan_zero",
    "Dash7.C40_hopping_control_zero",
    "Dash7.C40_network_control_zero",
    "Dash7.C40_query_zero",
    "Dash7.C40_forward_zero",
    "Dash7.C40_request_tag_zero"
   ],
   "note": "Holds for every type with padding; fails within actions for the TX status, whose padding bits are read as the opcode (C40_tx_status_violates)."
  },
  {
   "property": "C41",
   "status": "partial",
   "theorems": [
    "Dash7.C41_action_violates",
    "Dash7.C41_command_violates",
    "Dash7.C41_last_violates",
    "Dash7.C41_operation_partial",
    "Dash7.C41_first_byte_violates"
   ],
   "note": "Violated by every TX status: its first byte is 0x40, the opcode of a nop, so it is refused by itself and in any command (C41_action_violates, C41_command_violates); no byte string at all is read as a command ending in one (C41_last_violates). What holds: the operation by itself is read back from the bits it writes (C41_operation_partial)."
  },
  {
   "property": "C42",
   "status": "proved",
   "theorems": [
    "Dash7.C42_same_bytes",
    "Dash7.C42_decodes",
    "Dash7.C42_execution_delay"
   ],
   "note": ""
  },
  {
   "property": "C43",
   "status": "proved",
   "theorems": [
    "Dash7.C43_size_bounded"
   ],
   "note": ""
  },
  {
   "property": "C44",
   "status": "proved",
   "theorems": [
    "Dash7.C44_command_unambiguous",
    "Dash7.C44_action_prefix_free"
   ],
   "note": ""
  },
  {
   "property": "C45",
   "status": "proved",
   "theorems": [
    "Dash7.C45_text",
    "Dash7.C45_unambiguous"
   ],
   "note": ""
  },
  {
   "property": "C46",
   "status": "proved",
   "theorems": [
    "Dash7.C46_layout",
    "Dash7.C46_roundtrip"
   ],
   "note": ""
  },
  {
   "property": "C47",
   "status": "proved",
   "theorems": [
    "Dash7.C47_forward",
    "Dash7.C47_indirect",
    "Dash7.C47_update",
    "Dash7.C47_decoded"
   ],
   "note": ""
  },
  {
   "property": "C48",
   "status": "proved",
   "theorems": [
    "Dash7.C48_access_class",
    "Dash7.C48_channel_index",
    "Dash7.C48_tag_id",
    "Dash7.C48_eirp_index",
    "Dash7.C48_frames",
    "Dash7.C48_max_errors",
    "Dash7.C48_opcode",
    "Dash7.C48_opcode_operands"
   ],
   "note": ""
  },
  {
   "property": "C49",
   "status": "partial",
   "theorems": [
    "Dash7.C49_byte_aligned_partial",
    "Dash7.C49_tx_status_violates"
   ],
   "note": "All actions but the wizzilab TX status (C49_tx_status_violates)."
  },
  {
   "property": "C50",
   "status": "proved",
   "theorems": [
    "Dash7.C50_transport_only",
    "Dash7.C50_network_only",
    "Dash7.C50_foreground_only",
    "Dash7.C50_bad_action_spoils_command",
    "Dash7.C50_refuses",
    "Dash7.C50_from_reader",
    "Dash7.C50_spoils",
    "Dash7.C50_try_from_only",
    "Dash7.C50_frames"
   ],
   "note": "C50_from_reader and C50_spoils speak of every byte string and bit offset, also behind a TX status (C41) and off the byte grid: the exact condition for an error of Command::from_reader, and its error. C50_try_from_only adds that try_from has no other error than Parse for bytes behind the command. C50_frames carries it to frames, and C50_transport_only, C50_network_only and C50_foreground_only say for what else from_bytes of a frame fails: no header, no CRC, the offset, or the panic of C53."
  },
  {
   "property": "C51",
   "status": "proved",
   "theorems": [
    "Dash7.C51_action_layout",
    "Dash7.C51_command_layout",
    "Dash7.C51_tx_layout"
   ],
   "note": "Spec/Layout.lean is the byte-level format, written independently of the writers."
  },
  {
   "property": "C52",
   "status": "partial",
   "theorems": [
    "Dash7.C52_partial",
    "Dash7.C52_violates"
   ],
   "note": "Exact set of frames that come back (C52_partial); C52_violates shows one that does not, in every build."
  },
  {
   "property": "C53",
   "status": "partial",
   "theorems": [
    "Dash7.C53_partial",
    "Dash7.C53_violates",
    "Dash7.C53_panics_exactly",
    "Dash7.C53_from_bytes_partial",
    "Dash7.C53_network_violates",
    "Dash7.C53_transport_violates"
   ],
   "note": "try_from: proved for all frames. from_bytes panics on ordinary foreground, network and transport frames (C53_violates, C53_network_violates, C53_transport_violates); C53_panics_exactly says exactly when, at every bit offset, and C53_from_bytes_partial that it returns otherwise."
  },
  {
   "property": "C54",
   "status": "proved",
   "theorems": [
    "Dash7.C54_from_bytes",
    "Dash7.C54_try_from",
    "Dash7.C54_unambiguous"
   ],
   "note": "Spec/Accept.lean is the grammar, written without the readers. It describes what this code takes: e.g. structured files ignore the declared length (C22), and a TX status has its opcode in the first byte (C41)."
  },
  {
   "property": "C55",
   "status": "partial",
   "theorems": [
    "Dash7.C55_from_bytes_partial",
    "Dash7.C55_try_from_partial",
    "Dash7.C55_try_from_no_tx",
    "Dash7.C55_tx_status_violates"
   ],
   "note": "Complete outside wizzilab builds (C55_try_from_no_tx). False as stated for commands holding a TX status (C55_tx_status_violates), behind which the reader is not at a byte boundary; what is accepted there is C58."
  },
  {
   "property": "C56",
   "status": "proved",
   "theorems": [
    "Dash7.C56_transport",
    "Dash7.C56_network",
    "Dash7.C56_foreground",
    "Dash7.C56_command"
   ],
   "note": "Spec/FrameLayout.lean gives the rows of bit fields; the writers make exactly these bits."
  },
  {
   "property": "C57",
   "status": "partial",
   "theorems": [
    "Dash7.C57_transport_partial",
    "Dash7.C57_network_headers",
    "Dash7.C57_foreground_headers",
    "Dash7.C57_background",
    "Dash7.C57_network_accepts",
    "Dash7.C57_foreground_accepts",
    "Dash7.C57_foreground_from_bytes",
    "Dash7.C57_transport_violates"
   ],
   "note": "Background frames: exact. Outside wizzilab builds network and foreground frames: exact, including how many bytes behind the frame must be there because the reader counts them as its own (C57_network_accepts, C57_foreground_accepts, C57_foreground_from_bytes). False as stated for transport frames (C57_transport_violates), whose commands, as those of wizzilab network and foreground frames, are not read at a byte boundary: there the headers only, and the exact description C58."
  },
  {
   "property": "C58",
   "status": "proved",
   "theorems": [
    "Dash7.C58_action",
    "Dash7.C58_action_reader",
    "Dash7.C58_command",
    "Dash7.C58_command_reader",
    "Dash7.C58_command_try",
    "Dash7.C58_transport",
    "Dash7.C58_transport_from_bytes",
    "Dash7.C58_network",
    "Dash7.C58_network_from_bytes",
    "Dash7.C58_foreground",
    "Dash7.C58_foreground_from_bytes"
   ],
   "note": "Exact for every build, offset and command: Spec/Offset.lean describes reading on the string of bits left. It closes what C55 and C57 leave open; there the plain grammar does not hold."
  },
  {
   "property": "C59",
   "status": "proved",
   "theorems": [
    "Dash7.C59_try_from",
    "Dash7.C59_from_bytes",
    "Dash7.C59_width",
    "Dash7.C59_part_of_a_byte",
    "Dash7.C59_unambiguous"
   ],
   "note": "Exact for 83 types, every build and bit offset. Left out: types that are only part of another one (listed in DESIGN.md section 2)."
  },
  {
   "property": "C60",
   "status": "partial",
   "theorems": [
    "Dash7.C60_from_bytes_partial",
    "Dash7.C60_try_from_partial",
    "Dash7.C60_part_of_a_byte_violates",
    "Dash7.C60_unknown_interface_violates"
   ],
   "note": "False as stated for types ending within a byte, which their own try_from never takes (C60_part_of_a_byte_violates), and for the status of an unknown interface (C60_unknown_interface_violates). For all other values: exact (C60_try_from_partial); from_bytes reads back every value of every type, unknown interface aside (C60_from_bytes_partial)."
  },
  {
   "property": "C61",
   "status": "proved",
   "theorems": [
    "Dash7.C61_action",
    "Dash7.C61_command"
   ],
   "note": "Both directions, for actions and commands, in every build."
  },
  {
   "property": "C62",
   "status": "partial",
   "theorems": [
    "Dash7.C62_default_partial",
    "Dash7.C62_try_from_partial",
    "Dash7.C62_lorawan_violates",
    "Dash7.C62_action_violates",
    "Dash7.C62_opcode_partial",
    "Dash7.C62_file_data_violates",
    "Dash7.C62_command",
    "Dash7.C62_network_frame",
    "Dash7.C62_frame_violates",
    "Dash7.C62_zero",
    "Dash7.C62_zero_action",
    "Dash7.C62_zero_frame"
   ],
   "note": "The bytes are as claimed for all of them (C62_zero, C62_zero_action, C62_zero_frame). Reading back holds for the defaults of 66 types (C62_default_partial, C62_try_from_partial), the default command, network frames outside wizzilab builds (C62_network_frame, exact), and, with the opcode put right, all operands but file data (C62_opcode_partial). False for the LoRaWAN configurations with keys (C62_lorawan_violates), for every action but the nop as it is (C62_action_violates), for file data (C62_file_data_violates), and for the default transport and foreground frames (C62_frame_violates)."
  },
  {
   "property": "C63",
   "status": "partial",
   "theorems": [
    "Dash7.C63_chunk",
    "Dash7.C63_forward",
    "Dash7.C63_indirect_forward",
    "Dash7.C63_action_status",
    "Dash7.C63_interface_status",
    "Dash7.C63_final_status_partial",
    "Dash7.C63_other_interface_violates",
    "Dash7.C63_received_violates",
    "Dash7.C63_file_data_partial",
    "Dash7.C63_file_data_violates"
   ],
   "note": "Exact for chunks, forwards, action and interface statuses, file data. False: the conversion of the final or TX status of an interface other than dash7 panics (C63_other_interface_violates), also for one just received (C63_received_violates); FileData::new takes data the file id does not fit (C63_file_data_violates)."
  },
  {
   "property": "C64",
   "status": "proved",
   "theorems": [
    "Dash7.C64_text",
    "Dash7.C64_unambiguous",
    "Dash7.C64_command"
   ],
   "note": "Model/Display.lean has both Display implementations and the derived Debug of the types they show, as the Rust documentation describes it. C64_command takes the derived Debug of actions as a parameter and asks of it what the claim says; C75_command supplies it."
  },
  {
   "property": "C65",
   "status": "proved",
   "theorems": [
    "Dash7.C65_from_bytes",
    "Dash7.C65_size",
    "Dash7.C65_total",
    "Dash7.C65_more_input",
    "Dash7.C65_enough",
    "Dash7.C65_roundtrip"
   ],
   "note": "Against the grammar of Verif/Spec/Accept.lean (Form.file) at every bit offset. A machine that runs out of memory for a declared length is outside the model."
  },
  {
   "property": "C66",
   "status": "partial",
   "theorems": [
    "Dash7.C66_firmware_id",
    "Dash7.C66_profile_id_partial",
    "Dash7.C66_nothing_else",
    "Dash7.C66_size_violates",
    "Dash7.C66_profile_id_violates",
    "Dash7.C66_size_partial"
   ],
   "note": "The ids are right for firmware versions and for access profiles 0 to 14. False: the sizes, 17 and 0, are never those of an encoding, 15 and 65 bytes (C66_size_violates); from specifier 15 on an id is published that is no access profile file (C66_profile_id_violates)."
  },
  {
   "property": "C67",
   "status": "proved",
   "theorems": [
    "Dash7.C67_total",
    "Dash7.C67_more_input",
    "Dash7.C67_refusal",
    "Dash7.C67_cut"
   ],
   "note": "The errors of the 83 types of Model/Items.lean; the values are the subject of C59."
  },
  {
   "property": "C68",
   "status": "partial",
   "theorems": [
    "Dash7.C68_action_partial",
    "Dash7.C68_hopeless",
    "Dash7.C68_action_exact",
    "Dash7.C68_item_partial",
    "Dash7.C68_item_hopeless",
    "Dash7.C68_command_partial",
    "Dash7.C68_status_violates",
    "Dash7.C68_firmware_violates",
    "Dash7.C68_tx_violates",
    "Dash7.C68_control_violates",
    "Dash7.C68_command_continues_partial",
    "Dash7.C68_command_lost_partial",
    "Dash7.C68_command_exact_partial"
   ],
   "note": "Exact: asked for more input, more input makes an action exactly if the input is not one of Spec.Hopeless (C68_action_exact), and nothing makes those an action (C68_hopeless); the same for 83 types and Spec.HopelessItem (C68_item_partial, C68_item_hopeless). Hopeless are states of LoRaWAN interfaces (C68_status_violates), beginnings of a firmware version that are not UTF-8 (C68_firmware_violates), TX states of the wizzilab build cut two differing bits into the error code (C68_tx_violates), the first byte of a network control field of the other builds with an unknown security method (C68_control_violates). For commands, exact again (C68_command_exact_partial): more input helps exactly if no action beyond help has begun behind the ones read (Spec.LostCommand). Missing: commands of the wizzilab build for a reader that keeps its left-over bits when seeking (seekClears false)."
  },
  {
   "property": "C69",
   "status": "partial",
   "theorems": [
    "Dash7.C69_command_refused",
    "Dash7.C69_command_cut",
    "Dash7.C69_command_reader",
    "Dash7.C69_frame_refused_partial",
    "Dash7.C69_foreground_cut_partial",
    "Dash7.C69_network_cut_partial",
    "Dash7.C69_foreground_violates",
    "Dash7.C69_network_violates",
    "Dash7.C69_wizzilab_violates"
   ],
   "note": "Proved in full for commands. For frames proved unless from_bytes panics on the same input (the counter ran past the end, C53). Without that exception it is false: a foreground frame (C69_foreground_violates) and a network frame (C69_network_violates) are refused and then accepted with padding behind them; wizzilab network frames turn from refused to incomplete (C69_wizzilab_violates)."
  },
  {
   "property": "C70",
   "status": "partial",
   "theorems": [
    "Dash7.C70_file_id_read",
    "Dash7.C70_file_id_error",
    "Dash7.C70_file_id_partial",
    "Dash7.C70_file_id_violates",
    "Dash7.C70_interface_id_read",
    "Dash7.C70_interface_id_error",
    "Dash7.C70_interface_id_partial",
    "Dash7.C70_interface_id_violates",
    "Dash7.C70_interface_into_partial",
    "Dash7.C70_interface_into_back",
    "Dash7.C70_interface_into_violates",
    "Dash7.C70_noise_floor_read",
    "Dash7.C70_noise_floor_partial",
    "Dash7.C70_noise_floor_violates"
   ],
   "note": "Reading: exact at every offset. The round trip holds for ids with a name. All other ids are written as nothing (C70_file_id_violates, C70_interface_id_violates). Converting an interface type to a byte gives back a named id and panics for all others (C70_interface_into_violates). A noise floor with a number comes back through from_bytes; try_from takes no input at all, and Other is written as nothing (C70_noise_floor_violates)."
  },
  {
   "property": "C71",
   "status": "partial",
   "theorems": [
    "Dash7.C71_length",
    "Dash7.C71_usize_partial",
    "Dash7.C71_usize_violates",
    "Dash7.C71_var_int_partial",
    "Dash7.C71_var_int_violates",
    "Dash7.C71_access_class_partial",
    "Dash7.C71_access_class_unavailable",
    "Dash7.C71_access_class_violates",
    "Dash7.C71_no_offset",
    "Dash7.C71_action_header",
    "Dash7.C71_indirect_header",
    "Dash7.C71_channel_header",
    "Dash7.C71_into_status",
    "Dash7.C71_into_final_status",
    "Dash7.C71_command"
   ],
   "note": "Holds for Length from u32, FileOffset::no_offset, the header constructors, Command::new and the conversions into Status. Violated by Length from usize (2^32 and more is cut to 32 bits without notice), AccessClass::new (parts of 16 and more are cut to 4 bits without notice) and VarInt (a number no mantissa and exponent give is rounded without notice); the partial theorems say exactly which values come back."
  },
  {
   "property": "C72",
   "status": "proved",
   "theorems": [
    "Dash7.C72_transport",
    "Dash7.C72_network",
    "Dash7.C72_foreground",
    "Dash7.C72_background"
   ],
   "note": "For the foreground frame any length field; equal encodings give equal frames although reading the encoding back may fail."
  },
  {
   "property": "C73",
   "status": "partial",
   "theorems": [
    "Dash7.C73_host_transport_partial",
    "Dash7.C73_host_network_partial",
    "Dash7.C73_host_foreground_partial",
    "Dash7.C73_host_background_partial",
    "Dash7.C73_host_background_read",
    "Dash7.C73_host_foreground_swapped",
    "Dash7.C73_host_violates",
    "Dash7.C73_build_transport",
    "Dash7.C73_build_partial",
    "Dash7.C73_wizzilab_network",
    "Dash7.C73_wizzilab_foreground",
    "Dash7.C73_wizzilab_violates"
   ],
   "note": "Hosts: transport and network frames are the same if their actions are (see C32). The CRC of foreground frames and payload and CRC of background frames are in host order, so the encodings agree exactly if the two bytes are equal, and the other host reads the swapped numbers (C73_host_violates). Builds: transport frames agree; network and foreground frames agree between spec and subiot. wizzilab writes the security method with 3 bits instead of 4: exactly one bit is missing, everything behind it is shifted, and the other builds' frames are not read (C73_wizzilab_violates)."
  },
  {
   "property": "C74",
   "status": "partial",
   "theorems": [
    "Dash7.C74_item",
    "Dash7.C74_action",
    "Dash7.C74_command",
    "Dash7.C74_frame",
    "Dash7.C74_start",
    "Dash7.C74_item_exact",
    "Dash7.C74_items_in_order",
    "Dash7.C74_action_exact",
    "Dash7.C74_actions_in_order",
    "Dash7.C74_command_exact",
    "Dash7.C74_transport_exact",
    "Dash7.C74_network_exact",
    "Dash7.C74_foreground_exact",
    "Dash7.C74_foreground_partial",
    "Dash7.C74_foreground_violates",
    "Dash7.C74_command_violates",
    "Dash7.C74_foreground_twice_violates"
   ],
   "note": "Proved in full for the 83 types of Model/Items.lean and for actions (exact results, and sequences read back in order); the value and count also for commands, transport and network frames. Foreground frames compare their length with the place in the whole source: from behind that many bytes a frame is read without its command (C74_foreground_violates, C74_foreground_twice_violates); it is read if the length counts the bytes in front too (C74_foreground_partial). A command ending in an indirect forward takes one byte too many from a source that goes on (C74_command_violates, exactly C74_command_exact). Where the source stands after an error is not modelled."
  },
  {
   "property": "C75",
   "status": "proved",
   "theorems": [
    "Dash7.C75_action",
    "Dash7.C75_command_debug",
    "Dash7.C75_foreground",
    "Dash7.C75_background",
    "Dash7.C75_file",
    "Dash7.C75_one_line",
    "Dash7.C75_decoded",
    "Dash7.C75_command",
    "Dash7.C75_cli",
    "Dash7.C75_parts"
   ],
   "note": "The texts of derived Debug are modelled type by type (Model/Debug.lean). The Lean structures hold the fields of all builds; Spec.InBuild says that fields the build does not have are at their default, which every Rust value is and every decoded value is proved to be (C75_decoded). Which non-ASCII characters are printed as they are is a parameter. C75_cli is about the text dash7-cli itself prints; for all that appears on the standard output see C81_tells."
  },
  {
   "property": "C76",
   "status": "proved",
   "theorems": [
    "Dash7.C76_bytes",
    "Dash7.C76_encode",
    "Dash7.C76_same_command",
    "Dash7.C76_same_action",
    "Dash7.C76_same_foreground",
    "Dash7.C76_from_bytes",
    "Dash7.C76_from_reader",
    "Dash7.C76_try_from",
    "Dash7.C76_items",
    "Dash7.C76_crossing",
    "Dash7.C76_twice"
   ],
   "note": "The exact form of what C32 and C73 leave open. C76_crossing is about commands in the standard form (WF); decoding (C76_from_bytes, C76_from_reader, C76_try_from) is about all inputs."
  },
  {
   "property": "C77",
   "status": "partial",
   "theorems": [
    "Dash7.C77_background_partial",
    "Dash7.C77_foreground_partial",
    "Dash7.C77_background_violates",
    "Dash7.C77_foreground_violates",
    "Dash7.C77_wizzilab_partial",
    "Dash7.C77_overlap_violates"
   ],
   "note": "The checksum is not checked at all (C77_background_violates, C77_foreground_violates); what does hold is that it is passed on and touches nothing else. Foreground frames in wizzilab builds, whose command is read a bit late: C77_wizzilab_partial if seeking drops the bits kept back; if it keeps them, the CRC overlaps the last action (C77_overlap_violates)."
  },
  {
   "property": "C78",
   "status": "partial",
   "theorems": [
    "Dash7.C78_network_partial",
    "Dash7.C78_network_from_bytes_partial",
    "Dash7.C78_foreground_partial",
    "Dash7.C78_foreground_from_bytes_partial",
    "Dash7.C78_violates",
    "Dash7.C78_wizzilab_violates"
   ],
   "note": "Violated: nothing looks at the method, and a frame announcing one is decoded like a plain one (C78_violates, C78_wizzilab_violates). The partial theorems say exactly what is left: the method is passed on and changes nothing else."
  },
  {
   "property": "C79",
   "status": "partial",
   "theorems": [
    "Dash7.C79_transport_partial",
    "Dash7.C79_network_partial",
    "Dash7.C79_foreground_partial",
    "Dash7.C79_disagreeing",
    "Dash7.C79_network_command_partial",
    "Dash7.C79_foreground_command_partial",
    "Dash7.C79_opcode_violates"
   ],
   "note": "Headers, encoding and single actions for every build, offset and input. The whole command comes back for network and foreground frames other than wizzilab. In transport frames, and in wizzilab, where the command is read one bit late if seeking drops the bits kept back, the opcode fields stored in the actions need not be those of their kinds (C79_opcode_violates). TX states and interface states of unknown type are excluded as in C61."
  },
  {
   "property": "C80",
   "status": "partial",
   "theorems": [
    "Dash7.C80_action_partial",
    "Dash7.C80_command_partial",
    "Dash7.C80_file_partial",
    "Dash7.C80_try_from_partial",
    "Dash7.C80_violates",
    "Dash7.C80_refused_violates",
    "Dash7.C80_one_line",
    "Dash7.C80_tells"
   ],
   "note": "Violated by every successful from_bytes (C80_violates) and by try_from of input it refuses (C80_refused_violates). The partial theorems give the output exactly; C80_one_line and C80_tells say what can be made of it. The derived decoders (frames, the types of C59) and from_reader have no print statement."
  },
  {
   "property": "C81",
   "status": "partial",
   "theorems": [
    "Dash7.C81_outcome",
    "Dash7.C81_output_partial",
    "Dash7.C81_no_hex",
    "Dash7.C81_frames",
    "Dash7.C81_violates",
    "Dash7.C81_failed_violates",
    "Dash7.C81_refused_violates",
    "Dash7.C81_tells"
   ],
   "note": "Violated for every command and file (C81_violates), by runs that fail (C81_failed_violates) and by runs without a type (C81_refused_violates). Exact output: C81_output_partial, C81_frames, C81_no_hex. C81_tells extends C75_cli, which is about the text dash7-cli itself prints, to the whole output. Messages of expect go to the standard error and are not modelled."
  },
  {
   "property": "C82",
   "status": "proved",
   "theorems": [
    "Dash7.C82_action",
    "Dash7.C82_written",
    "Dash7.C82_command"
   ],
   "note": "Spec.retag lists, kind by kind, what the two bits stand for; C82_action and C82_command from the grammar of accepted input (C54, C55), C82_written from the byte layout (C51)."
  },
  {
   "property": "C83",
   "status": "partial",
   "theorems": [
    "Dash7.C83_up",
    "Dash7.C83_down_partial",
    "Dash7.C83_down_violates",
    "Dash7.C83_from_violates",
    "Dash7.C83_between"
   ],
   "note": "Holds for numbers rounded up (C83_up). Violated by numbers rounded down (C83_down_violates; C83_from_violates for those made by From<u32>); C83_down_partial says exactly for which pairs. Stated about the byte written and the value read from it."
  },
  {
   "property": "C84",
   "status": "partial",
   "theorems": [
    "Dash7.C84_transport_partial",
    "Dash7.C84_transport_from_bytes_partial",
    "Dash7.C84_network_every_partial",
    "Dash7.C84_network_from_bytes_partial",
    "Dash7.C84_foreground_from_bytes_partial",
    "Dash7.C84_transport_violates",
    "Dash7.C84_short_violates",
    "Dash7.C84_foreground_partial",
    "Dash7.C84_network_partial",
    "Dash7.C84_violates",
    "Dash7.C84_foreground_wizzilab_partial"
   ],
   "note": "Violated (C84_violates, C84_transport_violates, C84_short_violates) by the kinds of input named; C84_foreground_partial and C84_network_partial (builds other than wizzilab), C84_foreground_wizzilab_partial, C84_transport_partial, C84_network_every_partial and the three C84_..._from_bytes_partial (every build in which seeking drops the bits kept back) say that these are all. Missing: transport frames, and frames of wizzilab builds, if seeking keeps the bits back."
  },
  {
   "property": "C85",
   "status": "proved",
   "theorems": [
    "Dash7.C85_action",
    "Dash7.C85_command",
    "Dash7.C85_transport",
    "Dash7.C85_network",
    "Dash7.C85_foreground",
    "Dash7.C85_command_sum",
    "Dash7.C85_at_least",
    "Dash7.C85_overhead"
   ],
   "note": "Spec/Size.lean is a table of numbers. C85_action, C85_command, C85_transport, C85_network and C85_foreground state the outcome of encoding, a number of bytes or the refusal; C85_command_sum, C85_at_least and C85_overhead are the consequences named."
  },
  {
   "property": "C86",
   "status": "partial",
   "theorems": [
    "Dash7.C86_action_partial",
    "Dash7.C86_command_partial",
    "Dash7.C86_length_violates",
    "Dash7.C86_selector_violates",
    "Dash7.C86_every_command_partial",
    "Dash7.C86_every_action_partial",
    "Dash7.C86_large_partial",
    "Dash7.C86_selector"
   ],
   "note": "Spec/Ignored.lean marks, bit by bit, what the decoder does not look at. C86_action_partial and C86_command_partial: a flipped bit goes unnoticed just if it is marked. Beyond the reserved bits these are the exponent of a compressed zero and the value bits of lengths the decoder ignores (C86_length_violates). C86_every_command_partial says so for all commands. For all actions C86_every_action_partial says the same with one exception, a bit of the actions that carry one certain access profile and are sent on their own (C86_selector_violates). C86_large_partial and C86_selector are steps towards these. What is missing from the claim is what is false of the code."
  },
  {
   "property": "C87",
   "status": "partial",
   "theorems": [
    "Dash7.C87_select_partial",
    "Dash7.C87_merge_partial",
    "Dash7.C87_pass_on_partial",
    "Dash7.C87_tags",
    "Dash7.C87_tx_violates"
   ],
   "note": "C87_select_partial for every selection of actions, C87_merge_partial for actions put together from several commands, C87_pass_on_partial for actions_without_interface_status, C87_tags for the tags. Statuses of unknown interfaces cannot be passed on (C03_other_status_violates). Missing: commands holding a TX status, for which it is false (C87_tx_violates, wizzilab)."
  },
  {
   "property": "C88",
   "status": "proved",
   "theorems": [
    "Dash7.C88_from_bytes",
    "Dash7.C88_try_from",
    "Dash7.C88_only",
    "Dash7.C88_action",
    "Dash7.C88_command",
    "Dash7.C88_action_only"
   ],
   "note": "C88_from_bytes and C88_try_from for the types listed by Spec.oneForm, C88_only for all others: the list is exact in every build and byte order. C88_action, C88_command and C88_action_only for actions and commands; the kinds of status and indirect forward are told apart by what they hold."
  },
  {
   "property": "C89",
   "status": "partial",
   "theorems": [
    "Dash7.C89_typed",
    "Dash7.C89_command",
    "Dash7.C89_background",
    "Dash7.C89_system_file",
    "Dash7.C89_other_file_violates",
    "Dash7.C89_foreground_violates",
    "Dash7.C89_untyped_partial",
    "Dash7.C89_untyped_background",
    "Dash7.C89_six_violates",
    "Dash7.C89_foreground_like_violates"
   ],
   "note": "With the type given: C89_typed says exactly what is shown, C89_command, C89_background and C89_system_file that it is what was encoded. False for other files (C89_other_file_violates), for foreground frames with actions (C89_foreground_violates, with the exact condition), for serial data (C89_typed). Without a type: C89_untyped_background, C89_untyped_partial for short commands; false for commands of six bytes (C89_six_violates) and for some longer ones (C89_foreground_like_violates)."
  },
  {
   "property": "C90",
   "status": "partial",
   "theorems": [
    "Dash7.C90_action_violates",
    "Dash7.C90_command_violates",
    "Dash7.C90_file_violates",
    "Dash7.C90_unread_partial"
   ],
   "note": "Violated wherever a secret can be received (C90_action_violates, C90_command_violates, C90_file_violates, for every key and token); Spec.secrets lists them in the words printed. What is left is C90_unread_partial: nothing is printed if nothing can be read. The derived decoders (frames) and from_reader have no print statement."
  },
  {
   "property": "C91",
   "status": "partial",
   "theorems": [
    "Dash7.C91_action",
    "Dash7.C91_action_partial",
    "Dash7.C91_action_violates",
    "Dash7.C91_command",
    "Dash7.C91_command_partial",
    "Dash7.C91_foreground",
    "Dash7.C91_foreground_partial",
    "Dash7.C91_foreground_violates",
    "Dash7.C91_network"
   ],
   "note": "Violated for every action carrying an access profile or a PHY status of 64 bytes or more (C91_action_violates); C91_action and C91_command say by how much, and that no less will do: one byte for each such action. C91_action_partial and C91_command_partial are the claim for everything else. C91_foreground, C91_foreground_partial and C91_network are the same for frames outside wizzilab builds, with the bytes behind that get lost (C34_partial); C91_foreground_violates is a frame that can be a byte shorter."
  },
  {
   "property": "C92",
   "status": "partial",
   "theorems": [
    "Dash7.C92_value_partial",
    "Dash7.C92_exponent_violates",
    "Dash7.C92_mantissa_violates",
    "Dash7.C92_unused_violates",
    "Dash7.C92_number"
   ],
   "note": "Violated by every refusal of decompress (C92_exponent_violates, C92_mantissa_violates; C92_unused_violates for the error it never returns); holds for new and compress (C92_value_partial). The number itself is always named (C92_number)."
  },
  {
   "property": "C93",
   "status": "partial",
   "theorems": [
    "Dash7.C93_action",
    "Dash7.C93_command",
    "Dash7.C93_meant_partial",
    "Dash7.C93_group_violates",
    "Dash7.C93_sub_iot",
    "Dash7.C93_network_sub_iot",
    "Dash7.C93_foreground_sub_iot",
    "Dash7.C93_delay",
    "Dash7.C93_delay_violates"
   ],
   "note": "Violated by every group condition (C93_group_violates) and by forwards to a DASH7 interface between sub-iot and the others (C93_delay_violates); holds for all other commands (C93_meant_partial). C93_action, C93_command, C93_sub_iot and C93_delay say for every input what the builds make of it."
  },
  {
   "property": "C94",
   "status": "partial",
   "theorems": [
    "Dash7.C94_action_partial",
    "Dash7.C94_command_partial",
    "Dash7.C94_strict",
    "Dash7.C94_number_violates",
    "Dash7.C94_large_violates",
    "Dash7.C94_large_action"
   ],
   "note": "C94_action_partial and C94_command_partial tell exactly which byte strings of the length of the encoding decode to the same (Spec/Alike.lean); C94_strict: the encoding only, where every bit matters. Violated beyond the reserved bits by lengths nobody looks at (C86_length_violates), by the several forms of a number (C94_number_violates) and by every action with an access profile or a PHY status of 64 bytes or more (C94_large_violates). C94_large_action tells exactly which byte strings decode to such an action. Missing: the exact description for commands with such actions, which C86_every_command_partial gives for one changed bit."
  },
  {
   "property": "C95",
   "status": "partial",
   "theorems": [
    "Dash7.C95_foreground_partial",
    "Dash7.C95_reserved_violates",
    "Dash7.C95_network_partial",
    "Dash7.C95_network_forward_partial",
    "Dash7.C95_background"
   ],
   "note": "C95_foreground_partial tells exactly which byte strings of the length of the encoding decode to the same foreground frame, by try_from and from_bytes (Spec/AlikeFrame.lean); C95_network_partial does so for network frames around an empty command, C95_network_forward_partial for those that end with an indirect forward and are followed by the bytes that get lost, C95_background shows that background frames have one form only. Violated by six bits of the headers (C95_reserved_violates). Missing: wizzilab builds, where frames do not come back at all (C34_wizzilab_violates), and network frames that do not come back (C52_partial)."
  },
  {
   "property": "C96",
   "status": "proved",
   "theorems": [
    "Dash7.C96_action",
    "Dash7.C96_command",
    "Dash7.C96_written",
    "Dash7.C96_structure_needed",
    "Dash7.C96_data",
    "Dash7.C96_command_data",
    "Dash7.C96_written_data"
   ],
   "note": "Spec.redirect lists, kind by kind, where the id goes; C96_action and C96_command from the grammar of accepted input (C54, C55), C96_written from the byte layout (C51). C96_data, C96_command_data and C96_written_data do the same for data of the same length. C96_structure_needed shows what happens to data sent to a file with another structure: it is taken for the content of that file, with the rest as further actions, or refused."
  },
  {
   "property": "C97",
   "status": "partial",
   "theorems": [
    "Dash7.C97_foreground_partial",
    "Dash7.C97_foreground_violates",
    "Dash7.C97_written",
    "Dash7.C97_action",
    "Dash7.C97_redirect",
    "Dash7.C97_retag",
    "Dash7.C97_crc",
    "Dash7.C97_subnet",
    "Dash7.C97_data",
    "Dash7.C97_network_action"
   ],
   "note": "C97_written, and for one action at a time C97_action, C97_retag, C97_redirect, C97_data, C97_subnet, C97_crc and C97_network_action, hold as stated. Reading loses one or two bytes behind the CRC with each action (C34), so a command of more actions is taken only if there are as many bytes behind the frame: C97_foreground_partial says how many are lost and gives the rest handed back, C97_foreground_violates shows a frame that is refused once its one action is replaced by two."
  }
 ]
}