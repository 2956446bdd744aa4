# id -> (status or None to derive it from the theorem names, note)
STATUS={
'C01':('proved','Well-formed: see Spec/WF.lean. Status of an unknown interface, TX status and token search without mask are excluded there; C24, C41 and C27 show they do not round trip.'),
'C02':('proved','Same well-formedness as C01.'),
'C03':('partial','Re-encoding always succeeds (C03_reencodes); decode after encode is the identity unless the command holds a TX status or the status of an unknown interface (both proved to fail). "Never longer" is false: C03_longer.'),
'C10':('partial','Below, within one unit and representable: proved. Largest such number: false in the gaps between exponents (C10_rounds_down_violates); the partial theorem says exactly where it holds.'),
'C13':('partial','Missing: a mantissa out of range is reported as an exponent (C13_error_violates).'),
'C15':('partial','All actions but the wizzilab TX status, whose first byte holds opcode 0 (C15_tx_status_violates).'),
'C18':('partial','False by one byte: one trailing byte is accepted (C18_junk_byte_accepted); two or more are refused.'),
'C19':('partial','False: up to two bytes behind an indirect forward are lost (C19_junk_swallowed); the partial theorem gives the exact rest.'),
'C20':('partial','Payloads below 2^32 bytes; at 2^32 bytes the operand wraps to 0 (C20_huge_violates).'),
'C21':('proved','Size for every content; round trip for representable contents (scan periods compressible, strings of 6 and 7 bytes, count right), which C10, C29 and C30 delimit.'),
'C22':('partial','False for the structured system files, which ignore the declared length (C22_structured_violates); C22_consumed gives the exact number of bytes in all cases.'),
'C23':('partial','False: converting back panics for every id without a name (C23_violates).'),
'C29':('partial','Cutting inside a character makes the file unreadable (C29_split_violates); C29_read_back is exact for all strings.'),
'C30':('partial','False from 256 channels on (C30_violates).'),
'C32':('partial','All commands without a security key file, a LoRaWAN ABP configuration or a DASH7 TX status; these are written in host order (C32_security_key_violates, C32_abp_violates, C32_tx_violates). C76 says exactly how.'),
'C36':('partial','No panic up to offset 8 and correct decoding at whole-byte offsets; panics at larger offsets (C36_panics; exactly when: C36_panics_exactly, and nothing else goes wrong: C36_no_other_panic) and decodes something else at sub-byte offsets (C36_sub_byte_offset_violates).'),
'C40':('partial','Holds for every type with padding; fails within actions for the TX status, whose padding bits are read as the opcode (C40_tx_status_violates).'),
'C49':('partial','All actions but the wizzilab TX status (C49_tx_status_violates).'),
'C50':('proved','C50_from_reader and C50_spoils speak of every byte string and bit offset, also behind a TX status (C41) and off the byte grid: the exact condition for an error of Command::from_reader, and its error. C50_try_from_only adds that try_from has no other error than Parse for bytes behind the command. C50_frames carries it to frames, and C50_transport_only, C50_network_only and C50_foreground_only say for what else from_bytes of a frame fails: no header, no CRC, the offset, or the panic of C53.'),
'C51':('proved','Spec/Layout.lean is the byte-level format, written independently of the writers.'),
'C24':('partial','Exact description of the values that come back (C24_exact). Unknown interfaces have no id on the wire (C24_unknown_id_violates) and mostly do not come back (C24_unknown_violates, C24_unknown_partial).'),
'C25':('partial','Host, serial and DASH7 status ignore the declared length (C25_host_violates, C25_dash7_violates); C25_consumed gives the exact number of bytes in all cases.'),
'C35':('partial','False for UNKNOWN_ERROR, 0x80 (C35_unknown_error_violates).'),
'C27':('partial','Exact for each constructor. False for token searches without mask and for value comparisons with a mask of another length (C27_token_search_violates, C27_with_value_violates).'),
'C28':('partial','Consistency and idempotence hold; the encoding of a decoded query may change (C28_zero_violates, C28_bitmap_violates), and the length of two query types goes stale (C28_stale_length_violates). update of an Action does nothing at all (C28_action_violates). Exact condition per type.'),
'C33':('partial','Exact set of frames that come back (C33_partial): the transport header has 8k+7 bits, so every command is read one bit late. Only one-action commands of one shape survive; the header always does.'),
'C34':('partial','Outside wizzilab builds the frame is decoded to itself, but each action makes the derived functions count bytes that are not there: exact rest, refusals and panics in C34_partial; the full claim holds for empty commands only (C34_nonempty_violates). C34_length_partial: for any length field, exactly the frames without actions whose length ends them in time are accepted. Wizzilab builds: C34_wizzilab_partial gives the exact set of frames that come back (a single action, a condition on two bits and on the length; C34_wizzilab_violates, C34_wizzilab_single_violates).'),
'C52':('partial','Exact set of frames that come back (C52_partial); C52_violates shows one that does not, in every build.'),
'C37':('partial','False unless the first element fails: the guard\'s pointer moves with every element, so slots i..2i-1 are dropped instead of 0..i-1 (C37_drops_partial, C37_violates), from the second half on outside the array (C37_outside_violates).'),
'C39':('partial','Order and first success: proved. No input is ever reported as unparseable (C39_never_fails_violates), and files are read with length 0, so that only UID and empty files are ever recognised (C39_system_files_violates).'),
'C53':('partial','try_from: proved for all frames. from_bytes panics on ordinary foreground, network and transport frames (C53_violates, C53_network_violates, C53_transport_violates); C53_panics_exactly says exactly when, at every bit offset, and C53_from_bytes_partial that it returns otherwise.'),
'C41':('partial','Violated by every TX status: its first byte is 0x40, the opcode of a nop, so it is refused by itself and in any command (C41_action_violates, C41_command_violates); no byte string at all is read as a command ending in one (C41_last_violates). What holds: the operation by itself is read back from the bits it writes (C41_operation_partial).'),
'C54':('proved','Spec/Accept.lean is the grammar, written without the readers. It describes what this code takes: e.g. structured files ignore the declared length (C22), and a TX status has its opcode in the first byte (C41).'),
'C55':('partial','Complete outside wizzilab builds (C55_try_from_no_tx). False as stated for commands holding a TX status (C55_tx_status_violates), behind which the reader is not at a byte boundary; what is accepted there is C58.'),
'C56':('proved','Spec/FrameLayout.lean gives the rows of bit fields; the writers make exactly these bits.'),
'C57':('partial','Background frames: exact. Outside wizzilab builds network and foreground frames: exact, including how many bytes behind the frame must be there because the reader counts them as its own (C57_network_accepts, C57_foreground_accepts, C57_foreground_from_bytes). False as stated for transport frames (C57_transport_violates), whose commands, as those of wizzilab network and foreground frames, are not read at a byte boundary: there the headers only, and the exact description C58.'),
'C58':('proved','Exact for every build, offset and command: Spec/Offset.lean describes reading on the string of bits left. It closes what C55 and C57 leave open; there the plain grammar does not hold.'),
'C59':('proved','Exact for 83 types, every build and bit offset. Left out: types that are only part of another one (listed in DESIGN.md section 2).'),
'C60':('partial','False as stated for types ending within a byte, which their own try_from never takes (C60_part_of_a_byte_violates), and for the status of an unknown interface (C60_unknown_interface_violates). For all other values: exact (C60_try_from_partial); from_bytes reads back every value of every type, unknown interface aside (C60_from_bytes_partial).'),
'C61':('proved','Both directions, for actions and commands, in every build.'),
'C62':('partial','The bytes are as claimed for all of them (C62_zero, C62_zero_action, C62_zero_frame). Reading back holds for the defaults of 66 types (C62_default_partial, C62_try_from_partial), the default command, network frames outside wizzilab builds (C62_network_frame, exact), and, with the opcode put right, all operands but file data (C62_opcode_partial). False for the LoRaWAN configurations with keys (C62_lorawan_violates), for every action but the nop as it is (C62_action_violates), for file data (C62_file_data_violates), and for the default transport and foreground frames (C62_frame_violates).'),
'C63':('partial','Exact for chunks, forwards, action and interface statuses, file data. False: the conversion of the final or TX status of an interface other than dash7 panics (C63_other_interface_violates), also for one just received (C63_received_violates); FileData::new takes data the file id does not fit (C63_file_data_violates).'),
'C64':('proved','Model/Display.lean has both Display implementations and the derived Debug of the types they show, as the Rust documentation describes it. C64_command takes the derived Debug of actions as a parameter and asks of it what the claim says; C75_command supplies it.'),
'C65':('proved','Against the grammar of Verif/Spec/Accept.lean (Form.file) at every bit offset. A machine that runs out of memory for a declared length is outside the model.'),
'C66':('partial','The ids are right for firmware versions and for access profiles 0 to 14. False: the sizes, 17 and 0, are never those of an encoding, 15 and 65 bytes (C66_size_violates); from specifier 15 on an id is published that is no access profile file (C66_profile_id_violates).'),
'C67':('proved','The errors of the 83 types of Model/Items.lean; the values are the subject of C59.'),
'C68':('partial','Exact: asked for more input, more input makes an action exactly if the input is not one of Spec.Hopeless (C68_action_exact), and nothing makes those an action (C68_hopeless); the same for 83 types and Spec.HopelessItem (C68_item_partial, C68_item_hopeless). Hopeless are states of LoRaWAN interfaces (C68_status_violates), beginnings of a firmware version that are not UTF-8 (C68_firmware_violates), TX states of the wizzilab build cut two differing bits into the error code (C68_tx_violates), the first byte of a network control field of the other builds with an unknown security method (C68_control_violates). For commands, exact again (C68_command_exact_partial): more input helps exactly if no action beyond help has begun behind the ones read (Spec.LostCommand). Missing: commands of the wizzilab build for a reader that keeps its left-over bits when seeking (seekClears false).'),
'C69':('partial','Proved in full for commands. For frames proved unless from_bytes panics on the same input (the counter ran past the end, C53). Without that exception it is false: a foreground frame (C69_foreground_violates) and a network frame (C69_network_violates) are refused and then accepted with padding behind them; wizzilab network frames turn from refused to incomplete (C69_wizzilab_violates).'),
'C70':('partial','Reading: exact at every offset. The round trip holds for ids with a name. All other ids are written as nothing (C70_file_id_violates, C70_interface_id_violates). Converting an interface type to a byte gives back a named id and panics for all others (C70_interface_into_violates). A noise floor with a number comes back through from_bytes; try_from takes no input at all, and Other is written as nothing (C70_noise_floor_violates).'),
    "C71": ("partial", "Holds for Length from u32, FileOffset::no_offset, the header constructors, Command::new and the conversions into Status. Violated by Length from usize (2^32 and more is cut to 32 bits without notice), AccessClass::new (parts of 16 and more are cut to 4 bits without notice) and VarInt (a number no mantissa and exponent give is rounded without notice); the partial theorems say exactly which values come back."),
    "C72": ("proved", "For the foreground frame any length field; equal encodings give equal frames although reading the encoding back may fail."),
    "C73": ("partial", "Hosts: transport and network frames are the same if their actions are (see C32). The CRC of foreground frames and payload and CRC of background frames are in host order, so the encodings agree exactly if the two bytes are equal, and the other host reads the swapped numbers (C73_host_violates). Builds: transport frames agree; network and foreground frames agree between spec and subiot. wizzilab writes the security method with 3 bits instead of 4: exactly one bit is missing, everything behind it is shifted, and the other builds' frames are not read (C73_wizzilab_violates)."),
    "C74": ("partial", "Proved in full for the 83 types of Model/Items.lean and for actions (exact results, and sequences read back in order); the value and count also for commands, transport and network frames. Foreground frames compare their length with the place in the whole source: from behind that many bytes a frame is read without its command (C74_foreground_violates, C74_foreground_twice_violates); it is read if the length counts the bytes in front too (C74_foreground_partial). A command ending in an indirect forward takes one byte too many from a source that goes on (C74_command_violates, exactly C74_command_exact). Where the source stands after an error is not modelled."),
    "C75": ("proved", "The texts of derived Debug are modelled type by type (Model/Debug.lean). The Lean structures hold the fields of all builds; Spec.InBuild says that fields the build does not have are at their default, which every Rust value is and every decoded value is proved to be (C75_decoded). Which non-ASCII characters are printed as they are is a parameter. C75_cli is about the text dash7-cli itself prints; for all that appears on the standard output see C81_tells."),
    "C76": ("proved", "The exact form of what C32 and C73 leave open. C76_crossing is about commands in the standard form (WF); decoding (C76_from_bytes, C76_from_reader, C76_try_from) is about all inputs."),
    "C77": ("partial", "The checksum is not checked at all (C77_background_violates, C77_foreground_violates); what does hold is that it is passed on and touches nothing else. Foreground frames in wizzilab builds, whose command is read a bit late: C77_wizzilab_partial if seeking drops the bits kept back; if it keeps them, the CRC overlaps the last action (C77_overlap_violates)."),
    "C78": ("partial", "Violated: nothing looks at the method, and a frame announcing one is decoded like a plain one (C78_violates, C78_wizzilab_violates). The partial theorems say exactly what is left: the method is passed on and changes nothing else."),
    "C79": ("partial", "Headers, encoding and single actions for every build, offset and input. The whole command comes back for network and foreground frames other than wizzilab. In transport frames, and in wizzilab, where the command is read one bit late if seeking drops the bits kept back, the opcode fields stored in the actions need not be those of their kinds (C79_opcode_violates). TX states and interface states of unknown type are excluded as in C61."),
    "C80": ("partial", "Violated by every successful from_bytes (C80_violates) and by try_from of input it refuses (C80_refused_violates). The partial theorems give the output exactly; C80_one_line and C80_tells say what can be made of it. The derived decoders (frames, the types of C59) and from_reader have no print statement."),
    "C81": ("partial", "Violated for every command and file (C81_violates), by runs that fail (C81_failed_violates) and by runs without a type (C81_refused_violates). Exact output: C81_output_partial, C81_frames, C81_no_hex. C81_tells extends C75_cli, which is about the text dash7-cli itself prints, to the whole output. Messages of expect go to the standard error and are not modelled."),
"C82": ("proved", "Spec.retag lists, kind by kind, what the two bits stand for; C82_action and C82_command from the grammar of accepted input (C54, C55), C82_written from the byte layout (C51)."),
    "C83": ("partial", "Holds for numbers rounded up (C83_up). Violated by numbers rounded down (C83_down_violates; C83_from_violates for those made by From<u32>); C83_down_partial says exactly for which pairs. Stated about the byte written and the value read from it."),
    "C84": ("partial", "Violated (C84_violates, C84_transport_violates, C84_short_violates) by the kinds of input named; C84_foreground_partial and C84_network_partial (builds other than wizzilab), C84_foreground_wizzilab_partial, C84_transport_partial, C84_network_every_partial and the three C84_..._from_bytes_partial (every build in which seeking drops the bits kept back) say that these are all. Missing: transport frames, and frames of wizzilab builds, if seeking keeps the bits back."),
    "C85": ("proved", "Spec/Size.lean is a table of numbers. C85_action, C85_command, C85_transport, C85_network and C85_foreground state the outcome of encoding, a number of bytes or the refusal; C85_command_sum, C85_at_least and C85_overhead are the consequences named."),
    "C86": ("partial", "Spec/Ignored.lean marks, bit by bit, what the decoder does not look at. C86_action_partial and C86_command_partial: a flipped bit goes unnoticed just if it is marked. Beyond the reserved bits these are the exponent of a compressed zero and the value bits of lengths the decoder ignores (C86_length_violates). C86_every_command_partial says so for all commands. For all actions C86_every_action_partial says the same with one exception, a bit of the actions that carry one certain access profile and are sent on their own (C86_selector_violates). C86_large_partial and C86_selector are steps towards these. What is missing from the claim is what is false of the code."),
    "C87": ("partial", "C87_select_partial for every selection of actions, C87_merge_partial for actions put together from several commands, C87_pass_on_partial for actions_without_interface_status, C87_tags for the tags. Statuses of unknown interfaces cannot be passed on (C03_other_status_violates). Missing: commands holding a TX status, for which it is false (C87_tx_violates, wizzilab)."),
    "C88": ("proved", "C88_from_bytes and C88_try_from for the types listed by Spec.oneForm, C88_only for all others: the list is exact in every build and byte order. C88_action, C88_command and C88_action_only for actions and commands; the kinds of status and indirect forward are told apart by what they hold."),
    "C89": ("partial", "With the type given: C89_typed says exactly what is shown, C89_command, C89_background and C89_system_file that it is what was encoded. False for other files (C89_other_file_violates), for foreground frames with actions (C89_foreground_violates, with the exact condition), for serial data (C89_typed). Without a type: C89_untyped_background, C89_untyped_partial for short commands; false for commands of six bytes (C89_six_violates) and for some longer ones (C89_foreground_like_violates)."),
    "C90": ("partial", "Violated wherever a secret can be received (C90_action_violates, C90_command_violates, C90_file_violates, for every key and token); Spec.secrets lists them in the words printed. What is left is C90_unread_partial: nothing is printed if nothing can be read. The derived decoders (frames) and from_reader have no print statement."),
    "C91": ("partial", "Violated for every action carrying an access profile or a PHY status of 64 bytes or more (C91_action_violates); C91_action and C91_command say by how much, and that no less will do: one byte for each such action. C91_action_partial and C91_command_partial are the claim for everything else. C91_foreground, C91_foreground_partial and C91_network are the same for frames outside wizzilab builds, with the bytes behind that get lost (C34_partial); C91_foreground_violates is a frame that can be a byte shorter."),
    "C92": ("partial", "Violated by every refusal of decompress (C92_exponent_violates, C92_mantissa_violates; C92_unused_violates for the error it never returns); holds for new and compress (C92_value_partial). The number itself is always named (C92_number)."),
    "C93": ("partial", "Violated by every group condition (C93_group_violates) and by forwards to a DASH7 interface between sub-iot and the others (C93_delay_violates); holds for all other commands (C93_meant_partial). C93_action, C93_command, C93_sub_iot and C93_delay say for every input what the builds make of it."),
    "C94": ("partial", "C94_action_partial and C94_command_partial tell exactly which byte strings of the length of the encoding decode to the same (Spec/Alike.lean); C94_strict: the encoding only, where every bit matters. Violated beyond the reserved bits by lengths nobody looks at (C86_length_violates), by the several forms of a number (C94_number_violates) and by every action with an access profile or a PHY status of 64 bytes or more (C94_large_violates). C94_large_action tells exactly which byte strings decode to such an action. Missing: the exact description for commands with such actions, which C86_every_command_partial gives for one changed bit."),
    "C95": ("partial", "C95_foreground_partial tells exactly which byte strings of the length of the encoding decode to the same foreground frame, by try_from and from_bytes (Spec/AlikeFrame.lean); C95_network_partial does so for network frames around an empty command, C95_network_forward_partial for those that end with an indirect forward and are followed by the bytes that get lost, C95_background shows that background frames have one form only. Violated by six bits of the headers (C95_reserved_violates). Missing: wizzilab builds, where frames do not come back at all (C34_wizzilab_violates), and network frames that do not come back (C52_partial)."),
    "C96": ("proved", "Spec.redirect lists, kind by kind, where the id goes; C96_action and C96_command from the grammar of accepted input (C54, C55), C96_written from the byte layout (C51). C96_data, C96_command_data and C96_written_data do the same for data of the same length. C96_structure_needed shows what happens to data sent to a file with another structure: it is taken for the content of that file, with the rest as further actions, or refused."),
    "C97": ("partial", "C97_written, and for one action at a time C97_action, C97_retag, C97_redirect, C97_data, C97_subnet, C97_crc and C97_network_action, hold as stated. Reading loses one or two bytes behind the CRC with each action (C34), so a command of more actions is taken only if there are as many bytes behind the frame: C97_foreground_partial says how many are lost and gives the rest handed back, C97_foreground_violates shows a frame that is refused once its one action is replaced by two."),
}
