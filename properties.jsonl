{"id": "C01", "title": "ALP command round trip", "statement": "For every well-formed ALP command (a list of actions built with the public constructors, whose redundant fields agree with their payload, and in which an indirect forward only occurs last), Command::to_bytes succeeds and Command::try_from on the resulting bytes returns exactly the same command.", "quantifier": "all well-formed commands, any number of actions, any payload sizes, every feature build and host endianness", "why_tests_cant": "commands are unboundedly long trees over 27 action kinds; tests only sample a handful of literals", "anchors": ["dash7/src/app/command.rs: Command::to_bytes, Command::from_bytes, TryFrom<&[u8]>, DekuReader<u32> for Command", "dash7/src/app/action.rs: Action", "dash7/src/app/operation/mod.rs"]}
{"id": "C02", "title": "ALP action round trip", "statement": "For every well-formed action, encoding it and decoding the bytes with Action::try_from returns exactly the same action.", "quantifier": "all well-formed actions of every kind", "why_tests_cant": "each action carries arbitrary payloads; sampling cannot cover all field combinations", "anchors": ["dash7/src/app/action.rs: DekuReader/DekuWriter for Action, TryFrom<&[u8]>", "dash7/src/app/operation/mod.rs"]}
{"id": "C03", "title": "Decoding normalises", "statement": "Whatever bytes decode to a command, re-encoding that command succeeds and decoding again gives the same command (decode . encode . decode = decode); the re-encoding is never longer than what was consumed.", "quantifier": "all byte strings accepted by Command::try_from", "why_tests_cant": "the set of accepted byte strings is infinite and contains non-canonical encodings that no encoder produces", "anchors": ["dash7/src/app/command.rs", "dash7/src/types.rs: VarInt", "dash7/src/app/operation/length.rs: Length"]}
{"id": "C04", "title": "The decoder is total", "statement": "Command::try_from returns a value or an error for every byte string: the action loop always terminates and no decoding path panics.", "quantifier": "all byte strings", "why_tests_cant": "non-termination or a panic on one adversarial input cannot be excluded by finitely many tests", "anchors": ["dash7/src/app/command.rs: from_reader_with_ctx loop", "dash7/src/app/action.rs: from_reader_with_ctx", "dash7/src/utils.rs: pad_rest, from_bytes"]}
{"id": "C05", "title": "Commands compose by concatenation", "statement": "Encoding a command is the concatenation of the encodings of its actions, and decoding the concatenation of two encoded commands yields the actions of the first followed by those of the second, provided the first holds no indirect forward. More generally, behind any input that decodes (whether or not it was written by this encoder, TX states included) any other input is decoded just as on its own: to the actions it gives, the count it gives, or the error it gives.", "quantifier": "all pairs of well-formed commands; all pairs of inputs the first of which decodes to actions other than an indirect forward; all builds", "why_tests_cant": "ranges over all pairs of unbounded commands", "anchors": ["dash7/src/app/command.rs"]}
{"id": "C06", "title": "Truncated input is reported as incomplete", "statement": "Cutting the encoding of any well-formed action anywhere before its end makes decoding fail with an Incomplete error; a truncated action is never accepted as some other action.", "quantifier": "all well-formed actions and all cut points", "why_tests_cant": "all pairs of action and cut point", "anchors": ["dash7/src/app/action.rs: DekuReader for Action"]}
{"id": "C07", "title": "Decoding an action is insensitive to what follows", "statement": "If an action decodes from the start of some bytes, appending more bytes does not change the decoded action nor the place where it ends; if it fails with anything but Incomplete, appending bytes does not change the error.", "quantifier": "all byte strings and all continuations", "why_tests_cant": "universally quantified over two unbounded strings", "anchors": ["dash7/src/app/action.rs"]}
{"id": "C08", "title": "Length operand wire format", "statement": "A length operand below 2^30 is encoded big-endian in the fewest bytes out of 1..4, with the two top bits of the first byte holding the number of extra bytes; a value of 2^30 or more is refused with an error.", "quantifier": "all 2^32 values", "why_tests_cant": "boundaries at 2^6, 2^14, 2^22, 2^30 over 2^32 inputs", "anchors": ["dash7/src/app/operation/length.rs: Length::write, required_bits"]}
{"id": "C09", "title": "Length operand decoding", "statement": "Every byte string starting with enough bytes for its size class decodes to a length below 2^30, decoding inverts encoding, and non-minimal encodings are accepted with the same meaning.", "quantifier": "all lengths, all byte strings", "why_tests_cant": "2^30 values in four size classes", "anchors": ["dash7/src/app/operation/length.rs: Length::read"]}
{"id": "C10", "title": "VarInt rounding down", "statement": "For value <= 507904 and ceil=false, compress yields an exponent <= 7 and mantissa <= 31 whose decompressed value is the largest representable number not above the value, with error below 4^exponent.", "quantifier": "all values 0..=507904", "why_tests_cant": "optimality is a statement about every representable number for every value", "anchors": ["dash7/src/types.rs: VarInt::compress, decompress"]}
{"id": "C11", "title": "VarInt rounding up", "statement": "For value <= 507904 and ceil=true, the decompressed value is the smallest representable number not below the value.", "quantifier": "all values 0..=507904", "why_tests_cant": "optimality is a statement about every representable number for every value", "anchors": ["dash7/src/types.rs: VarInt::compress"]}
{"id": "C12", "title": "VarInt accepts exactly the representable range", "statement": "compress and new fail with ValueTooLarge exactly when value > 507904; the Unknown error is unreachable and no 32-bit intermediate overflows. 507904 is the largest number any VarInt byte decodes to.", "quantifier": "all u32 values", "why_tests_cant": "2^32 inputs, unreachability", "anchors": ["dash7/src/types.rs: VarInt::is_valid, new, compress"]}
{"id": "C13", "title": "VarInt byte codec", "statement": "Every byte decodes to a VarInt; encoding it again gives a byte that decodes to the same value, with the smallest exponent. decompress accepts exactly exponent <= 7 and mantissa <= 31 and names the offending argument in its error.", "quantifier": "all bytes, all (u8,u8) arguments", "why_tests_cant": "error identity over all argument pairs", "anchors": ["dash7/src/types.rs: VarInt::read, write, decompress"]}
{"id": "C14", "title": "Opcode dispatch", "statement": "The kind of a decoded action is determined by the low six bits of its first byte according to the opcode table; bytes with an opcode outside the table are refused with InvalidParam, and the two top bits never influence the kind.", "quantifier": "all byte strings", "why_tests_cant": "ranges over all inputs; tests cover one input per opcode", "anchors": ["dash7/src/app/action.rs: OpCode, DekuReader for Action"]}
{"id": "C15", "title": "The opcode on the wire is that of the action kind", "statement": "The low six bits of the first encoded byte are the opcode of the action kind whatever the action's own opcode field holds, and changing that field never changes the encoding.", "quantifier": "all actions and all opcode field values", "why_tests_cant": "all kinds times all field values times all payloads", "anchors": ["dash7/src/app/action.rs: DekuWriter for Action, deku_id", "dash7/src/app/operation/mod.rs: opcode fields"]}
{"id": "C16", "title": "Indirect forward ends a command", "statement": "No decoded command has an action after an indirect forward: the decoder stops there, and what comes behind an indirect forward never changes the decoded command.", "quantifier": "all byte strings", "why_tests_cant": "ranges over all inputs", "anchors": ["dash7/src/app/command.rs: from_reader_with_ctx"]}
{"id": "C17", "title": "Command accessors", "statement": "interface_status, request_tag, response_tag return the first action of that sort or nothing; request_id/response_id/tag_id/is_last_response agree with them; tag_id prefers the request tag; actions_without_interface_status keeps exactly the other actions in order.", "quantifier": "all commands", "why_tests_cant": "first-match and order-preservation over lists of any length", "anchors": ["dash7/src/app/command.rs: interface_status, actions_without_interface_status, request_tag, request_id, response_tag, response_id, tag_id, is_last_response"]}
{"id": "C18", "title": "Action::try_from rejects trailing data", "statement": "Action::try_from accepts a byte string only if the action spans all of it.", "quantifier": "all actions and all trailing byte strings", "why_tests_cant": "ranges over all trailing data", "anchors": ["dash7/src/app/action.rs: TryFrom<&[u8]>", "dash7/src/utils.rs: from_bytes, pad_rest"]}
{"id": "C19", "title": "Command::from_bytes reports the unconsumed rest", "statement": "The rest returned by Command::from_bytes is exactly the input behind the last decoded action, so Command::try_from refuses data behind an indirect forward.", "quantifier": "all commands and all trailing byte strings", "why_tests_cant": "ranges over all trailing data", "anchors": ["dash7/src/app/command.rs: from_bytes, TryFrom", "dash7/src/utils.rs: pad_rest"]}
{"id": "C20", "title": "File data carries its own size", "statement": "The length operand in front of file data (write, write-flush, return) equals the number of payload bytes that follow it, for every file kind.", "quantifier": "all file payloads", "why_tests_cant": "payload sizes are unbounded", "anchors": ["dash7/src/app/operation/mod.rs: FileData::write", "dash7/src/utils.rs: write_length_prefixed_ext"]}
{"id": "C21", "title": "System files round trip with fixed size", "statement": "Each system file kind encodes to its fixed number of bytes and decodes back to itself (access profile 65, UID 8, factory settings 56, firmware version 15, engineering mode 7, VID 2, DLL config 7, DLL status 16, security key 16; PHY status 15+3n).", "quantifier": "all file contents the format can represent: version strings of 6 and 7 bytes, scan periods a compressed time can express, a channel count that matches the channel list", "why_tests_cant": "contents range over up to 2^520 values", "anchors": ["dash7/src/file/*.rs", "dash7/src/link/mod.rs: AccessProfile", "dash7/src/physical/mod.rs"]}
{"id": "C22", "title": "Declared length delimits file data", "statement": "When decoding file data, the bytes consumed after the length operand are exactly as many as it declares.", "quantifier": "all byte strings", "why_tests_cant": "ranges over all declared lengths and contents", "anchors": ["dash7/src/app/operation/mod.rs: FileData::read", "dash7/src/file/mod.rs: File"]}
{"id": "C23", "title": "File id conversion", "statement": "Every byte converts to a file id; named ids convert back to the same byte; conversion back never panics.", "quantifier": "all 256 bytes", "why_tests_cant": "panic-freedom over the whole domain", "anchors": ["dash7/src/file/mod.rs: FileId, TryFrom<u8>, Into<u8>"]}
{"id": "C24", "title": "Interface status round trip", "statement": "An interface status built from any interface status value encodes and decodes to itself, and the interface id on the wire is the id of that interface.", "quantifier": "all interface status values", "why_tests_cant": "ranges over unbounded payloads", "anchors": ["dash7/src/session/mod.rs: InterfaceType, InterfaceStatus", "dash7/src/app/operation/mod.rs: InterfaceStatusOperation"]}
{"id": "C25", "title": "Declared length delimits an interface status", "statement": "When decoding an interface status, the bytes consumed after the length operand are exactly as many as it declares.", "quantifier": "all byte strings", "why_tests_cant": "ranges over all declared lengths", "anchors": ["dash7/src/app/operation/mod.rs: InterfaceStatusOperation::read", "dash7/src/session/mod.rs: InterfaceStatus"]}
{"id": "C26", "title": "Addressees are self-consistent", "statement": "Addressee::new (and update after mutation) stores the address type and security method of its arguments, so that the addressee encodes and decodes to itself; its size is 2 bytes plus 0/1/2/8 address bytes plus 0/5 security bytes.", "quantifier": "all addresses, security states, access classes in nibble range", "why_tests_cant": "product of several domains including u64", "anchors": ["dash7/src/network/addressee.rs: Addressee", "dash7/src/network/mod.rs: Address, NlsState"]}
{"id": "C27", "title": "Queries built by constructors round trip", "statement": "Every query built with its constructor encodes and decodes to itself.", "quantifier": "all masks, values, file offsets", "why_tests_cant": "unbounded byte strings", "anchors": ["dash7/src/app/query.rs: Query and its variants"]}
{"id": "C28", "title": "update() restores consistency and is idempotent", "statement": "After update(), derived fields agree with the payload, a second update changes nothing, and update does not change the encoding of a freshly decoded value.", "quantifier": "all values of types with derived fields", "why_tests_cant": "ranges over all values and mutations", "anchors": ["dash7/src/app/query.rs", "dash7/src/network/addressee.rs", "dash7/src/file/phy_status.rs", "dash7/src/app/operation/mod.rs: IndirectForward"]}
{"id": "C29", "title": "Firmware version strings", "statement": "Writing a firmware version stores the application name in 6 bytes and the git sha in 7; a value read back equals the one written exactly when the strings have these byte lengths; shorter strings come back padded with NUL, longer ones truncated.", "quantifier": "all strings", "why_tests_cant": "strings are unbounded and multi-byte characters may be cut", "anchors": ["dash7/src/file/firmware_version.rs", "dash7/src/utils.rs: read_string, write_string"]}
{"id": "C30", "title": "PHY status channel list", "statement": "PhyStatus::new(..) round-trips for every channel list; the stored count equals the list length; update rejects lists that do not fit.", "quantifier": "all channel lists", "why_tests_cant": "list length unbounded; failure only above 255", "anchors": ["dash7/src/file/phy_status.rs"]}
{"id": "C31", "title": "Background frames", "statement": "BackgroundFrame::try_from accepts a byte string exactly when it has 6 bytes, and encoding the result restores the very same bytes.", "quantifier": "all byte strings", "why_tests_cant": "2^48 accepted inputs", "anchors": ["dash7/src/link/frame.rs: BackgroundFrame"]}
{"id": "C32", "title": "The wire format does not depend on the host", "statement": "The encoding of a command is the same on little-endian and big-endian hosts.", "quantifier": "all commands, both host byte orders", "why_tests_cant": "tests run on one host only", "anchors": ["dash7/src/file/security_key.rs", "dash7/src/app/interface.rs: LoRaWANABPInterfaceConfiguration", "dash7/src/link/frame.rs"]}
{"id": "C33", "title": "Transport frames round trip", "statement": "Every transport frame whose optional fields agree with its control flags encodes and decodes to itself.", "quantifier": "all transport frames", "why_tests_cant": "ranges over all frames; no test exists", "anchors": ["dash7/src/transport/mod.rs: Frame, Control"]}
{"id": "C34", "title": "Foreground frames can be parsed back", "statement": "A foreground frame holding any command, with its length field set to the end of the command, decodes from its encoding to itself, and ForegroundFrame::try_from accepts that encoding.", "quantifier": "all foreground frames", "why_tests_cant": "ranges over all frames; no test exists", "anchors": ["dash7/src/link/frame.rs: ForegroundFrame", "dash7/src/network/network.rs: Frame", "dash7/src/transport/mod.rs: Frame"]}
{"id": "C35", "title": "Status code classification", "statement": "StatusCode::is_err holds exactly for the error codes (0x80 and above), in particular for every named error constant.", "quantifier": "all 256 codes", "why_tests_cant": "whole-domain statement", "anchors": ["dash7/src/app/operation/mod.rs: StatusCode::is_err"]}
{"id": "C36", "title": "from_bytes with a bit offset", "statement": "from_bytes((data, offset)) decodes starting at that bit offset, returns a suffix of the input as rest and never panics.", "quantifier": "all data and offsets", "why_tests_cant": "unbounded data and offsets", "anchors": ["dash7/src/utils.rs: from_bytes, pad_rest"]}
{"id": "C37", "title": "read_array cleans up what it initialised", "statement": "When reading element i of an array fails, exactly the i elements already read are dropped and memory outside the array is never touched.", "quantifier": "all array lengths and failure points", "why_tests_cant": "undefined behaviour is not observable by tests on trivially droppable elements", "anchors": ["dash7/src/utils.rs: read_array, TransientDropper"]}
{"id": "C38", "title": "CLI hex input", "statement": "The CLI decodes the hex rendering of any byte string to that byte string irrespective of letter case and of whitespace placed anywhere, and refuses every input with an odd number of digits or a non-hex character.", "quantifier": "all byte strings and all whitespace placements", "why_tests_cant": "unbounded strings", "anchors": ["dash7-cli/src/parse.rs: remove_whitespace, main"]}
{"id": "C39", "title": "CLI reports what it parsed", "statement": "With no type given the CLI tries foreground, background, ALP and then system files in this order, prints the first success and reports an error if nothing parses.", "quantifier": "all inputs", "why_tests_cant": "ranges over all inputs", "anchors": ["dash7-cli/src/parse.rs: parse_any, parse_any_file, parse_file"]}
{"id": "C40", "title": "Reserved bits", "statement": "Reserved (padding) bits are written as zero and their value never influences what is decoded.", "quantifier": "all values of types with padding and all settings of the reserved bits", "why_tests_cant": "2^k settings times all values", "anchors": ["dash7/src/app/operation/mod.rs: ForwardHeader, RequestTagHeader", "dash7/src/app/query.rs: NonVoid, StringTokenSearch", "dash7/src/network/addressee.rs", "dash7/src/physical/mod.rs: ChannelHeader", "dash7/src/data/mod.rs: FileProperties", "dash7/src/session/mod.rs: Dash7InterfaceStatus"]}
{"id": "C41", "title": "TX status round trip (wizzilab build)", "statement": "A TX status action encodes with opcode 38 and decodes to itself.", "quantifier": "all TX status actions", "why_tests_cant": "ranges over all values; no test of the action exists", "anchors": ["dash7/src/app/interface_final.rs: TxStatusOperation"]}
{"id": "C42", "title": "Feature builds interoperate", "statement": "The spec, sub-iot and wizzilab builds encode a command identically and decode each other's bytes to the same command whenever the command uses none of the build-specific fields.", "quantifier": "all commands free of build-specific fields, all pairs of builds", "why_tests_cant": "each test run compiles a single build", "anchors": ["dash7/src/network/addressee.rs", "dash7/src/app/interface.rs: Dash7InterfaceConfiguration", "dash7/src/app/operation/mod.rs: Status"]}
{"id": "C43", "title": "Decoded size is bounded by the input", "statement": "A decoded command has at most as many actions as input bytes, and its payload bytes together never exceed the input size.", "quantifier": "all byte strings", "why_tests_cant": "ranges over all inputs", "anchors": ["dash7/src/app/command.rs", "dash7/src/app/action.rs"]}
{"id": "C44", "title": "Encodings are unambiguous", "statement": "Two well-formed commands with the same encoding are equal; no well-formed action's encoding is a proper prefix of another's.", "quantifier": "all pairs of well-formed commands/actions", "why_tests_cant": "pairs of unbounded values", "anchors": ["dash7/src/app/command.rs", "dash7/src/app/action.rs"]}
{"id": "C45", "title": "Displayed command state", "statement": "The text shown for a command is, word for word: its tag (the id of the first request tag, else of the first response tag) if there is one; completed with/without error exactly when its first response tag ends the packet with/without the error flag, executing otherwise; then every action that is not an interface status, in order; then the first interface status, if there is one. Commands of the same text have the same tag and progress.", "quantifier": "all commands", "why_tests_cant": "ranges over all commands", "anchors": ["dash7/src/app/command.rs: Display"]}
{"id": "C46", "title": "File header layout", "statement": "A file header encodes to 12 bytes at the documented bit positions and big-endian sizes, and decodes to itself.", "quantifier": "all file headers", "why_tests_cant": "2^80 values", "anchors": ["dash7/src/data/mod.rs: FileHeader, FilePermissions, FileProperties"]}
{"id": "C47", "title": "Forward and indirect forward", "statement": "Forward and indirect forward built by their constructors round-trip; the overloaded bit is set exactly when an interface configuration is present.", "quantifier": "all interface configurations", "why_tests_cant": "unbounded configurations", "anchors": ["dash7/src/app/operation/mod.rs: Forward, IndirectForward", "dash7/src/app/interface.rs"]}
{"id": "C48", "title": "Sub-byte fields do not spill", "statement": "A value too large for its bit field (access class nibbles, opcode, max_errors, channel index, EIRP index, tag id) is written modulo the field width and never alters neighbouring fields.", "quantifier": "all field values", "why_tests_cant": "all out-of-range values times all neighbours", "anchors": ["dash7/src/link/mod.rs: AccessClass", "dash7/src/app/query.rs: StringTokenSearch", "dash7/src/physical/mod.rs: ChannelStatusIdentifier", "dash7/src/link/frame.rs"]}
{"id": "C49", "title": "Actions are byte aligned", "statement": "Every encoded action occupies a whole, positive number of bytes, so that no padding is inserted between actions or at the end of a command.", "quantifier": "all actions that encode", "why_tests_cant": "ranges over all actions", "anchors": ["dash7/src/app/action.rs", "dash7/src/app/operation/mod.rs"]}
{"id": "C50", "title": "A bad action spoils the command", "statement": "If decoding any action of a command fails, Command::try_from, from_bytes and from_reader fail with that very error: no partial command is returned, wherever in the input the action is, and a frame around the command fails with it too. Command::from_reader fails for no other reason (but an offset behind the input), and try_from only for bytes left over behind the command. from_bytes of a frame fails for no other reason than that, a header or CRC that is not there, the offset, or a panic when the rest is sliced.", "quantifier": "all byte strings, every bit offset, every build and host", "why_tests_cant": "ranges over all inputs and failure points", "anchors": ["dash7/src/app/command.rs: from_reader_with_ctx"]}
{"id": "C51", "title": "The byte layout of every action", "statement": "Every action and command encodes to exactly the bytes of the published wire layout: field by field, in order, with the listed widths, codes and big-endian numbers, and encoding is refused exactly when a length operand reaches 2^30 or a compressed integer exceeds 507904.", "quantifier": "all actions, all field values, all builds and host byte orders", "why_tests_cant": "unit tests compare a handful of byte strings; the layout ranges over all field values of all kinds", "anchors": ["dash7/src/app/action.rs", "dash7/src/app/operation/mod.rs", "dash7/src/app/query.rs", "dash7/src/app/interface.rs", "dash7/src/session/mod.rs", "dash7/src/network/addressee.rs", "dash7/src/file/mod.rs"]}
{"id": "C52", "title": "Network frames can be parsed back", "statement": "A network frame holding any command decodes, with network::Frame::try_from, from its encoding to itself.", "quantifier": "all network frames", "why_tests_cant": "ranges over all headers, addresses and commands; no test exists", "anchors": ["dash7/src/network/network.rs: Frame", "dash7/src/transport/mod.rs: Frame", "dash7/src/app/command.rs: DekuReader for Command"]}
{"id": "C53", "title": "Parsing frames never panics", "statement": "Parsing any byte string as a foreground, background, network or transport frame returns a frame or an error; it never panics.", "quantifier": "all byte strings", "why_tests_cant": "ranges over all byte strings", "anchors": ["dash7/src/link/frame.rs", "dash7/src/network/network.rs", "dash7/src/transport/mod.rs"]}
{"id": "C54", "title": "What the action decoder accepts", "statement": "Action::from_bytes yields an action exactly when the input begins with a bit string that the wire grammar (every field, code table, reserved bit and length rule of the format) assigns to that action; Action::try_from in addition wants the input to end there, but for one byte. No input matches two actions.", "quantifier": "all byte strings, all actions, all builds", "why_tests_cant": "ranges over all byte strings, including every malformed one", "anchors": ["dash7/src/app/action.rs: DekuReader for Action, from_bytes, TryFrom<&[u8]>", "dash7/src/app/operation/mod.rs", "dash7/src/app/query.rs", "dash7/src/session/mod.rs", "dash7/src/file/mod.rs"]}
{"id": "C55", "title": "What the command decoder accepts", "statement": "Command::from_bytes and try_from yield a command exactly when the input is a sequence of bit strings that the wire grammar assigns to its actions, an indirect forward standing at most at the end; only behind an indirect forward may there be further bytes.", "quantifier": "all byte strings, all commands, all builds", "why_tests_cant": "ranges over all byte strings and all sequences of actions", "anchors": ["dash7/src/app/command.rs: DekuReader for Command, from_bytes, TryFrom<&[u8]>"]}
{"id": "C56", "title": "Layout of frames", "statement": "to_bytes of a transport, network or foreground frame gives exactly the bit fields of its control, headers, actions and CRC in the documented order and widths, filled with zero bits to the next byte; it refuses exactly the frames one of whose fields has a value that does not fit. The same holds for commands, including those with transmission statuses.", "quantifier": "all frames, all commands, all builds", "why_tests_cant": "ranges over all frames, and a swap made in both reader and writer passes every round-trip test", "anchors": ["dash7/src/link/frame.rs: ForegroundFrame, BackgroundFrame", "dash7/src/network/network.rs: Frame, Header", "dash7/src/transport/mod.rs: Frame, Header"]}
{"id": "C57", "title": "What the decoders of frames accept", "statement": "A frame decoder yields a frame exactly when the input is made of bit strings that the grammar assigns to its headers, of forms of its actions up to the byte the length field names, and of its CRC.", "quantifier": "all byte strings, all frames, all builds", "why_tests_cant": "ranges over all byte strings, including every malformed one", "anchors": ["dash7/src/link/frame.rs: ForegroundFrame, BackgroundFrame", "dash7/src/network/network.rs: Frame, Header", "dash7/src/transport/mod.rs: Frame, Header"]}
{"id": "C58", "title": "Decoding from any bit position", "statement": "At any bit offset the decoders of actions, commands and frames yield a value exactly when: the six bits of the code are taken from the bits at hand; the operand is read from the last byte boundary before, preceded, if seeking keeps them, by the bits of the byte looked into; and so on to the end, the length limit or an indirect forward. The rest given back, or the panic instead of it, follows from the number of bits counted, in which the looking ahead is included.", "quantifier": "all byte strings, all bit offsets, all actions, commands and frames, all builds", "why_tests_cant": "ranges over all byte strings and offsets, and over positions within a byte that only arise behind other fields", "anchors": ["dash7/src/app/action.rs: DekuReader for Action (seek_relative)", "dash7/src/app/command.rs: DekuReader for Command, valid_length", "dash7/src/utils.rs: from_bytes, from_reader, pad_rest", "dash7/src/transport/mod.rs: Frame", "dash7/src/network/network.rs: Frame", "dash7/src/link/frame.rs: ForegroundFrame"]}
{"id": "C59", "title": "Types read on their own", "statement": "For every type with derived decoding (channels, addressees, interface configurations and statuses, queries, operands, operations, files, file headers, frame headers, ...) T::try_from(bytes) yields a value exactly when the bytes are one of the bit strings the grammar assigns to it, and T::from_bytes((bytes, offset)) yields it exactly when the bits from the offset on begin with such a string, handing back the place right behind it. No bit string stands for two values, or for one value with another's bit string as its beginning; a type that ends within a byte is never taken by its own try_from.", "quantifier": "83 types, all byte strings, all offsets, all values, all builds", "why_tests_cant": "ranges over all byte strings and offsets, malformed ones included, for every type", "anchors": ["dash7/src/physical/mod.rs", "dash7/src/link/mod.rs", "dash7/src/network/mod.rs", "dash7/src/session/mod.rs", "dash7/src/data/mod.rs", "dash7/src/file/mod.rs", "dash7/src/app/operation/mod.rs", "dash7/src/app/query.rs", "dash7/src/app/interface.rs"]}
{"id": "C60", "title": "Every value that can be read can be written and read again, type by type", "statement": "For every type with derived coding and every value of it that some bit string stands for, v.to_bytes() succeeds with a bit string that stands for v, filled with zero bits to a whole byte, and T::try_from(v.to_bytes()) gives v.", "quantifier": "83 types, all values, all builds", "why_tests_cant": "ranges over all values of every type", "anchors": ["dash7/src/physical/mod.rs", "dash7/src/link/mod.rs", "dash7/src/network/mod.rs", "dash7/src/session/mod.rs", "dash7/src/data/mod.rs", "dash7/src/file/mod.rs", "dash7/src/app/operation/mod.rs", "dash7/src/app/query.rs", "dash7/src/app/interface.rs"]}
{"id": "C61", "title": "Exactly the well-formed values come back", "statement": "An action or command comes back from its own encoding (try_from(to_bytes(v)) = v) exactly if it is well-formed: the opcode stored in each action is the one of its kind, length fields and tags agree with the data they describe, numbers fit their fields, and an indirect forward is the last action. No value outside that description survives by accident, whatever its bytes are then taken for.", "quantifier": "all actions and commands, all builds", "why_tests_cant": "ranges over all values, the malformed ones included, each of which could happen to be read back as itself", "anchors": ["dash7/src/app/action.rs: DekuReader/DekuWriter for Action", "dash7/src/app/command.rs: DekuReader/DekuWriter for Command", "dash7/src/utils.rs: from_bytes, try_from"]}
{"id": "C62", "title": "Default values", "statement": "T::default() of every type that has one can be written and is read back as T::default(): channels, addressees, interface configurations, queries, operands put into their action (as they are, or with the opcode set as in X { opcode: OpCode::X, ..Default::default() }), commands and frames. On the wire a default is nothing but zeros (behind the opcode, for actions), except the two bits that say there is no address, and the id of a permission.", "quantifier": "all types with Default, all builds and hosts", "why_tests_cant": "a test covers the build and host it runs on; the claim ranges over every type in every build", "anchors": ["dash7/src/physical/mod.rs", "dash7/src/link/frame.rs", "dash7/src/network/network.rs", "dash7/src/transport/mod.rs", "dash7/src/app/interface.rs", "dash7/src/app/query.rs: Default for Query", "dash7/src/app/operation/mod.rs: Default for Permission, Default for Status", "dash7/src/file/mod.rs: Default for File"]}
{"id": "C63", "title": "Constructors and conversions", "statement": "Values made by the constructors and conversions of the API (ChunkStep::into, Forward::new, IndirectForward::new, Status::into, InterfaceStatus::into, InterfaceFinalStatus::into, InterfaceTxStatus::into, FileData::new) never make the caller panic, and the actions made of them come back from their own encoding exactly if the parts handed in are well-formed.", "quantifier": "all arguments, all builds", "why_tests_cant": "ranges over all arguments, of unbounded size; the failing ones are those no test builds", "anchors": ["dash7/src/app/operation/mod.rs: Into<StatusOperand> for Status, From<InterfaceStatus>, Into<Chunk>, Forward::new, IndirectForward::new, FileData::new", "dash7/src/app/interface_final.rs: From<InterfaceFinalStatus>, From<InterfaceTxStatus>"]}
{"id": "C64", "title": "The text of an interface status", "statement": "The text shown for an interface status names every field with its value, numbers in decimal; two statuses of the same build with the same text agree in every field (a timeout up to its rounding mode, which is not part of its value). Hence the text of a command, given one-line texts that tell its actions apart, determines the progress, the tag, all actions but interface statuses, in order, and the first interface status.", "quantifier": "all statuses and pairs of statuses, all commands, all builds", "why_tests_cant": "unambiguity is about all pairs of values, and the texts are of unbounded length", "anchors": ["dash7/src/session/mod.rs: Display for InterfaceStatus, Display for Dash7InterfaceStatus", "dash7/src/app/command.rs: Display"]}
{"id": "C65", "title": "Reading a file under a given id", "statement": "File::from_bytes((data, offset), id, length) yields a file exactly when the bits from the offset on begin with the content the format assigns to that file id (for ids without a structure of their own: length bytes), and hands back the place right behind it. It never panics; what it yields does not depend on what follows; a refusal other than Incomplete is final; cutting the input before the end of the file gives Incomplete, and as many bytes as the file has never do. A written file, followed by anything, is read back as it was.", "quantifier": "all file ids, declared lengths, byte strings and offsets, all files, all builds", "why_tests_cant": "ranges over all byte strings, offsets and lengths, malformed ones included", "anchors": ["dash7/src/file/mod.rs: File::from_bytes", "dash7/src/utils.rs: from_bytes, pad_rest"]}
{"id": "C66", "title": "Published ids and sizes of system files", "statement": "For every type with SystemFile constants, ID is the one file id under which File::from_bytes yields that type, nothing else is read under it, and SIZE is the number of bytes of its encoding.", "quantifier": "all file ids and inputs, all firmware versions, all access profiles and specifiers", "why_tests_cant": "a test compares the constants with a few files; the claim ranges over all ids, inputs and values", "anchors": ["dash7/src/file/mod.rs: SystemFile", "dash7/src/file/access_profile.rs: SystemFile for AccessProfile", "dash7/src/file/firmware_version.rs: SystemFile for FirmwareVersion"]}
{"id": "C67", "title": "Types read on their own: errors", "statement": "For every type with derived decoding T::from_bytes (at any offset, also one beyond the input) and T::try_from never panic: they yield a value, Incomplete or Parse. A value does not depend on what follows, which from_bytes hands back and try_from refuses; a refusal is final, no more input changes it; input cut before the end of a value is Incomplete.", "quantifier": "83 types, all byte strings, all offsets, all builds", "why_tests_cant": "ranges over all byte strings and offsets, malformed ones included, for every type", "anchors": ["dash7/src/physical/mod.rs", "dash7/src/link/mod.rs", "dash7/src/network/mod.rs", "dash7/src/session/mod.rs", "dash7/src/data/mod.rs", "dash7/src/file/mod.rs", "dash7/src/app/operation/mod.rs", "dash7/src/app/query.rs", "dash7/src/app/interface.rs"]}
{"id": "C68", "title": "Incomplete is only reported where more input can help", "statement": "A caller collecting bytes waits for more when decoding reports Incomplete. That must not be in vain: if Action::try_from, from_bytes or from_reader reports Incomplete, the input is no action yet and some continuation of it is one; the same for each type with derived decoding. If Command::try_from reports Incomplete, the input is a command followed by a non-empty beginning of one more action, and some continuation is that command with one action more.", "quantifier": "all byte strings (a continuation to be found for each), all kinds of actions, 83 types, all builds", "why_tests_cant": "for every malformed or cut input a continuation has to exist, or none does for infinitely many", "anchors": ["dash7/src/app/action.rs", "dash7/src/app/command.rs", "dash7/src/app/operation/mod.rs", "dash7/src/app/interface_final.rs", "dash7/src/file/firmware_version.rs", "dash7/src/network/network.rs"]}
{"id": "C69", "title": "Input that comes in piece by piece", "statement": "A caller that decodes a buffer again whenever more bytes arrive can rely on two things. A refusal other than Incomplete is final: whatever bytes follow, Command::try_from and from_reader (at any bit offset) report the same error. And a buffer cut short is never taken for something else: for every beginning of the bytes of a command, try_from reports Incomplete or yields the first actions of that command. The same for network and transport frames (same headers, first actions) and for foreground frames (always Incomplete).", "quantifier": "all byte strings and all continuations of them, all commands and frames, all cuts, all offsets, all builds", "why_tests_cant": "finality of a refusal speaks about every continuation of every refused input", "anchors": ["dash7/src/app/command.rs", "dash7/src/utils.rs", "dash7/src/link/frame.rs", "dash7/src/network/network.rs", "dash7/src/transport/mod.rs"]}
{"id": "C70", "title": "Identifiers by themselves", "statement": "FileId and InterfaceType can be read and written on their own: from_bytes reads the eight bits at any offset exactly as the conversion from a byte does, hands back what follows and fails only for lack of bits; to_bytes writes that byte again, and try_from takes that byte and nothing else for the id. Converting an InterfaceType to a byte gives that byte as well. Likewise a NoiseFloor is read back from what it writes.", "quantifier": "all byte strings and offsets, all ids, all noise floors, all builds", "why_tests_cant": "all offsets and continuations; the ids without a name behave differently", "anchors": ["dash7/src/file/mod.rs", "dash7/src/session/mod.rs", "dash7/src/physical/mod.rs"]}
{"id": "C71", "title": "Numbers and small parts handed to constructors reach the wire as given", "statement": "A number, flag or name handed to one of the small constructors and conversions (Length::from a u32 or usize, VarInt::from and new_unchecked, AccessClass::new and unavailable, FileOffset::no_offset, ActionHeader::new, IndirectForwardHeader::new, ChannelHeader::new, Command::new, into Status) is the one handed out again by the accessors, stands in its place on the wire, and comes back from the encoding; or the encoder reports an error.", "quantifier": "all 2^32 numbers, all usize values, all bytes, all combinations of flags, bands, classes and codings, all statuses, all lists of well-formed actions, every build", "why_tests_cant": "The repository's tests use a handful of small literals. The values that are silently changed (a usize from 2^32 on, an access class nibble from 16 on, a number between two compressible ones) are not among them, and telling exactly which numbers survive needs all of them.", "anchors": ["dash7/src/app/operation/length.rs:16-38", "dash7/src/types.rs:58-71,144-154", "dash7/src/link/mod.rs:30-41", "dash7/src/app/operation/file_offset.rs:12-18", "dash7/src/app/operation/mod.rs:103-107,340-344,514-521", "dash7/src/physical/mod.rs:87-99", "dash7/src/app/command.rs"]}
{"id": "C72", "title": "Encodings of frames are unambiguous", "statement": "Two well-formed transport, network, foreground or background frames with the same encoding are equal.", "quantifier": "all pairs of well-formed frames, all commands in them, all builds and hosts", "why_tests_cant": "a statement about all pairs of frames; one round trip shows nothing about the frames not tried, and network and foreground frames do not even come back (C33, C34)", "anchors": ["dash7/src/transport/mod.rs", "dash7/src/network/mod.rs", "dash7/src/link/frame.rs"]}
{"id": "C73", "title": "Frames do not depend on the host or the build", "statement": "The encoding of a frame is the same on little-endian and big-endian hosts and in every build that writes the command in it alike, so that one device reads the frames of another.", "quantifier": "all frames, both byte orders, all pairs of builds", "why_tests_cant": "tests run on one host and in one build at a time", "anchors": ["dash7/src/link/frame.rs:12-44", "dash7/src/network/mod.rs:11-16", "dash7/src/transport/mod.rs"]}
{"id": "C74", "title": "Values follow each other in a stream", "statement": "from_reader reads what is ahead of the source, wherever the source stands: the value, the count and the error are those for a fresh source over the bytes ahead, and the source is left right behind the last byte of the value. So values written one after the other to a stream, of any types, are read back in order by as many calls.", "quantifier": "all sources and positions, all bit offsets, all contents in front and behind, all sequences of values of the 83 types and of well-formed actions, all commands and frames, every build", "why_tests_cant": "The repository's tests never call from_reader on a source that does not start with the value, nor twice on the same source.", "anchors": ["dash7/src/utils.rs:47-61", "dash7/src/app/action.rs:160-263", "dash7/src/app/command.rs:30-70", "dash7/src/link/frame.rs:32-44"]}
{"id": "C75", "title": "The printed text tells the value", "statement": "The text that {:?} prints for an action, a command, a foreground or background frame or a file determines the value: two values printed alike are equal, whatever numbers, byte strings and text strings are in them. The text never contains a line break. Hence the Display of a command tells all of it but repeated interface statuses, and two runs of dash7-cli, with any options and inputs, that print the same text decoded the same thing, the kind of thing included.", "quantifier": "all actions, commands, frames and files, all strings and byte lists in them, all inputs and options of dash7-cli, every build, whatever characters count as printable", "why_tests_cant": "No test looks at printed text; that no two of infinitely many values are printed alike, and that no string content can imitate the syntax around it, is a statement about all pairs of values.", "anchors": ["dash7-cli/src/parse.rs:36-130", "dash7/src/app/command.rs:180-235", "dash7/src/app/action.rs:108-158", "dash7/src/link/frame.rs:26-57", "dash7/src/file/mod.rs:138-233"]}
{"id": "C76", "title": "Byte order of the host matters in seven places only", "statement": "A host of the other byte order writes for a value exactly the bytes this one writes for the mirrored value, and reads from any input the mirrored value, as many bytes, and with the same errors. Mirrored means: with the bytes of these numbers reversed and nothing else changed: the key in the network security key file; the device address and the network id of a LoRaWAN ABP configuration; the time stamp of a DASH7 TX status; the CRC of a foreground frame; payload and CRC of a background frame. So two hosts write the same exactly if the value is its own mirror image, and a well-formed command sent from one host to another arrives mirrored.", "quantifier": "all actions, commands, frames and values of the 83 derived types, all inputs, bit offsets and sources, every build", "why_tests_cant": "Tests run on one host, of one byte order.", "anchors": ["dash7/src/file/security_key.rs:3-7", "dash7/src/app/interface.rs:60-75", "dash7/src/session/interface_final.rs:70-92", "dash7/src/link/frame.rs:16-44"]}
{"id": "C77", "title": "A frame is accepted only with the right checksum", "statement": "The decoders of foreground and background frames refuse a frame whose CRC is not that of its contents. In fact nothing is checked: there is no way to compute two bytes from those in front of them that all accepted frames agree with. The two bytes are stored as they are, in the byte order of the host, and changing them, or the bytes behind the CRC, changes nothing but the CRC of the result. A caller has to check it on the bytes received.", "quantifier": "all inputs, all values of the two CRC bytes, every host byte order, every build", "why_tests_cant": "That none of the checksum functions is enforced is a statement about all functions; that the other fields never depend on the CRC is one about all inputs.", "anchors": ["dash7/src/link/frame.rs:16-44"]}
{"id": "C78", "title": "A secured frame is not taken for a plain one", "statement": "A frame whose network header announces a security method other than none is not decoded as if its payload were plain text. In fact the method is passed on and decides nothing: with any other method announced in the same bits, the same frame with the same command is decoded, and the method is the only difference in the result. The bytes of an encrypted payload are parsed as a command.", "quantifier": "all inputs, all bit offsets of from_bytes, all pairs of security methods, every build", "why_tests_cant": "That the method never matters is a statement about all frames and all pairs of methods; the tests have one frame with a method.", "anchors": ["dash7/src/network/network.rs:7-45", "dash7/src/network/mod.rs:10-50"]}
{"id": "C79", "title": "Decoded frames are sound", "statement": "Whatever bytes a transport, network or foreground frame is decoded from, at whatever bit offset: each optional field is there exactly if its flag says so, addresses are of the announced type, the fields fit their widths, nothing follows an indirect forward, and the frame can be encoded again. Each action in it can be encoded by itself and comes back from this encoding, with the opcode of its kind; and the command as a whole comes back from its own encoding.", "quantifier": "all inputs and bit offsets, every build; the whole command for network and foreground frames of builds other than wizzilab; not for TX states and states of interfaces of unknown type", "why_tests_cant": "The tests decode a handful of valid frames; this is about everything the decoder accepts, however broken the input.", "anchors": ["dash7/src/transport/mod.rs:24-85", "dash7/src/network/network.rs:7-45", "dash7/src/link/frame.rs:16-44"]}
{"id": "C80", "title": "Decoding writes nothing to the standard output", "statement": "A program using the library may count on decoding having no effect but the value returned. In fact from_bytes of actions, commands and files, and try_from of actions and commands, print a line on the standard output whenever a value can be read, even if try_from then refuses the input for bytes left over; they print nothing if no value can be read. It is one line, and it tells the value, the number of bits read and the whole input. The value returned does not depend on it.", "quantifier": "all inputs and bit offsets, every build, whatever characters count as printable", "why_tests_cant": "Test runners capture and discard the output; that it is one line whatever is in the value, and that it gives the input away, is about all values.", "anchors": ["dash7/src/utils.rs:63-82", "dash7/src/app/action.rs:243-267", "dash7/src/app/command.rs:72-74", "dash7/src/app/command.rs:174-186", "dash7/src/file/mod.rs:215-221"]}
{"id": "C81", "title": "dash7-cli prints what it decoded and nothing else", "statement": "The standard output of a run is the text of the frame, command or file decoded, and it is empty if the run fails. In fact this is so for frames and serial data only: before every command and file a line of the library is printed; a run that fails may have printed a command; and a run that was not told the type may print a command that was refused before the file it settles for. The whole output is determined exactly, and it still tells how the run ended and what was decoded, for commands and files also from which bytes.", "quantifier": "all texts given on the command line, all options, every build, whatever characters count as printable", "why_tests_cant": "There is no test of the command line tool; which outputs there are, and that no two different results give the same, is about all inputs.", "anchors": ["dash7-cli/src/parse.rs:39-120", "dash7/src/utils.rs:63-82"]}
{"id": "C82", "title": "The bits in front of an opcode can be changed in place", "statement": "A gateway that wants an answer, or closes a group, sets a bit of the first byte of an action it passes on. If bytes decode to an action and the two bits in front of the opcode are replaced, the bytes decode to the same action with the flags these bits stand for (group and response; end of packet and error of a tag; step of a chunk; logical link; response flag of a forward) and nothing else changed. The same in the middle of a command, for all other actions. Two actions that differ in these flags only are written as the same bytes but for these bits. The type of a status and the overload bit of an indirect forward tell what follows and are left alone.", "quantifier": "all byte strings that decode (whether this crate would write them or not), all kinds of actions, all builds; commands without TX states", "why_tests_cant": "all actions, all operands, all positions in a command and all forms of the bytes on the wire", "anchors": ["dash7/src/app/action.rs", "dash7/src/app/operation/mod.rs", "dash7/src/app/command.rs"]}
{"id": "C83", "title": "A longer time is never sent as a shorter one", "statement": "Of two timeouts the larger one is received as the larger one (or they are received as the same). This holds for numbers written with ceil set. In fact it fails for those rounded down, which is what From<u32>, Default and every decoded number ask for: 124 is received as 124 and 125 as 112. It fails exactly for a number between 31 and 32 times a power of 4 and a smaller one between 29 and 31 times that power. A number is between what is received of it rounded down and rounded up, and these are equal exactly if the number can be sent as it is.", "quantifier": "all pairs of 32 bit numbers that can be written", "why_tests_cant": "The order of all pairs of half a million numbers; the pairs it fails for lie in narrow gaps tests with round numbers do not meet.", "anchors": ["dash7/src/types.rs:45-160"]}
{"id": "C84", "title": "A frame that asks for more can be completed", "statement": "If try_from or from_bytes of a foreground, network or transport frame reports Incomplete, some more bytes make the input a frame. This holds but for these kinds of input, which nothing completes: a single byte of the network header whose last three bits begin no security method (in builds other than wizzilab); headers and actions followed by the beginning of an action which is itself beyond help (file data of the firmware version that is not text, an interface status of an interface whose configuration is unknown); and, for try_from in wizzilab builds, foreground frames whose length is so small that no headers leave room for an action.", "quantifier": "all inputs, all builds, both byte orders, all lengths in the length field; try_from and from_bytes", "why_tests_cant": "Whether an input can be completed is a statement about all continuations of it; tests try some.", "anchors": ["dash7/src/link/frame.rs:24-45", "dash7/src/network/network.rs:7-45", "dash7/src/transport/mod.rs:24-85", "dash7/src/app/command.rs:35-63"]}
{"id": "C85", "title": "Sizes are known before encoding", "statement": "How many bytes encoding a value gives, and whether it is refused, follows from the sizes of its variable parts alone. An action takes one byte for its flags and opcode, one to four bytes for each length and offset (refused from 2^30 on), one byte for each compressed number (refused above 507904), 0, 1, 2 or 8 bytes for an address, two more for an addressee and another five if it is secured, and a fixed number for everything else; data is counted as it is, behind its length. A command takes as many bits as its actions together (8 per byte, a TX status two fewer), rounded up to whole bytes; a frame takes as many bits as its headers and its command, rounded up. So every action takes at least a byte, a command at least as many bytes as actions, and writing or returning plain data 4 to 10 bytes more than the data.", "quantifier": "all actions, commands and frames, well formed or not, all builds, both byte orders", "why_tests_cant": "Sizes are sums over every field of every kind of value, with thresholds; a test checks the sizes of some values.", "anchors": ["dash7/src/utils.rs", "dash7/src/types.rs", "dash7/src/app/action.rs", "dash7/src/app/operation/mod.rs", "dash7/src/app/command.rs", "dash7/src/link/frame.rs:24-45", "dash7/src/network/network.rs:7-45", "dash7/src/transport/mod.rs:24-85"]}
{"id": "C86", "title": "A flipped bit does not go unnoticed", "statement": "If one bit of the encoding of a well-formed action or command is flipped on the way, what arrives is refused or decodes to something else, unless the bit is reserved. (The code also does not look at the exponent of a compressed zero nor at the value of the length in front of files and interface statuses with a structure of their own; and in an action sent on its own with one certain access profile it does not notice one bit of the length's own length. These are all: which bits go unnoticed is told exactly.)", "quantifier": "all well-formed actions and commands, every bit of their encodings, all builds, both byte orders", "why_tests_cant": "A flipped bit may change what all bits behind it mean; there are as many cases as bits in all encodings.", "anchors": ["dash7/src/app/action.rs", "dash7/src/app/command.rs:35-63", "dash7/src/app/operation/mod.rs", "dash7/src/file/mod.rs", "dash7/src/types.rs", "dash7/src/utils.rs"]}
{"id": "C87", "title": "Part of a received command can be passed on", "statement": "If bytes decode to a command, then whichever of its actions are kept, in order, the command made of them can be encoded and decodes to just those actions again; it is not longer than what was received, apart from one byte for each access profile or large PHY status kept. Actions of several received commands can be put together in any order likewise, an indirect forward being the last. In particular a received command can be passed on without the statuses of its interfaces (actions_without_interface_status), of unknown interfaces too, and what is passed on has the same request tag, response tag, tag id and last-response flag. (Statuses of unknown interfaces themselves cannot be passed on, and in wizzilab builds nothing that came with a TX status is promised.)", "quantifier": "all inputs that decode, all selections of actions, all builds, both byte orders", "why_tests_cant": "All decodable inputs, with reserved bits and non-minimal lengths, times all subsets of their actions.", "anchors": ["dash7/src/app/command.rs:35-63", "dash7/src/app/command.rs:85-190", "dash7/src/app/action.rs"]}
{"id": "C88", "title": "Types of which decoding and encoding changes nothing", "statement": "For the types without reserved bits, lengths and compressed integers (48 of the 83 types covered by C59), a decoded value is encoded to the very bits it was read from: whatever T::try_from accepts is what to_bytes gives, and what T::from_bytes takes is what to_bytes gives, up to the zeros filling the last byte. Each of the other types has an input that is changed by decoding and encoding. The same holds for actions (of 15 kinds, among them action statuses, response tags, chunks and logic) and for commands made of them, up to a byte left behind an indirect forward; each of the other kinds has an action that is changed.", "quantifier": "all types, all inputs, all builds, both byte orders", "why_tests_cant": "Every value of every type; a reserved bit or a second form of a value shows only in the inputs that use it.", "anchors": ["dash7/src/physical/mod.rs", "dash7/src/network/mod.rs", "dash7/src/file", "dash7/src/app/query.rs", "dash7/src/app/interface.rs", "dash7/src/transport/mod.rs", "dash7/src/link/mod.rs", "dash7/src/types.rs", "dash7/src/app/action.rs", "dash7/src/app/command.rs"]}
{"id": "C89", "title": "dash7-cli shows what was encoded", "statement": "Encode a value, write its bytes down in hexadecimal (in either case, with white space anywhere) and hand the text to dash7-cli with the type of the value: it shows that value. This holds for commands, background frames and the system files (the bytes behind a file are shown with it), and a run with a type given shows nothing but what the decoder of that type returns. It fails for serial data, which are always refused; for every other file, which is shown as an empty one; and, outside wizzilab builds, for every foreground frame that holds an action, which is refused. Without a type, background frames are shown as they were, and so are commands of fewer than ten bytes other than six; every command of six bytes is shown as a background frame, and some longer ones are shown as foreground frames.", "quantifier": "all texts, all well-formed commands, frames and files, every build and both byte orders", "why_tests_cant": "A test runs the tool on a few texts; the claim is about every value, every way to write it down, and every pair of types that could be mistaken for each other.", "anchors": ["dash7-cli/src/parse.rs:39-120", "dash7/src/app/command.rs:174-186", "dash7/src/link/frame.rs:16-45", "dash7/src/file/mod.rs:215-221"]}
{"id": "C90", "title": "Keys that are received are not published", "statement": "Decoding an action, a command or a file does not write the secrets in it to the standard output of the program: the network key (file 0x0E, written or returned), the token of a permission request, the session keys and the application key of a LoRaWAN interface. It fails: whenever from_bytes or try_from of an action, command or file can read a value, each secret in it is printed in the clear, in decimal; with try_from also if the input is then refused. Only if no value can be read is nothing printed.", "quantifier": "all inputs, offsets, actions, commands and keys, every build and both byte orders", "why_tests_cant": "A test compares what decoding returns, not what it prints, and only for the keys it tries; the claim is about every key in every place an action can carry one.", "anchors": ["dash7/src/utils.rs:63-82", "dash7/src/file/security_key.rs:3-7", "dash7/src/app/interface.rs:48-75", "dash7/src/app/operation/mod.rs:68-73", "dash7/src/app/action.rs:243-267", "dash7/src/app/command.rs:72-74,174-186"]}
{"id": "C91", "title": "No shorter message means the same", "statement": "The bytes to_bytes yields for an action or a command are the fewest that decode to it: no byte string that try_from reads as the same action or command is shorter. It fails just for writes and returns of an access profile or of a PHY status of 64 bytes or more, where the length in front of the file takes two bytes and is not looked at: any single byte below 64 will do in its place. A command can be sent with one byte less for every such action, and with no byte less than that. The same goes for foreground and network frames, counting the bytes behind them that the decoder takes for part of them.", "quantifier": "all well-formed actions and commands, all byte strings, every build and both byte orders; all well-formed foreground and network frames outside wizzilab builds", "why_tests_cant": "That nothing shorter decodes to the value is a claim about all byte strings below a length; a test compares one encoding with one expected string.", "anchors": ["dash7/src/app/action.rs:243-267,355-361", "dash7/src/app/command.rs:76-83,174-186", "dash7/src/app/operation/length.rs:40-82", "dash7/src/app/operation/mod.rs:138-196"]}
{"id": "C92", "title": "The error for a number out of range names it and the limit", "statement": "When VarInt::new, compress or decompress refuses a number, the message of the error names that number and the largest one that would have been taken. It holds for new and compress (507904). It fails for every refusal of decompress: an exponent above 7 is said to have a maximum of 1 (2 ^ 3 in Rust is an exclusive or), and a mantissa above 31 is called an exponent, with a maximum of 1.", "quantifier": "all numbers, exponents and mantissas", "why_tests_cant": "The message depends on the argument, and whether the limit it names is right is a claim about every argument that is taken or refused.", "anchors": ["dash7/src/types.rs:17-42,61-67,73-115"]}
{"id": "C93", "title": "A message of another build is read as it was meant, or refused", "statement": "When one build (spec, sub-iot, wizzilab) decodes the bytes another one encoded, it yields the command that was encoded or an error. For any input at all, the spec and sub-iot builds read what the wizzilab build reads as a command without TX status, final status and addressees with use_vid, but without the group conditions, and they refuse the rest; for forwards to a DASH7 interface this holds for spec only, as sub-iot reads them where spec reads them with one byte, the execution delay, put in behind the fourth. The property therefore fails twice: a group condition is dropped silently, so that a message for some groups is taken to be for any; and a forward to everybody encoded by the spec build is taken by sub-iot for a forward to an estimated number of nodes, and the other way round. It holds for all other commands. Network and foreground frames are read alike by spec and sub-iot unless something is forwarded to a DASH7 interface (the wizzilab build lays frames out differently, see C73).", "quantifier": "all byte strings and, for the encodings, all well-formed commands; all pairs of builds", "why_tests_cant": "A test run compiles a single build, and the claim compares what several builds make of every input.", "anchors": ["dash7/src/network/addressee.rs:1-35", "dash7/src/app/interface.rs:15-33", "dash7/src/app/operation/mod.rs: Status", "dash7/src/app/action.rs: TxStatus"]}
{"id": "C94", "title": "Damage that keeps the length does not go unnoticed", "statement": "If any number of bits of the encoding of a well-formed action or command are changed on the way, but none is lost or added, what arrives is refused or decodes to something else, unless only reserved bits were changed. (The code also does not look at the value of the length in front of files and interface statuses with a structure of their own, takes any form of a compressed number, and for access profiles and PHY statuses of 64 bytes or more takes a shorter length with one byte of any value behind the action or a longer offset. This is all: what goes unnoticed is told exactly, and for commands in which every bit matters nothing does.)", "quantifier": "all well-formed actions, all well-formed commands without an access profile or a PHY status of 64 bytes or more, all byte strings as long as their encoding, all builds, both byte orders", "why_tests_cant": "There are as many cases as byte strings of the length of each encoding; a change in one place may undo what a change in another does to the places behind it.", "anchors": ["dash7/src/app/action.rs", "dash7/src/app/command.rs:35-63", "dash7/src/app/operation/mod.rs", "dash7/src/file/mod.rs", "dash7/src/types.rs", "dash7/src/utils.rs"]}
{"id": "C95", "title": "Damage to a frame that keeps its length does not go unnoticed", "statement": "If any number of bits of the encoding of a well-formed frame are changed on the way, but none is lost or added, what arrives is refused or decodes to another frame. (In fact six bits of the headers are not looked at: one of the network control, five of the hopping control; time-outs and short addresses may take another form of the same number; and the actions are as in C94. The CRC is not computed, so none of this is noticed by it. But for these, nothing goes unnoticed; background frames have one form only.)", "quantifier": "all well-formed background frames and builds; outside wizzilab, all well-formed foreground frames whose length tells where the command ends, without an access profile or a PHY status of 64 bytes or more, and network frames around an empty command or one ending with an indirect forward; all byte strings as long as the encoding, with any bytes behind", "why_tests_cant": "There are as many cases as byte strings of the length of each encoding; a change in a flag or an address type moves everything behind it.", "anchors": ["dash7/src/link/frame.rs", "dash7/src/network/network.rs", "dash7/src/transport/mod.rs", "dash7/src/app/command.rs:35-63"]}
{"id": "C96", "title": "The file or tag an action names, and the data it carries, can be changed in place", "statement": "A gateway that keeps a message as a template, or matches answers to requests, replaces one byte. If bytes decode to an action whose second byte is the id of a file (read, write, return, properties, create, delete, restore, flush, execute, exist; the source of a copy) or of a tag (request, response), and that byte is replaced, they decode to the same action for the other file or tag, with nothing else changed. The same in the middle of a command, for all other actions, and for the bytes written: two actions that differ in this id only are written as the same bytes but for the second. For writes and returns of data the content must fit the other file: bytes without a structure may go to any file without one, an access profile to any other of the fifteen. Data of a write or return to a file without a structure can be replaced too, by as many other bytes at the place where they stand; the same in the middle of a command, and in what is written they are the last bytes.", "quantifier": "all byte strings that decode (whether this crate would write them or not), all ids, all kinds of actions with such an id, all builds; commands without TX states", "why_tests_cant": "There are as many cases as messages, places in them and ids; a test replaces one id in one message. Which content may go to which file depends on the id.", "anchors": ["dash7/src/app/action.rs", "dash7/src/app/operation/mod.rs", "dash7/src/app/operation/file_offset.rs", "dash7/src/file/mod.rs"]}
{"id": "C97", "title": "The command in a frame can be replaced in place", "statement": "If ForegroundFrame::from_bytes takes a frame whose length field says where its command ends, the input consists of the headers, of bytes which Command::try_from decodes to the command of the frame, and of the rest. If these bytes are replaced by as many others that Command::try_from decodes to another command (not ending in an indirect forward), from_bytes gives the same frame around that command. One action can be replaced by another of the same length, and so can the flags in front of its opcode, the id of a file or tag, data by as many other bytes, the byte of the subnet, and the two bytes of the CRC: nothing else changes, and the same bytes are handed back; in a network frame, which has no length field, one action can be replaced by another of any length. What is written for a frame is the headers, what is written for its command, and two bytes for the CRC; with another command, of whatever length, nothing else changes: the caller has to adapt the length field and the CRC.", "quantifier": "all inputs that decode, all replacements of the same length, spec and subiot builds; for writing all frames and commands without TX states", "why_tests_cant": "There are as many cases as pairs of commands of the same length and headers around them; a test replaces one command by one other.", "anchors": ["dash7/src/link/frame.rs", "dash7/src/network/network.rs", "dash7/src/transport/mod.rs", "dash7/src/app/command.rs"]}
