# Formal model of dash7-rs in Lean 4

Source: `/repo` (vhdirk/dash7-rs), read as text.  Everything below `lean/Verif/` is Lean 4.33.0;
no project axioms, no `sorry`, no `native_decide`/`bv_decide`.

## 1. Trusted base

* Lean's kernel and the three standard axioms `propext`, `Classical.choice`, `Quot.sound`
  (each property file ends with `#print axioms` for its theorems).
* The reading of the Rust source by the author of the model (each definition cites file and lines).
* The semantics of the `deku` 0.18.1 derive macros and of its `Reader`/`Writer`.  The deku source is
  **not** part of `/repo`; the model follows its documentation.  Where the documentation leaves
  room, the behaviour is a *parameter* of the model (`Cfg`) and theorems are proved for every value:
  - `endCounts`: whether the look-ahead in `Reader::end()` is added to `bits_read`;
  - `seekClears`: whether seeking a `Reader` drops its left-over bits;
  - `unitPatConsumes`: whether a unit `id_pat` variant consumes the id it matched.
  Fixed choices: bit order is MSB first; `bits = n` on write keeps the low `n` bits silently; a field without
  `endian` attribute uses the host byte order (`Cfg.bigEndianHost`); `cond` affects reading only;
  a ctx-`id` enum writes no id; an `id_pat` variant whose first field is the id writes just its fields;
  derived `TryFrom` compares `bits_read / 8` with the input length; derived `from_bytes` slices at `bits_read / 8`;
  an enum whose id comes from the context (`File`, `InterfaceStatus`, `InterfaceFinalStatus`, `InterfaceTxStatus`)
  reads the fields of its `id_pat` variant at the current position, there being no id to go back to;
  an integer asked for more bits than its type has is a `Parse` error on reading, an `InvalidParam` error on writing.
  the first field of an `id_pat` variant with the type of the id (`Unknown(u8)`) gets the id just read;
  C48 (sub-byte fields do not spill) rests on the choice that `bits = n` truncates on write.
* Rust standard library: `String::from_utf8` = Lean's UTF-8 validation, `Cursor` seeking, `hex::decode`;
  `core::fmt` as derived `Debug` uses it (which characters `char::escape_debug` leaves alone is a parameter).

## 2. What is modelled

* `dash7/src/{utils,types}.rs`, `app/{action,command,query,interface,interface_final}.rs`,
  `app/operation/*.rs`, `session/*.rs`, `network/*.rs`, `physical/mod.rs`, `link/*.rs`, `data/mod.rs`,
  `transport/mod.rs`, `file/*.rs`, `dash7-cli/src/parse.rs`.
* The three feature builds are one model with a parameter `Cfg.variant` (`spec`, `subiot`, `wizzilab`).
  Fields which exist only in some builds are always present in the Lean structures and are required to hold
  their default in builds that lack them.
* The `println!` in `from_bytes` is left out of the functions most theorems speak of; `Model/Output.lean` has the
  functions that print once more, with their output, and C80 and C81 show that they return the same.
* Machine integers are `BitVec w`, arrays are `Vector`, `Vec` is `List`, `String` is Lean `String`.
* A panic is an error value (`Fault.panic`).

Not modelled: `{:#?}` and other formatting flags; the contents of error messages other than those of `VarIntError`; memory consumption (deku may reserve `count` elements up front); the standard error;
`no_std` build; clap argument parsing; feature `subiot_v0_0` (does not compile);
the derived `update` of `TxStatusOperation` (its `status_type` has a single variant, so it changes nothing).
The kinds of deku errors are kept, but `Assertion` (raised only by `parse_serial`) is not told from `Parse`.

## 3. Shape of the model

* `P α` — a bit parser as a tree (`pure`, `fail`, `bits n k`): what a derive-generated reader does.
  It has two interpretations: `P.eval` on a list of bits, and `P.run` on a concrete deku `Reader` state
  (byte cursor, left-over bits, `bits_read`).  A theorem proves that they agree.
* `R α` — computations on the concrete reader (needed for `seek_relative`, `end`, `stream_position`):
  `Action`, `Command`, the frames.
* `W` — writers: `Except Err (List Bool)`, packed into bytes by `finalize`.
* Readers and writers are transcribed independently of each other from the attributes in the source.

Directory layout: `Verif/Bits`, `Verif/Deku` (model of deku), `Verif/Model/*` (model of the crate),
`Verif/Spec/*` (well-formedness and wire-format specification, independent of the model functions),
`Verif/Lemmas/*` (proofs), `Verif/Props/*` (one theorem or more per property with examples).

The specification files do not mention the readers or writers:

* `Spec/WF.lean` — which values can be told apart on the wire (well-formed values), per type;
* `Spec/Wire.lean`, `Spec/Layout.lean` — the bytes of every action, as a list of fields;
* `Spec/Accept.lean` — the grammar of byte strings a decoder takes, and the value each stands for;
* `Spec/Frames.lean`, `Spec/FrameLayout.lean`, `Spec/FrameAccept.lean` — the same for network, transport,
  foreground and background frames;
* `Spec/Offset.lean` — what is taken for actions, commands and frames from any bit position on.

## 4. Plan per property

| id | model | proof |
|----|-------|-------|
| C01 | `Command` reader loop on `R`, writer | link `R` to bit lists; per-type round trip lemmas; induction on actions |
| C02 | `Action` dispatch | per-type round trip; bit counting for the trailing-data check |
| C03 | same | post-conditions of every reader (decoded values are well-formed, size of re-encoding); exceptions are proved as negations |
| C04 | same | measure: remaining bits drop by 8 per action; no `panic` fault reachable |
| C05 | same | list induction; for inputs of any origin from the exact account of what is read and refused (C58, C50), whose relations compose |
| C06 | `P` | generic induction over parser trees + action dispatch |
| C07 | `P` | generic induction over parser trees |
| C08, C09 | `Length` | arithmetic on size classes |
| C10–C13 | `VarInt` on 32-bit words | arithmetic; the error-variant mix-up is proved as a negation |
| C14, C15 | `Action` | case analysis on opcodes |
| C16 | `Command` | invariant of the loop; the shortest beginning that decodes to the command (`C16_behind`) |
| C17, C45 | `Command` accessors and `Display` | list lemmas |
| C18, C19 | `pad_rest`, `from_bytes` | exact accounting of `bits_read`; negations with witnesses plus exact characterisation |
| C20–C23 | `File`, `FileId`, `FileData` | per-type lemmas |
| C24, C25 | interface status | per-type lemmas, negations for unknown interfaces / ignored length |
| C26–C28 | `Addressee`, `Query`, `update` | per-type lemmas, negation for token search without mask |
| C29 | `read_string`/`write_string` | list/UTF-8 lemmas |
| C30 | `PhyStatus` | round trip iff at most 255 entries |
| C31 | `BackgroundFrame` | bijection between frames and 6-byte strings |
| C32 | `Cfg.bigEndianHost` | equality for commands without the host-endian types; negation otherwise |
| C33, C34 | `transport::Frame`, `ForegroundFrame` | negations with witnesses; round trip through the reader |
| C35 | `StatusCode` | exact characterisation, negation at 0x80 |
| C36 | `from_bytes`, `pad_rest` | panic condition characterised |
| C37 | `read_array` with an explicit heap of slots | negation and exact set of slots dropped |
| C38, C39 | `dash7-cli` | list lemmas |
| C40, C48 | all padded / sub-byte fields | per-type lemmas: reserved bits are written as zero and ignored on reading |
| C41 | `TxStatusOperation` | negation in full generality: no TX status is ever read back; the operation alone is |
| C42 | `Cfg.variant` | equality of writers under "no build-specific field" |
| C43 | decoder | measure argument |
| C44 | encoder | from round trip with arbitrary continuation |
| C46, C47, C49 | as above | per-type lemmas |
| C50 | `Command` loop, frames, against `Spec/Spoil` | the loop is followed from any bit position (`Lemmas/Spoil`): it fails exactly if one more action is due and is refused, with its error |
| C51 | writers against `Spec/Layout` | one lemma per operand; the writer makes exactly the rows of the table |
| C52, C33, C34 | frames | the control fields of network (9 bits outside wizzilab) and transport frames (7 bits) leave the reader off a byte boundary; `Lemmas/Shift` follows the reader through the shifted command and gives the exact set of frames that come back; `Lemmas/Late` does so for foreground frames, whose command has a CRC behind it, from C58 |
| C53 | `derivedTryFrom`, `derivedFromBytes` | safety of the readers; negation for `from_bytes`, and the exact condition for its panics by the description of C58 |
| C54, C55 | decoder against `Spec/Accept` | `Fits p F`: reader `p` takes exactly the strings of grammar `F`, both directions, per type (`Lemmas/Accept*`), then the loop |
| C56 | frame writers against `Spec/FrameLayout` | as C51 |
| C57 | frame readers against `Spec/FrameAccept` | as C54, with the byte limit of the foreground frame (`Lemmas/Limit*`) |
| C58 | all hand-written readers at any bit position, against `Spec/Offset` (reading as a relation on the string of bits left) | every reader is shown to be described by such a relation (`Takes`, `Lemmas/Offset`); the entry points follow from it once for all |
| C59, C60 | derived `from_bytes`, `try_from`, `to_bytes` of 83 types, one `Item` each (`Model/Items`), against `Spec/Items` | `Item.fits` and `Item.post` collect the lemmas per type; the entry points follow once for all types |
| C61 | `Action`, `Command`: `to_bytes` followed by `try_from`, against `Spec/WF` | one direction is C01/C02; the other: what was written is, by C54/C55/C58, also the wire form of the value read, and two wire forms of one action with the same beginning differ only in what `WF` excludes (`Lemmas/Survive`); a reader that got ahead of the writer, even by part of a byte, stays ahead (`Lemmas/Ahead`) |
| C62 | `Default` of 66 types, of the operands, commands and frames (`Model/Default`) | finitely many values in finitely many builds: the kernel evaluates all of them (`Lemmas/Default`, `Cfg.all` with `Cfg.mem_all`); actions via C61 |
| C63 | `new`, `into` of operands and statuses | C61 for the made actions; panics by evaluation |
| C64 | `Display` of `InterfaceStatus` and `Dash7InterfaceStatus`, derived `Debug` of the types shown | every printed value ends before a character no word contains; texts are taken apart from the left |
| C65 | `File::from_bytes` | the entry points of a derived reader are functions of the bits given (`P.entry`); C54's grammar for the content |
| C66 | the constants of `SystemFile` | C65 and C21; sizes by evaluation |
| C67 | derived `from_bytes`, `try_from` of 83 types | `P.entry`, no derived reader raises anything but `Parse` |
| C68 | all decoders of actions, commands and 83 types | `Hope`: a reader at a given position in the byte can be completed from wherever a byte ends; composed field by field. The exceptions (`Spec.Hopeless`, for commands `Spec.LostCommand`) are exact: nothing completes them |
| C69 | `Command.tryFrom`, `fromReader`, `tryFrom` of foreground, network and transport frames | `R.Grows`: with more input a reader does the same, or had come to the end and yields more of the same; `R.Counts`: limits 0 count at least what was read |
| C70 | `FileId`, `InterfaceType`, `NoiseFloor` (`Model/Ids.lean`): reader that may step back behind the id of a unit `id_pat` variant | closed forms of `from_bytes` and `try_from`; ids by going through all bytes |
| C71 | small constructors and conversions | closed forms of the bytes; C08–C13 for the numbers, C63 for statuses |
| C72 | `to_bytes` of the four frames | the frames' readers run on the unpadded bits give the frame back (C13, C33 at bit level), whatever the entry points do afterwards |
| C73 | `to_bytes` of the four frames under two configurations | fields written in host order are the only ones that differ; the wizzilab control field is one bit shorter, the rest is the same by C32/C35 |
| C74 | `from_reader` on a source (bytes and place) that is used again, `Model/Stream` | a relation between readers over the data and over the data from a byte on (`R.Behind`), kept by everything but the length limit; positions from the exact theorems of C58/C59. Where the source stands after an error is not modelled |
| C75 | derived `Debug` of every type reachable from commands, frames and files, the CLI's output, `Model/Debug` | texts as trees; a tree's text is followed by a character that cannot continue it, so texts are taken apart from the left; injectivity of each type's tree |
| C76 | all readers and writers with `bigEndianHost` flipped; `Spec/Mirror` reverses the numbers without fixed byte order | parser trees that differ in such numbers only, through the entry points; writers compared part by part |
| C77 | `try_from` of the frames; `Spec.hostPair` is two bytes as a number of the host | not so: no check exists, proved against every function from the preceding bytes; the grammar of C57 with the last two bytes replaced; in wizzilab builds the description of C58, in which no action looks behind its own bytes if seeking drops the bits kept back |
| C78 | `try_from` and `from_bytes` of network frames, `try_from` of foreground frames; `Spec.announcing` exchanges the bits of the method in the input, `Spec.withMethod` the method in the frame | not so: concrete frames announcing AES-CCM are decoded as commands; the exact grammar of C58 with the method bits replaced |
| C79 | decoders and encoders of the frames; `WF` of the headers says flags and fields agree; `Spec.soundCommand` is about encoding and decoding each action | from the exact grammars of C57 and C58 and the characterisation of values that come back (C61); opcode fields of transport frames refuted by a witness |
| C80 | `from_bytes` and `try_from` with the text they print (`Model/Output.lean`); `Spec.trace` is the line spelled out | not so: exact text by unfolding; a refused input as witness; injectivity from the grammar of `{:?}` (C75) |
| C81 | all of `dash7-cli parse` with the text it prints; `Spec.shown` is what it should print | not so: the output is worked out case by case; three kinds of excess shown; injectivity by taking off line after line |
| C82 | readers and writers of actions, commands | the grammar of accepted input (C54, C55) and the byte layout (C51), kind by kind; `Spec.retag` says what the two bits in front of the opcode stand for |
| C83 | `VarInt` read and write | the smallest exponent that will do is monotone in the number; rounding up from C11 (least number not below), rounding down by comparing exponents |
| C84 | frame readers | errors of the readers located with the form lemmas of C57 and the loop lemma `Command.loop_cut`; headers completed field by field (`Hope`), actions as for C68, the rest by an indirect forward, the CRC and the bytes that get lost; where the reader stands within a byte (transport frames, wizzilab), the same with the bit-level characterisation of C58 (`Lemmas/Close.lean`: what to append so that the command ends, whatever follows) |
| C85 | encoders of actions, commands and frames | sizes of the byte layout (C51) and of the rows of bits (C56), part by part; the table of sizes is `Spec/Size.lean` |
| C86 | decoders of actions and commands | the grammar of accepted inputs (C54, C55): each form is tight (no shorter input gives the value) and changes of one bit are followed through it part by part; the bits not looked at are listed in `Spec/Ignored.lean`. Violated beyond the reserved bits: ignored lengths, the exponent of zero, and for files of 64 bytes or more a bit of the length's selector. These files are treated apart (`Props/FlipLarge.lean`): their length being longer than it need be for a shorter file, the form is not tight, and the ways in which the parts may shift are gone through; in a command (`Props/FlipAll.lean`) the actions in front are read as before, and those behind can be read neither later (there would not be enough bytes) nor one byte earlier (the byte left over, `0x10`, would begin a query for a file that ends in `0x10` itself, and so on to the end of the command) |
| C87 | `Command.tryFrom`, `Command.toBytes`, the accessors | every decoded action but statuses of unknown interfaces is well formed (C03), an indirect forward stays last in every selection, so C01 applies; lengths from the count of the bits each action was read from; the first tag of the selection is the first tag of the whole. Violated for TX statuses (wizzilab) |
| C88 | the readers and writers of all types of C59 | the grammar of C59 has one form for each value of these types (`Rigid`), what is written is a form (C60), hence the one that was read; for each of the other types an input evaluated in all 48 configurations |
| C89 | `Cli.main` with and without a type | the hexadecimal texts of C38, the round trips of C01, C31, C34 and C65; without a type, the order of C39 and a lower bound of ten bytes for foreground frames, from the grammar of C58; a command taken for a foreground frame evaluated in all 48 configurations |
| C90 | `fromBytesOut` and the functions on it (`Model/Output.lean`), the texts of `Model/Debug.lean` | the output of C80 is the text of the value between two others; a field is written inside its struct, tuple or list, so the secret is found in the text of the action by induction on the text |
| C91 | `Action.tryFrom`, `Command.tryFrom`, `toBytes` | by C54 and C55 what decodes to a value has the form of it; the forms of C86 are no shorter than the encoding, but for the length of a large file, which one byte can stand for; for frames through C57 and the lengths of the marks of C95 |
| C92 | `VarIntError.message` (`Model/Messages.lean`), `VarInt` | the limits of C12 and C13 beside the text of the error; the numbers in a text are determined by it (`Spec.names_unique`) |
| C93 | readers of all three builds | through the grammar of C54 and C55: the forms of the builds differ in the addressee byte, the execution delay and the kinds of status; a form of one build is put in terms of the other (`Form.action_elsewhere`, `Form.forward_with`) |
| C94 | decoders of actions and commands | as C86 for any number of bits: each form of the grammar is shown to be taken by exactly the bit strings of its least length that agree in the bits marked in `Spec/Alike.lean`, where the eight bits of a compressed number count as the number; for actions with a file of 64 bytes or more (`Props/AlikeLarge.lean`) the parts of the grammar and their lengths leave just three ways |
| C95 | decoders of foreground, network and background frames | the marks of C94 for the headers (`Spec/AlikeFrame.lean`), put together with C57 by a notion of form on bytes in which what follows may depend on the position reached, as the limit of the command does |
| C96 | readers and writers of actions, commands | as C82, for the second byte: the grammar of accepted input (C54, C55) and the byte layout (C51), kind by kind; in a command the bytes of one action are exchanged (`Command.exchange`) |
| C97 | readers and writers of foreground frames, commands | partial: from the grammars of frames and commands (C57, C55) and the bits of the writers; bytes behind the frame are lost with each action (C34), negation proved |

What came out (exact theorem names in `MANIFEST.json`): a property is `proved` when its statement in
`properties.jsonl` holds as it stands, `partial` when the code violates it or when a part is missing.  In the first
case there is a theorem `..._violates` with a witness, proved for every build it applies to, next to the strongest
statement that does hold.  The notes in `MANIFEST.json` say which.

## 5. Testing the theorems against wrong programs

`seeded/LOG.jsonl` has one line per attempt: a definition of the model edited the way a bug would (swapped fields,
wrong width, missing case, off by one, wrong order, ...) in a copy outside `/verif`, the claim the edit breaks, the
theorems whose files no longer build, and what was tightened where a claim had survived.  An edit of a reader or a
writer is expected to break at least the round trip (C01, C02) and the byte-level theorems (C51, C54); edits of
functions outside the codec (accessors, `Display`, command line, `read_array`, frames) their own properties.

## 6. Testing the model against the repository's own tests

`lean/Verif/Vectors.lean` repeats every `#[test]` of the crate and the command line shown in `README.md` with the
model in place of the code, for every configuration of the build the test belongs to.  They are evaluated by the
kernel.  They are tests of the model, not properties, and no claim counts them.  All pass, in every setting of the
open deku behaviours, so the tests of the repository do not settle any of these either.  The two tests behind
`subiot_v0_0` are left out: that feature does not compile.
