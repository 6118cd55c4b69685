# Formal model of cesbo/libmpegts in Lean 4

## What this is

`lean/Verif/Model/*.lean` is a function-by-function model of the crate in `/repo/src`.  Every definition cites
the file and lines it models.  `lean/Verif/Spec/*.lean` is a small specification written without reference to the
model (big-endian numbers, ISO 13818-1 header and section layouts, the bitwise CRC, decimal digits, ...).
`lean/Verif/Lemmas/*.lean` are helper lemmas.  `lean/Verif/Props/*.lean` state and prove the properties of
`properties.jsonl`; theorem names start with the property id.  `lean/Verif/Tests/*.lean` run the repository's own test vectors
on the model (fidelity checks, not proofs).

## How Rust is modelled

* Fixed-width integers are `UInt8/16/32/64`; `usize` is `Nat` with explicit underflow on subtraction.
* `Vec<u8>`/`&[u8]` are `List UInt8`; `&mut` parameters are returned as new values.
* A result is `R a = Except Fault a`.  `Fault.panic` is a Rust panic (index out of bounds, explicit assert, arithmetic overflow
  in a debug build, division by zero), `Fault.diverge` an exhausted loop bound, `Fault.ub` undefined behaviour.
* Every function whose behaviour depends on the Cargo profile takes `p : Profile` (`debug`: overflow checks and
  `debug_assert!` on; `release`: both off, arithmetic wraps).  Theorems quantify over `p` unless they say otherwise.
* Loops are structural recursions, or recursions with a fuel argument.  Theorems that conclude `.ok` prove that the fuel the
  model passes is sufficient, i.e. that the loop terminates.
* `psi_list` with `last_mut()` is the pair (finished sections, current section).
* `dyn Desc` is an inductive type with one constructor per implementation in the crate.
* The `io::Read` behind a reader is a byte list plus an arbitrary schedule of short reads, `Ok(0)`s and errors.

## What is modelled

| file in `/repo/src` | model | how completely |
|---|---|---|
| `bits.rs` | `Model/Bits` | `set_bits!` as a function on word layouts |
| `bytes.rs` | `Model/Bytes` | all methods |
| `constants.rs` | `Model/Constants` | all constants, `get_stream_type` |
| `ts/mod.rs`, `ts/pcr.rs`, `ts/debug.rs` | `Model/Ts`, `Model/Pcr`, `Model/Debug` | all functions and constants; the text of `Debug` is in `Model/DebugText` |
| `es/pes.rs` | `Model/Pes` | all functions and constants (`es/mod.rs`: `StreamType` in `Model/Constants`) |
| `psi/mod.rs` | `Model/Psi` | `Psi`, `mux`, `demux`, `finalize`, `check`, `eq`, `PsiDemux` |
| `psi/{pat,pmt,nit,sdt,eit,tdt,tot}.rs` | `Model/Pat` ... `Model/Tdt` | all functions, `From<&Psi>`, `Default` |
| `psi/descriptors/*.rs` | `Model/Desc` | all fifteen kinds, `Descriptor`, `Descriptors` (including `len`, `get`, `push`, `iter`, `clone`, `downcast_ref`) |
| `psi/utils/*.rs` | `Model/Bcd`, `Model/Crc32` | all functions, the CRC table in full |
| `textcode/*.rs` | `Model/Text`, `Model/TextEq`, `Model/TextData`, `Model/Lang` | all functions, the code page tables and the language table in full |
| `reader/*.rs` | `Model/Reader`, `Model/ReaderBox` | `TsReader::read`, `TsDrain::new/read` over an arbitrary source; `TsReader::new/get_ref/get_mut/into_inner` |
| `mux/cbr/mod.rs` | `Model/Cbr` | all functions (the file is unfinished, and `lib.rs` does not declare the module) |
| `../tools/iso8859-parser.rs` | `Model/Tool` | `main`, `read_file`; the directory is a list of names and texts in any order, files that are not UTF-8 or cannot be read are left out |

## Not modelled

* Functions that only return or wrap a field (`TsReader::new/get_ref/get_mut/into_inner`,
  `From` for `Descriptor`, `StreamType::default`) and `TsReader::parse`, whose only statement computes an unused PID: the field is used
  directly.
* The quoting of strings in `Debug` output (a parameter of `Model/DebugText`; the rest of the text is modelled), formatting flags other than `#`, `io::Error` contents, allocation failure, capacity.
* The state of an object after one of its methods has panicked (seen only with `catch_unwind`).
* Descriptors of the user's own whose methods have effects besides their results, or state sizes whose sum reaches 2^64.
* The standard library's `String::from_utf8_lossy`, UTF-8 encoding and `ToString` are modelled from their documentation.
* Undefined behaviour outside the crate's `unsafe` blocks.  `char::from_u32_unchecked` is modelled with `Fault.ub` for values that
  are not characters; the uninitialised buffers of `TsDrain::new` and `Block::new` as arbitrary initial contents.

## Trusted base

* Lean 4.33.0's kernel.  Every theorem depends on at most the axioms `propext`, `Classical.choice` and `Quot.sound` (checked with
  `#print axioms`); no axiom is declared, and neither `sorry` nor `native_decide` nor `bv_decide` is used.  `decide +kernel` is evaluated by
  the kernel.  In property theorems it is used on closed facts (all entries of a table, all bytes, constants) and on the witnesses of
  the refutations of C67; uses on sample values are `example`s, which only show that hypotheses can be met.  Besides the `example`s beside
  the theorems, `Examples/*.lean` applies every theorem that has hypotheses to concrete values that meet them.
* The reading of the Rust source into the model (checked against the repository's test vectors in `Tests/Fidelity.lean`).
* The specification files `Spec/*.lean`, which are read from ISO 13818-1, EN 300 468, ISO 8859, ISO 639 and the crate's documentation.

## Specification files

`Bytes` (big-endian numbers), `Packet` (header, packetisation), `Clock` (PCR/PTS fields), `Crc` (bitwise CRC), `Bcd`, `CodePage` and `Text`
(code pages, lossy UTF-8), `Utf8` (how ill-formed UTF-8 is read), `ForeignText` (accents, control codes and selectors of EN 300 468 annex A), `Iso639`, `Section` (section header, CRC), `Descriptor` (one encoder per kind), `Tables` (one encoder per table,
`Packed`: how entries are distributed over sections), `Oversize` (`Spread`: the same with entries too large for a section), `Schedule` (EIT segments), `ScheduleAny` (the same without limits on sections and days), `SharedPid` (tables of all kinds on one PID), `Own` (descriptors of the user's own types), `Discover` (from the PAT to the PMTs), `Multiplex` (tables on several PIDs), `ReadBack` (a descriptor list assembled and parsed again), `WidePacket` (packets for a PID wider than 13 bits), `Sendable` (the numbers a debug build refuses to send), `Sends` (what a call that sends a table does, and the header fields of a section), `Spill` (layouts whose lengths do not fit in 12 bits), `StreamType`, `Delivery` (delivery system codes), `Feed` and
`Listen` (packet streams seen by a receiver), `Loss` (lost and repeated packets), `Reader` and `Drain` (byte streams with arbitrary
chunking), `Cbr` (the clock of a packet stream).

## Testing the theorems

`seeded/LOG.jsonl` records edits of the model, made in a copy outside `/verif`: a generator changes one comparison, constant, operator,
argument or statement of a model definition at a time, the copy is rebuilt, and the theorems that stop proving are recorded (the build is
stopped at the first module that fails, so the list need not be complete).  The selection is random; the log has one line per
edit tried that still type-checks as a definition.  A proof that stops working shows that the edit is noticed, not by itself that the
statement has become false.  Edits that no theorem notices are inspected: either the edit does not change behaviour (noted as
equivalent), or a theorem is tightened or added (noted under `tightened`).

## Plan per property

| id | modelled | proof |
|----|----------|-------|
| C01 | `Bytes` methods | byte-level computation lemmas, Nat arithmetic of big-endian values |
| C02-C05 | `ts` header accessors | bit extensionality on bytes, exact post-states; C05 has refutations (overflow, documented 0 never returned) |
| C06-C11 | `ts::pcr` | Nat arithmetic of the bit fields; C08, C10: wrap case is off by one, refuted and `_partial` |
| C12-C14 | `es::pes` | as C06; C14 wrap off by one |
| C15 | constants | computation over the whole constant |
| C16-C18 | `crc32b` | table = bitwise step (all 256 entries, kernel computation), induction over the message; linearity; invertibility of the zero-byte step for burst detection |
| C19-C22 | `BCD`, `BCDTime`, `MJD` | digit arithmetic; C21 overflow refuted |
| C23-C30 | `StringDVB` | case analysis on codepage; table facts by kernel computation over whole tables; induction over strings; C28: all table entries are scalars; C30 loop invariant |
| C31 | `lang::convert` | kernel computation over the whole table lifted to all strings |
| C32-C39 | descriptors | independent wire encoders in `Spec/Descriptor.lean`; assemble = encoder; parse (encoder d) = d; loop induction; C38/C39 refuted by witnesses, `_partial` for what holds |
| C40-C48, C77-C79 | `Psi::mux/demux` | packet list spec `packetize`; demux = packetize by loop invariant; mux as state machine, induction over packets |
| C49-C52 | `Psi::new/finalize/check/eq` | section spec plus C16/C17 |
| C53-C68 | tables | independent section encoders in `Spec/Tables.lean`; assemble = encoder; parse loop inverse of encoder; composition with C41; C59, C60: `Spec/Schedule.lean` |
| C69 | `get_stream_type` | case analysis |
| C70-C74, C76, C82 | `TsReader`, `TsDrain` | independent packet-splitting function on the whole stream; induction over fuel/schedule |
| C75 | `ts::debug` | direct |
| C80 | `Display` of texts | tables against `Spec/CodePage.lean`; UTF-8 against the relation `Spec/Utf8.lean` (well-formed characters, maximal ill-formed pieces), which is shown to be functional |
| C81, C95, C97 | descriptor `parse`, `check`, relaying | decoding the spec's encoders for all field values; composition with C32 |
| C83-C86 | `Psi::mux` | loss, repetition and splitting of packets as operations on packet lists; state machine of C40-C48 |
| C87-C90 | `set_bits!`, oversize descriptors, constants, containers | arithmetic of bit fields; list lemmas |
| C100 | EIT schedules without the limits of C59/C60 (`Spec/ScheduleAny.lean`) | induction over the events: the sections are those of the placement with counts modulo 256, or the debug profile panics exactly if a count overflows; then the received events, uniqueness and the refutations follow from the placement |
| C101 | `Psi::demux` and all tables with any PID, counter and buffer (`Spec/WidePacket.lean`) | the loop invariant of C40 with the header of a wide PID; panics by case analysis of the loop step and induction; tables: the two runs (given and masked arguments) side by side |
| C102 | the build profile as a parameter of every operation | a relation (panic or equal) closed under bind, if and map, followed through each definition; loops by induction |
| C103 | `demux` of every table with any content (`Spec/Sendable.lean`: the numbers a debug build refuses) | a predicate "panics in debug iff bad, else has a value with P" closed under bind, followed through every encoder; loops by induction; schedules: by C110 |
| C104 | `BCD`, `BCDTime`, `MJD` for every argument | exact panic conditions by composing the byte case (all 256 values, kernel computation); release values by arithmetic; numbers that wrap to fewer digits refute the refusal |
| C105 | sections of any size (`Spec/Spill.lean`) | `finalize` of any section under construction as the or of its fields (bitwise equality); then the greedy distribution of C98 without its size bounds, for each table; a part that is too large is alone in its section, whose 12-bit length is computed; schedules: with the sections of C110 |
| C106 | `parse` of the sections of every table with any well-formed descriptors (`Spec/ReadBack.lean`) | the round trips of C56-C62 with the descriptor lists replaced by what parsing them gives: the loop over the sections in the panic monad; C36: element-wise parse, and the exact bytes of a list with an extended event that has items |
| C107 | `demux` of lists of tables of all kinds, `check`/`parse` of every object on all sections (`Spec/SharedPid.lean`) | each table is sent as sections with its ids; an object makes its collecting step of its own and ignores the others (C65); induction over the list |
| C108 | PAT, PMT and reader together (`Spec/Discover.lean`) | composition of C53, C76 and C107: the packets of each PID filtered out of the stream, induction over the programs |
| C109 | tables on several PIDs, `*_PID`, reader (`Spec/Multiplex.lean`) | the packets of a PID filtered out of the stream are the sections of its tables (induction), then C76 and C107 |
| C110 | every encoder with arbitrary values (`Spec/AnyValue.lean`) | bit fields as an or of shifted values, by bitwise equality; loops over the entries with the counted and the real size apart; schedules: the proof of C100 with limits modulo 2^64 and without its ranges |
| C111 | `parse` and `mux` on sections of any sender (`Spec/Foreign.lean`: all bits a sender may choose) | the fields of a completed section by position, entries by induction over the loop, sequences of sections by C106's induction over streams |
| C112 | the same, with current_next_indicator 0 | corollary of C111: refuted |
| C113 | `Psi::mux` on packets with other header bits | congruence of `mux` in what it reads; bit masks by arithmetic |
| C114 | `Eit::parse` on events with an undefined start time | the loop of C111 with another entry layout: refuted, with the exact effect in both profiles |
| C115 | `From<&[u8]>`, `Display`, `from_str` on texts written as EN 300 468 annex A says | `Spec/ForeignText.lean` (glyphs, control codes, selectors); exact display by C80, refuted with the exact condition under which it is right |
| C116 | the clock functions on all 64-bit values | arithmetic modulo 2^64, `omega` |
| C117 | `to_bcd`, `from_bcd`, `from_mjd` on all values | digits (`bcd`, `unbcd`), `omega` |
| C118 | the `Debug` text of all tables and descriptors, with the writers of the Rust library (`debug_struct`, `PadAdapter`) | the text equals a layout given by lines (`Spec/DebugText`), composed value by value; exact panic condition |
| C119 | the generator of the code page tables, on directories of Unicode's mapping files | `Spec/Mapping.lean` (format of the files, text of a Rust table); induction over lines, commutation of insertions for the sort, positional digits; `Spec/MappingAny.lean` gives the result for any directory and any text (`C119_any`): words split at white space, parts in buckets |
| C120 | every call returns or panics, for every modelled function; when `split` runs forever | `Spec/Ends.lean` (`Ends`); a type class `End` closed under bind, if and match, induction for each loop (`Lemmas/Ends.lean`, `Lemmas/EndsText.lean`); exact characterisation for `split` from C30, for any bytes marked as UTF-8 in terms of `Spec/Utf8Bytes.lean` (`Stuck`, `Stumbles`) |
| C121 | sections of any sender one behind the other, a packet with pointer_field given twice | `Spec/PackedStream.lean`: `Packing` (an inductive description of all layouts), `receivePacked` (the loop); induction over the layout (`Lemmas/PackedStream.lean`); that parsers ignore what follows a section in the buffer (`parse_more`) |
| C122 | from the bytes of a source to the tables of any sender, and following the PAT | `Spec/ListenPacked.lean` (`listenPacked`, `CarriesSections`, `discoverPacked`); composition of C71, C121 and C111 |
| C123 | a receiver written from the standard alone gets the sections and entries of every table sent | `Spec/Receiver.lean` (`cut`, `Reception`, `sectionsIn`); induction over the layout of C121, of which the packets of the crate are an instance; then the wire theorems C54 to C62 in terms of `Spec/Foreign.lean` |
| C124 | any descriptor bytes are read as the values at the bit positions of the syntax tables, or kept as bytes | `Spec/Reading.lean` (`bitsAt`, `decode`, `descriptors`): bit positions only, no masks; each kind by decomposing the model's parse, item lists by induction; existence from C38 |
| C125 | any section that passes the checks is read as the values at the bit positions of the section syntax tables, descriptors included | `Spec/ReadingTables.lean`; C65 to C67 give acceptance, structure and panics, C124 the descriptors, a lemma on bit positions the fields |
| C126 | what a reassembler holds, and what a table has read, after any packets whatsoever | `Spec/Reassembly.lean` states the rules on raw bits with `none` for a panic; case analysis of `mux` on the raw fields, with the invariant that the size is the one stated by the bytes held; induction over the packets, C125 for the tables |
| C127 | from any source, whatever sections are sent on a PID (of any kind, damaged or not), a table reads those a receiver of ISO/IEC 13818-1 finds and that are intact and of its kind | the induction over the layout of C121 with arbitrary bytes for the sections, `sections_packing` for the reference receiver, C122 for the source, C125 for the values |
| C128 | over any implementation of `Read` that keeps to its contract, a call of the reader does what it does with the byte stream delivered, and returns unless the source delivers bytes other than the sync byte for ever; a source that claims too much makes it panic | the loops over an arbitrary state machine, simulated call by call on the byte stream that the record of the calls gives; refuted for claims that pass 2^64 in a release build |
| C129 | values of types of the user's own that implement `Desc` are sent and received in every table as uninterpreted descriptors of the same bytes, are cast back only to their type, count for the stream type, and can be cloned | descriptor lists over the crate's types and arbitrary ones (`Model/Own`); equality of the table code with that of `Model/*` on the list with uninterpreted descriptors in their place (`Spec/Own`), by induction over the item loops; for arbitrary bytes and sizes the layouts of C110; refuted for clones and for understated sizes |
| C130 | tables of types of the user's own that implement `PsiDemux` are sent section by section as their `psi_list_assemble` and `finalize` say, numbered, with length and CRC, and arrive so | the default `demux` over arbitrary lists of sections and an arbitrary hook (`Model/OwnTable`), by induction over the list with C40 and C49 for each section; arrival from C83 and C123 |
| C131 | language and country codes made from text arrive as sent | fails for every table but the default one: the stated length counts three bytes per code while the text takes four or six (C131_table_refuted), a short event then panics at the receiver if name and text are short (C131_panic_refuted), and with codes of fewer bytes, left out ones among them, the descriptor is lost (C131_lost_refuted); holds for the default table (C131_default_partial). The list of a descriptor's codes is `Spec/Codes`; the proofs use C124 for the receiver and the wire format of `Spec/AnyDesc` |
| C132 | comparison of strings agrees with the texts and with the bytes sent | derived `PartialEq` and the accessors in `Model/TextEq`; from C25 to C27. Fails across tables: the same text, the empty one too, made for two tables is never equal (C132_tables_refuted), and texts with characters the table lacks equal others (C132_lossy_refuted, C132_controls_refuted) |
| C133 | a table arrives under the table id it was given | `demux` composed with reassembly and `parse`, from C56, C57, C100 and C125. Fails: the id is not checked when sending; with another id the packets are sent and ignored by every object of the kind (C133_sdt/nit/eit_refuted), and with the default, zero, SDTs and NITs are taken for PATs (C133_sdt_pat_refuted, C133_nit_pat_refuted). The EIT case is proved for as many events as do not count the table id up to one of an EIT (with the default id up to 2487) |
| C134 | a text split into pieces, sent as numbered extended event descriptors, is received and shown as the text | composition of C27, C30, C81, C58 (C59 for schedules) and C80. Fails for more than 16 pieces (C134_many_refuted), pieces of more than 249 bytes (C134_large_refuted), characters beyond U+FFFF (C134_cut_refuted) and control characters of the default table where a piece begins (C134_control_refuted) |
| C135 | a receiver that begins anywhere in a stream finds the packets and sections that follow | composition of C71, C79 and C83. Holds if the rest of the packet has no byte 47 and no packet left of the section carries the counter behind that of the reassembler (1 for a new one). Otherwise a section nobody sent can be received (C135_inside_refuted), and the reader may never find a packet (C135_bytes_refuted) |
| C136 | a value too large for its field is reduced to the low bits of the field and spoils no other | `fit` gives every field the value it holds when all fields of a word are or-ed over each other (`Spec.Fit`); a table is sent exactly as its `fit` is (C136_*_partial), so by C53-C62 the `fit` is received. Where no value spills over another this is the English property (C136_pat, C136_*_first_partial). It fails otherwise: C136_sdt_refuted, C136_eit_refuted, C136_descriptor_refuted |
| C137 | a time after 22 April 2038 is received as it is, or refused; receiving it never panics | `Spec.Calendar` gives the day number and seconds that are sent; a table is sent exactly as the table of the time they stand for (from C110), which is what is received (from the round trips), if the day is of 1970 or later; false in general: no such time up to 2^63 is ever received, and if the day number wraps to one before 1970 a receiver with overflow checks panics, for TDT, TOT, EIT present/following and schedules |
| C138 | two tables are sent as the same bytes exactly if they agree in everything that is sent | if the bytes are equal so is what is received, hence the tables (C136, round trips); PMTs, whose program descriptors are not read back, from the sections any receiver gets (C123) and the injectivity of the wire format; the table id of a schedule from its first section with events |
| C139 | no distribution of the entries over sections needs fewer sections | exchange argument: every section but the last is full (the next entry would not fit), so after the same number of sections no other distribution is ahead; refuted for schedules, which never fill a section to its last byte |
| C140 | comparing intact sections shows whether they differ | the CRC is linear: adding the generator polynomial anywhere leaves it as it is (refuted, for every section and every PAT); changes within 32 bits are seen, by the injectivity of the CRC on windows (C18) |
| C141 | sections with one to three damaged bits are rejected | the CRC is linear, so an error goes unseen only if it is divisible by the generator; an error of two or three bits would make two of the first 32784 powers of x equal up to the last coefficient; that these are pairwise different is computed by the kernel (`CrcApart`) with functions proved correct (`CrcPowers`), by splitting the list of powers bit by bit. Four bits that go unnoticed: x^3006 + x^2866 + x^2215 + 1 is divisible by the generator |
| C142 | tables over a channel that damages bits | the sections as they arrive, each the one sent or one that C141 or C18 rejects, received one after the other as in C91; for the TDT a bit whose damage gives another time |
| C143 | tables over a channel that loses packets and damages bits | C83 for sections with any CRC (`C83_any`: what is received is filtered by the CRC), then as C91 and C142; which positions start a section depends only on the lengths, so the condition on the counter is that of the stream as sent |
| C144 | bytes lost or inserted on the way | list-level account of the reader (C70): induction over the packets behind the damage, inner induction over the damaged bytes; the reader is in step as soon as a packet has no second sync byte; refuted for lost bytes (a packet is filled up from the next one) |
| C145 | packets changed on the way | `mux_congr`: the reassembler reads the payload flags, the counter and the bytes behind the payload offset only; each setter keeps these (C02, C03, C06); for the counter, equivariance of the specification of C126 under a shift; lists by induction |
| C146 | reading a section only when it changes | induction over packets: the table is the fold over `changes` of the sections received (C83); `eq` of complete sections is size and last four bytes; a section sent n times is one run; refuted with the collision of C140 and for tables whose sections come by turns |
| C147 | measuring time along a stream | induction over the readings (each step exact or one tick short, `restarts` counts the short ones); the readings are the PCRs of the packets (`pcrOf`); the estimate of `pcr_to_stc` is compared with the exact time by integer inequalities; refuted where the clock starts again |
| C148 | elementary streams | a packet is header, adaptation field and payload (`Cell`); the accessors give its parts (C04, C05); induction over the packets, then over the PES packets; the PES header is read with C12 and C13; composed with the reader (C70) |
| C149 | receiving a program | composition of receiving tables (C53, C55, C76), reading the clock (C147) and collecting elementary streams (C148) over one stream of packets mixed in any way; packets of other PIDs do not matter to any of them |
| C150 | only the packets of a program matter to it | each step of receiving a program (C149) depends on the packets of one PID only: the tables by C76, the clock and the elementary streams by induction over the packets; no assumption on what the packets contain |
| C151 | measuring the bit rate | the stream passes byte `x` at `t₀ + x * ticks / bytes` (as in C147); bounds of the floors, then nonlinear arithmetic over the naturals |
| C152 | names from text to text | `Spec/Names.lean` says when a text can be written with a code page and how a user lists names; an empty string is sent as nothing in every code page (induction over descriptors and entries shows that the tables are sent alike), then C27 (text), C56-C58 (tables) and C76 (streams) |
| C153 | `Spec/LocalTime.lean`: zones with the time their clocks show, and what a user does to show the local time, on top of `Spec/Listen.lean` and the model of the TOT and of descriptor 0x58. | `C76_tot` gives the table received; country codes come back by C131 and C27; the lookup by induction on the zones. Fails from five hours on (C21/C34/C62): `C153_far_refuted` gives the panic and the exact wrong time for all such TOTs. |
| C154 | `Spec/Tracks.lean`: streams with languages and keys, what a user does to look for them, on top of `Spec/Listen.lean` and the model of the PMT and of descriptors 0x09 and 0x0A. | `C76_pmt` gives the table received, C69 the kind of each stream, C131 and C27 the language codes; induction on the streams. Fails for CA descriptors of the program (C55): `C154_program_refuted`. |
| C155 | a channel entered by its number is found in the received NIT, with all parameters needed to tune to it | what the receiver does as a small program (`Spec/Channels`: `findChannel`); a NIT with any values is sent as the same bytes as one with rounded frequencies and reduced numbers (equality of the assembling code, bitwise for the numbers), and that one makes the round trip of C56; refuted for frequencies and positions between the steps of the standard and for numbers from 1024 on |
| C156 | a small specification of a guide: the events on air at a time, a user's loop that skips sections of other services, and one that does not | tables with durations modulo 24 hours are sent as the same bytes; sections name their service, so the loop over them collects exactly the service's tables; the loss of long events and the mixture of services are stated exactly |
| C157 | a small specification of a user who finds a program by the name of its service | C152 gives the names that are listed, C149 what is received for the program number; the stream carries all three tables |
| C158 | the guide of C156 with the time received from the same stream, among tables of all kinds | the sections sent for each table are those of C109; on the PID of event tables the loop of C156 collects the service's tables, on that of the time the last TDT counts |
| C159 | a user's function that shifts the PCR of a packet (`Spec/Shift`), receivers as in C147-C149 | per packet: bytes 0-5 and the payload stay, so each accessor and the reassembler give the same; induction over the packets; the time by C147 on the shifted times |
| C160 | the receiver of C149 (`Spec/Tune`), `set_pid` on the packets of each PID of the program | per packet: set_pid changes only the PID, so offsets, payloads and PCRs are the same; induction over the packets of a PID; C53 and C55 for the new tables |
| C161 | the reader as a structure around its source (`Model/ReaderBox`), a user's session (`Spec/TakeBack`) | induction over the session: each use acts on the bytes left as specified (C70 for packets, an inner induction for direct reads) |
| C162 | the SDT sections of C111 with descriptor loops given as bytes (`Spec/ForeignName`), the receivers of C152, C157 and C149 | induction over the descriptors of a service (C81, C115), then the services and sections (C122); composed with C149 for any sender |
| C163 | the guide of C156 for any sender, with the words of each event (`Spec/ForeignName`) | induction over the descriptors of an event or network (C81, C115), then over the events on air (C156) or the sections (C122) |
| C164 | the generic reader (`Model/ReaderOn`) on the drain (`Model/Reader`), nested `n` times (`Spec/Stack`) | simulation: a reader on a drain on a reader is call by call like that reader; induction over the depth, then over the calls; the base is that a call does not depend on the contents of its buffer |
| C165 | the receiving loop of C76 over the file and over each recording (`Spec/Splice`) | packets of a concatenation by C70; a packet that begins a section makes the state of the reassembler irrelevant (C126); induction over the recordings |
| C166 | the viewer of C163 with the clock of the stream (`Spec/ForeignNow`) | induction over the sections on the PID of the TOT, those with another table id skipped (C65, C111, C121), then C163 |
| C99 | `Cbr` | invariant over calls: the block holds the packets so far, the clock is the specified one |
| C98 | entries too large for a section | induction over the entries: the sections sent satisfy `Spread`; sections with one oversized entry exist and exceed 1024 bytes |
| C91, C92, C94, C96 | tables over a channel, repeated, constructed, relayed (schedules in `C96Schedule`) | composition of C53-C68 with C83, C84 and C95; uniqueness of `Packed` |
| C93 | clock helpers on all 64-bit values | modular arithmetic |

Every property can be expressed in the model.  Where the code violates a property as stated, the violation is a theorem named
`..._refuted` that gives the wrong behaviour for all inputs of the kind concerned (for C67 a witness per table, beside the exact
condition), and the part that holds is proved with the suffix `_partial`.

## Defects found

| where | what | theorem |
|---|---|---|
| `ts/mod.rs:86` | `4 + 1 + adaptation_field_length` in `u8`: overflows from 251 on; the documented 0 is never returned | C05 |
| `ts/pcr.rs:69,118,125`, `es/pes.rs:82` | the period minus one is added on a wrap: differences are one tick short | C08, C10, C14 |
| `psi/utils/bcd.rs` | `u16::from_bcd_time` multiplies hours by 60 in `u8`: wrong from 05:00 on | C21, C34 |
| `psi/utils/bcd.rs:40-55` | `to_bcd` of a number with too many digits is refused by a debug build only if its leading digits, cut to 8 bits, make 100 or more; 25600 to 35599, for example, are written as other numbers | C104 |
| `psi/mod.rs:187-199`, `psi/{pmt,nit,sdt,eit,tot}.rs` assemble | sections of more than 4098 bytes are sent with the length cut to 12 bits and or-ed over the bits before it; a NIT with 4096 or more bytes of network descriptors also has its second length written among these descriptors | C105 |
| `textcode/mod.rs` | characters beyond U+FFFF are stored as another character; C1 controls are dropped | C27 |
| `textcode/mod.rs:243` | `truncate` panics for sizes below three | C29 |
| `textcode/mod.rs:252` | `split` cuts four-byte characters, overflows or loops for small sizes (with 2 or 3 bytes per part it loops exactly when some character does not fit) | C30 |
| `psi/descriptors/x4e.rs:88-93` | `size`, and with it the descriptor's length byte, is two bytes per item short | C32-C34, C95 |
| `psi/descriptors/x4e.rs:39-47,88-93` | the crate's own packets of an event with an extended event descriptor that has items and a short text make `Eit::parse` panic in both builds | C36, C58 |
| `psi/utils/bcd.rs`, `psi/descriptors/x58.rs` | the crate's own packets of a TOT with a local time offset of five hours and more make `Tot::parse` panic in a debug build | C62 |
| `psi/utils/bcd.rs`, `psi/descriptors/x58.rs` | the local time shown for a region five hours or more from UTC is wrong in a release build (330 minutes are read as 74) | C153 |
| `psi/pmt.rs` parse | a CA descriptor announced for the whole program is not found by a receiver of the PMT | C154 |
| `psi/descriptors/x83.rs:79-87` | a channel number from 1024 on is or-ed into the reserved bits and the visibility flag: it arrives modulo 1024, and from 32768 on as visible | C155 |
| `psi/eit.rs:131-152` | `Eit::parse` does not look at the service id of the section: events of all services on a PID end up in one list, under the program number of the last section | C156 |
| `psi/pmt.rs:131-153` | `parse` does not look at the program number: PMTs of programs that share a PID are merged into one object | C108 |
| `psi/descriptors/x48.rs:31`, `x4d.rs:31`, `x4e.rs:39` | `check` uses inner lengths as indices: panics on received data | C38, C67, C97 |
| `psi/descriptors/mod.rs:56-70,119` | `clone` and `downcast_ref` panic for received descriptors that fail their length check | C39, C90 |
| `psi/descriptors/x43.rs:60`, `x44.rs:47` | last of the seven symbol rate digits dropped | C81, C95 |
| `psi/descriptors/x44.rs:44`, `x5a.rs:63` | frequencies of 2^32 Hz and more overflow | C81, C95 |
| `psi/descriptors/*.rs` | descriptors over 255 bytes, except raw and extended event ones (which are left out), get a length byte modulo 256 | C88 |
| `psi/mod.rs:118-131` | panic when the section start lies beyond the packet | C45 |
| `psi/mod.rs:130-140` | unbounded buffer with nonzero pointer fields | C46 |
| `psi/mod.rs:131-151` | only one section per packet is kept; a section behind a completed one that continues without a new section start is lost | C48, C86 |
| `psi/mod.rs:143` | initial counter accepts a packet without section start; repeated packets destroy the section; sections of 18 packets and more | C79, C83, C84 |
| `psi/mod.rs:148` | sections cut so that the first two packets hold less than three bytes | C85 |
| `psi/pmt.rs:141` | program descriptors read from offset 11 instead of 12 | C55, C96 |
| `psi/eit.rs:75` | durations of a day and more are sent modulo 24 hours | C58 |
| `psi/eit.rs:207-211` | schedule: the last event starting before the first one's midnight panics in a debug build | C59 |
| `psi/eit.rs:228-300` | schedule: first segment late, events after a gap early, table id and segment_last_section_number wrong | C60 |
| `psi/eit.rs:236-280` | schedule: section numbers and table ids are counted in a byte without limits: nine sections in a segment run into the next, events after the 64th day get table ids of others or of no EIT | C100 |
| `ts/mod.rs:118-122`, `psi/mod.rs:222-226` | release builds: a PID above 8191 given to `demux` sets the error, PUSI and priority flags of every packet | C101 |
| `psi/eit.rs` | a following event without a present one is sent as the present one | C96 |
| `psi/{pmt,nit,tot}.rs` | loop lengths are not checked against the section: panics on sections with a valid CRC; the CRC of a TOT can be read as a descriptor | C67, C125 |
| `psi/{eit,tot}.rs` | times that are not decimal (undefined start times among them) panic in a debug build | C67, C114 |
| `psi/eit.rs:53` | release builds: an event with undefined start time is taken to start on 2038-04-28 | C114 |
| `textcode/mod.rs:124-131` | writing a received table to a log with `{:?}` panics if a string has an unknown code page | C118 |
| `ts/pcr.rs:115-129` | a PCR more than a second ahead is reported as more than 26 hours behind | C116 |
| `textcode/mod.rs:95-121` | an accent of the default table is shown before its letter instead of after | C115 |
| `textcode/mod.rs:135-179` | `from_str` writes `?` for accented letters that the default table has | C115 |
| `textcode/mod.rs:95-121` | line breaks (`8A`, U+E08A) are dropped or shown as private use characters | C115 |
| `textcode/mod.rs:287-322` | texts in the two-byte tables (selectors `11`..`14`) become `?` | C115 |
| `psi/{pat,pmt,nit,sdt,eit}.rs` check | current_next_indicator is not looked at: tables announced for later are taken at once | C112 |
| `psi/mod.rs:104` | packets marked as damaged or scrambled are assembled like others | C113 |
| `psi/tdt.rs` | a TDT of which fewer than eight bytes have arrived panics | C67 |
| `psi/{pmt,nit,sdt}.rs` `psi_list_assemble` | an entry too large for a section is sent in a section of more than 1024 bytes | C98 |
| `psi/pat.rs:106-108` | programs beyond the 253rd are dropped | C54, C96 |
| `reader/drain.rs:62` | zero-length read drops a packet | C74 |
| `reader/mod.rs:87` | an interrupted read loses the bytes already read | C82 |
| `reader/mod.rs:91` | release builds: a source that claims nearly 2^64 bytes makes the reader return 188 bytes without a sync byte | C128 |
| `psi/descriptors/x{0a,4d,4e,58}.rs` size | three bytes are counted for a language or country code whatever it takes: codes made for any table but the default one, and codes left out, spoil the descriptor; a short event with such a language can make the receiver panic | C131 |
| `psi/{sdt,nit,eit}.rs` demux | the table id is sent unchecked and is zero by default: the table is ignored by its own kind of receiver and taken for a PAT | C133 |
| `psi/descriptors/x4e.rs` assemble | a descriptor of more than 257 bytes is left out without an error; numbers above 15 are written over each other | C134 |
| `psi/mod.rs` mux, `reader/mod.rs` read | a new reassembler takes a packet with the counter 1 for the beginning of a section; the reader takes any byte 47 for the beginning of a packet | C135 |
| `reader/mod.rs` read | a packet of which bytes were lost is filled up with bytes of the next one, which is then lost as well; the reader does not check that another sync byte follows | C144 |
| `psi/mod.rs` `eq` | a receiver that relies on the comparison misses changes that keep the CRC (two programmes of any PAT can be changed so), and does not keep the sections of a table of several sections from being read again and again | C146 |
| `ts/pcr.rs` `pcr_to_stc`, `pcr_jitter_ns` | the estimate is not taken modulo the period: when the clock starts again, a perfect stream of constant rate makes a debug build panic, and a release build report a jitter | C147 |
| `sdt.rs`, `eit.rs`, `descriptors` assemble | values are not masked: one that is too large changes the fields before it in the same byte or word (a present/following flag of 2 sets the schedule flag, a logical channel number of 32768 makes a service visible) | C136 |
| `psi/tdt.rs`, `psi/tot.rs`, `psi/eit.rs` | a time after 22 April 2038 is sent with a wrapped day number without notice; until 2149 debug receivers panic on it, later ones show a time from 1970 on; from 2106 on the time of day is wrong too | C137 |
| `eit.rs` schedule | a section of a schedule is taken for full one byte early: events that fill 4096 bytes exactly are sent in two sections | C139 |
| `ts/pcr.rs:144-146` | `pcr_delta_bitrate` divides by whole milliseconds: PCRs less than a millisecond apart panic | C11, C151 |
| `psi/mod.rs` PartialEq | sections compare by size and CRC only: different intact sections compare equal | C140 |
| `textcode/mod.rs` split | a piece may begin with a control character, which a receiver takes for the selector of a table | C134 |
| `psi/descriptors/mod.rs:54-72` | a list or event with a descriptor of the user's own type panics when cloned | C129 |
| `mux/cbr/mod.rs:124-152` | the caller's buffer is ignored; the 26596th packet panics | C99 |
| `constants.rs:38` | `FEC_OUTER_RS` equals `FEC_OUTER_NO_CODING` | C89 |
