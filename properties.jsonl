{"id": "C01", "title": "Big-endian integer accessors are exact", "statement": "`get_u16/u24/u32` on a slice return the big-endian value of its first 2/3/4 bytes; `set_u16/u24/u32` store the big-endian digits of the value (its low 24 bits for u24) there, change no other byte and keep the length; reading back gives the stored value; on a shorter slice they panic and nothing else does.", "quantifier": "every byte slice and every value", "why_tests_cant": "2^16..2^32 values times arbitrary surrounding bytes; a test samples one value each", "anchors": ["src/bytes.rs: Bytes::get_u16, set_u16, get_u24, set_u24, get_u32, set_u32"]}
{"id": "C02", "title": "PID round trip", "statement": "`get_pid` is the 13-bit PID field of the header; after `set_pid(ts, pid)` with pid < 8192, `get_pid` returns pid, the top three bits of byte 1 and every other byte are unchanged. With pid >= 8192 a debug build panics and a release build never returns a PID differing from pid mod 8192 but overwrites the flag bits.", "quantifier": "every packet of at least 3 bytes, every 16-bit pid, both build profiles", "why_tests_cant": "8192 pids times all header bytes; the interaction with flag bits is only visible for all combinations", "anchors": ["src/ts/mod.rs: get_pid, set_pid, PID_NONE"]}
{"id": "C03", "title": "Header setters touch only their own field", "statement": "`set_cc` stores a 4-bit continuity counter and `set_payload_0/1`, `set_pusi_0/1` set or clear their flag; the matching getter returns what was set, every other header getter and every other byte is unchanged.", "quantifier": "every packet of at least 4 bytes, every counter value, both build profiles", "why_tests_cant": "frame conditions quantify over all bit patterns of the header", "anchors": ["src/ts/mod.rs: set_cc, set_payload_0, set_payload_1, set_pusi_0, set_pusi_1, get_cc, is_payload, is_pusi"]}
{"id": "C04", "title": "Header accessors decode the ISO 13818-1 header", "statement": "For a packet whose first four bytes encode sync, error, pusi, priority, pid, scrambling, adaptation, payload and counter fields, each accessor (`is_sync,is_error,is_pusi,get_pid,is_scrambled,is_adaptation,is_payload,get_cc`) returns exactly that field.", "quantifier": "every combination of header field values and every packet body", "why_tests_cant": "2^32 headers", "anchors": ["src/ts/mod.rs: is_sync, is_error, is_pusi, is_payload, is_adaptation, is_scrambled, get_pid, get_cc"]}
{"id": "C05", "title": "Payload offset points at the first payload byte", "statement": "`get_payload_offset` is 4 without adaptation field and 5 + adaptation_field_length with one, for every packet, without panicking; and, as documented, 0 if the packet has no payload or the offset is invalid.", "quantifier": "every packet of at least 5 bytes, both build profiles", "why_tests_cant": "needs all 256 adaptation lengths in both arithmetic modes", "anchors": ["src/ts/mod.rs: get_payload_offset, get_adaptation_size"]}
{"id": "C06", "title": "PCR round trip", "statement": "For every pcr below 2^33*300, `set_pcr` writes exactly bytes 6..11 in the 33-bit base / 9-bit extension layout with reserved bits set, changes nothing else, and `get_pcr` returns pcr; for every 6-byte field `get_pcr` is base*300+extension.", "quantifier": "every pcr value in range, every packet of at least 12 bytes", "why_tests_cant": "2.6e12 values", "anchors": ["src/ts/pcr.rs: set_pcr, get_pcr, PCR_NONE, PCR_MAX"]}
{"id": "C07", "title": "PCR presence test", "statement": "`is_pcr` is true exactly when the packet has an adaptation field of at least 7 bytes whose PCR flag is set.", "quantifier": "every packet of at least 6 bytes", "why_tests_cant": "all combinations of flags and lengths", "anchors": ["src/ts/pcr.rs: is_pcr"]}
{"id": "C08", "title": "PCR difference modulo the clock period", "statement": "`pcr_delta(last, current)` is the number of 27 MHz ticks from last to current modulo 2^33*300, for all clock values, without panicking.", "quantifier": "every pair of PCR values in range", "why_tests_cant": "wrap-around case needs all pairs", "anchors": ["src/ts/pcr.rs: pcr_delta"]}
{"id": "C09", "title": "STC extrapolation", "statement": "`pcr_to_stc(last_pcr, bytes, last_delta, last_bytes)` is last_pcr + floor(last_delta*bytes/last_bytes) whenever that computation fits 64 bits; it panics exactly when last_bytes is 0 or (debug) an intermediate overflows.", "quantifier": "all four 64-bit arguments, both build profiles", "why_tests_cant": "2^256 argument tuples", "anchors": ["src/ts/pcr.rs: pcr_to_stc"]}
{"id": "C10", "title": "PCR jitter", "statement": "For PCR and STC in range that differ by at most one second, `pcr_jitter_ns` is the signed difference in nanoseconds truncated toward zero, also across the wrap of the clock.", "quantifier": "every pair in range within one second", "why_tests_cant": "all pairs, including wrap", "anchors": ["src/ts/pcr.rs: pcr_jitter_ns"]}
{"id": "C11", "title": "Clock unit conversions", "statement": "`pcr_to_us`, `pcr_to_ms`, `pts_to_ms` are the floor of the exact quotient (27, 27000, 90 ticks per unit); `pcr_delta_bitrate` is floor(8*bytes/ms) and panics exactly for delta < 27000 or (debug) when 8*bytes does not fit 64 bits.", "quantifier": "all 64-bit arguments", "why_tests_cant": "unbounded argument space", "anchors": ["src/ts/pcr.rs: pcr_to_us, pcr_to_ms, pcr_delta_bitrate", "src/es/pes.rs: pts_to_ms"]}
{"id": "C12", "title": "PTS and DTS decoding", "statement": "For every 33-bit timestamp encoded in the 5-byte PES timestamp layout at the PTS (DTS) position, with any marker bits, `get_pts` (`get_dts`) returns it; `is_pts`/`is_dts` are the flags of byte 7.", "quantifier": "every timestamp, every marker/prefix bits, every surrounding packet", "why_tests_cant": "2^33 timestamps", "anchors": ["src/es/pes.rs: is_pts, get_pts, is_dts, get_dts"]}
{"id": "C13", "title": "PES header classification", "statement": "`is_prefix` holds exactly for start code 00 00 01; `is_syntax_spec` is false exactly for the stream ids BC BE BF F0 F1 F2 F8 FF; `get_length` is the big-endian PES length; `get_payload_offset` is 6 for those ids and 9 + header_data_length otherwise, never overflowing.", "quantifier": "every PES packet of at least 9 bytes", "why_tests_cant": "all stream ids, lengths", "anchors": ["src/es/pes.rs: is_prefix, is_syntax_spec, get_length, get_payload_offset"]}
{"id": "C14", "title": "PTS difference modulo the clock period", "statement": "`pts_delta(last, current)` is the number of 90 kHz ticks from last to current modulo 2^33, for all clock values, without panicking.", "quantifier": "every pair of PTS values in range", "why_tests_cant": "wrap-around", "anchors": ["src/es/pes.rs: pts_delta"]}
{"id": "C15", "title": "Null packet", "statement": "`NULL_PACKET` is a 188-byte packet that every accessor reports as a synchronised, error-free, unscrambled payload-only packet on PID_NULL = 8191 with payload 0xFF, and it carries no PCR and starts no payload unit.", "quantifier": "all 188 bytes of the constant and every accessor", "why_tests_cant": "no unit test covers the constant; it must be right in every byte", "anchors": ["src/ts/mod.rs: NULL_PACKET, FILL_PACKET, PID_NULL"]}
{"id": "C16", "title": "Section CRC is CRC-32/MPEG-2", "statement": "The checksum computed for a section equals the bitwise CRC with polynomial 0x04C11DB7, initial value 0xFFFFFFFF, no reflection and no final xor.", "quantifier": "every byte string", "why_tests_cant": "unbounded input length; table has 256 entries that a sample does not all exercise", "anchors": ["src/psi/utils/crc32.rs: crc32b, CRC32B_TABLE"]}
{"id": "C17", "title": "CRC residue", "statement": "The CRC of a byte string followed by its own CRC (big-endian) is 0, and it is 0 for no other four trailing bytes.", "quantifier": "every byte string and every 4-byte trailer", "why_tests_cant": "unbounded length", "anchors": ["src/psi/utils/crc32.rs: crc32b", "src/psi/mod.rs: check_crc32"]}
{"id": "C18", "title": "CRC detects error bursts", "statement": "Two byte strings of equal length that differ only inside a window of at most 32 consecutive bits (and do differ) have different CRCs; hence a valid section hit by such a burst is no longer accepted by `check`.", "quantifier": "every byte string, every burst position and pattern", "why_tests_cant": "2^31 patterns times positions times contents", "anchors": ["src/psi/utils/crc32.rs: crc32b", "src/psi/mod.rs: check, check_crc32"]}
{"id": "C19", "title": "BCD numbers round trip", "statement": "`to_bcd` of n < 10^2/10^4/10^8 is the number whose hexadecimal digits are the decimal digits of n, and `from_bcd` of it is n; `from_bcd` of any valid BCD value is its decimal reading; neither panics on such values.", "quantifier": "every value in range for u8, u16, u32, both profiles", "why_tests_cant": "10^8 values", "anchors": ["src/psi/utils/bcd.rs: BCD for u8, u16, u32"]}
{"id": "C20", "title": "BCD time of day (24 bit)", "statement": "For u32, `to_bcd_time(t)` is the BCD hh:mm:ss of t mod 86400 seconds and `from_bcd_time` is hours*3600+minutes*60+seconds of valid BCD digits; for t < 86400 they are inverse.", "quantifier": "every u32 t, every valid BCD triple, both profiles", "why_tests_cant": "86400+ values and all of u32", "anchors": ["src/psi/utils/bcd.rs: BCDTime for u32"]}
{"id": "C21", "title": "BCD hours and minutes (16 bit)", "statement": "For u16, `to_bcd_time(m)` is the BCD hh:mm of m mod 1440 minutes, and `from_bcd_time` of any valid BCD hh:mm is hours*60+minutes; for m < 1440 they are inverse.", "quantifier": "every u16, both profiles", "why_tests_cant": "all 1440 values in both arithmetic modes", "anchors": ["src/psi/utils/bcd.rs: BCDTime for u16"]}
{"id": "C22", "title": "Modified Julian dates", "statement": "`to_mjd(t)` is the MJD day number of Unix time t, for t before 2038-04-22 (MJD 65535), and `from_mjd(d)` is the Unix time of midnight of day d for d >= 40587; `from_mjd(to_mjd(t))` is t rounded down to midnight.", "quantifier": "every time and every day number in range, both profiles", "why_tests_cant": "2.1e9 seconds", "anchors": ["src/psi/utils/mjd.rs: from_mjd, to_mjd"]}
{"id": "C23", "title": "DVB string size", "statement": "`size()` equals the number of bytes `assemble` appends.", "quantifier": "every StringDVB (any codepage byte, any data), every destination", "why_tests_cant": "arbitrary contents", "anchors": ["src/textcode/mod.rs: StringDVB::size, assemble"]}
{"id": "C24", "title": "DVB string assembly appends", "statement": "`assemble` leaves the destination's previous bytes unchanged and appends the EN 300 468 character-table selector of the codepage (none for 0, `10 00 nn` for 1..4, nn-4 for 5..15, `15` for UTF-8) followed by the data; `assemble_sized` additionally puts one length byte (length mod 256) in front.", "quantifier": "every StringDVB, every destination", "why_tests_cant": "arbitrary contents", "anchors": ["src/textcode/mod.rs: assemble, assemble_sized"]}
{"id": "C25", "title": "DVB string byte round trip", "statement": "For a string in codepage 0 whose first byte is >= 0x20, in codepages 1..15, or UTF-8, with non-empty data, converting the assembled bytes back gives an equal string (codepage and data).", "quantifier": "every such string", "why_tests_cant": "all contents and codepages", "anchors": ["src/textcode/mod.rs: From<&[u8]>, assemble"]}
{"id": "C26", "title": "Foreign bytes are kept or marked", "statement": "Converting any byte string to StringDVB and assembling it again reproduces the bytes exactly, except for the listed selectors the library cannot represent (replaced by a single '?', or re-encoded selector).", "quantifier": "every byte string", "why_tests_cant": "all byte strings", "anchors": ["src/textcode/mod.rs: From<&[u8]>, assemble"]}
{"id": "C27", "title": "Text round trip through a codepage", "statement": "`from_str(s, cp).to_string()` is s when every character of s is in the codepage (for UTF-8: for every s), and unsupported characters are replaced as documented by quotes, dots or '?'.", "quantifier": "every string over the repertoire of every codepage", "why_tests_cant": "all strings", "anchors": ["src/textcode/mod.rs: StringDVB::from_str, Display"]}
{"id": "C28", "title": "Text conversion never creates an invalid char", "statement": "`to_string` never executes undefined behaviour: every value passed to the unchecked character constructor is a Unicode scalar value.", "quantifier": "every StringDVB", "why_tests_cant": "all table entries and bytes", "anchors": ["src/textcode/mod.rs: Display::fmt (char::from_u32_unchecked)", "src/textcode/data.rs"]}
{"id": "C29", "title": "Truncation", "statement": "`truncate(n)` leaves a string of at most n data bytes alone and otherwise makes its data exactly n bytes long: the first n-3 original bytes and \"...\".", "quantifier": "every StringDVB and every n", "why_tests_cant": "all lengths", "anchors": ["src/textcode/mod.rs: StringDVB::truncate"]}
{"id": "C30", "title": "Splitting", "statement": "`split(n)` terminates, the concatenation of the pieces' data is the original data, each piece keeps the codepage and assembles to at most n bytes, and UTF-8 pieces end at character boundaries.", "quantifier": "every StringDVB and every n", "why_tests_cant": "termination and all lengths", "anchors": ["src/textcode/mod.rs: StringDVB::split"]}
{"id": "C31", "title": "Language code conversion", "statement": "`convert` maps a two-letter code to the bibliographic three-letter code and either three-letter code back to the two-letter code; converting there and back is the identity on every listed language; unknown codes give None.", "quantifier": "every string", "why_tests_cant": "all strings; table of 146 entries", "anchors": ["src/textcode/lang.rs: convert, LANG_LIST"]}
{"id": "C32", "title": "Descriptor wire format", "statement": "Assembling a descriptor with in-range fields appends exactly the EN 300 468 / ISO 13818-1 encoding: tag, length of what follows, and each field at its bit position.", "quantifier": "every descriptor of the 15 supported kinds with in-range fields, every destination buffer", "why_tests_cant": "all field combinations", "anchors": ["src/psi/descriptors/*.rs: Desc*::assemble"]}
{"id": "C33", "title": "Descriptor size equals assembled length", "statement": "`size()` of a descriptor (and of a descriptor list) is the number of bytes its `assemble` appends.", "quantifier": "every in-range descriptor", "why_tests_cant": "all contents", "anchors": ["src/psi/descriptors/*.rs: size, assemble", "src/psi/descriptors/mod.rs: Descriptors::size, assemble"]}
{"id": "C34", "title": "Descriptor round trip", "statement": "Parsing the assembled bytes of a descriptor with in-range fields gives back an equal descriptor.", "quantifier": "every in-range descriptor of each kind", "why_tests_cant": "all field combinations", "anchors": ["src/psi/descriptors/*.rs: parse, assemble", "src/psi/descriptors/mod.rs: Descriptor::parse"]}
{"id": "C35", "title": "Unknown descriptors are preserved", "statement": "A descriptor whose tag is not interpreted, or whose body fails the length check of its kind, is kept verbatim: parsing and re-assembling reproduces its bytes.", "quantifier": "every tag without interpretation, every body of at most 255 bytes", "why_tests_cant": "all bodies", "anchors": ["src/psi/descriptors/raw.rs", "src/psi/descriptors/mod.rs: Descriptor::parse"]}
{"id": "C36", "title": "Descriptor list round trip", "statement": "Assembling a list of in-range descriptors and parsing the bytes appends exactly these descriptors, in order, to the list; the returned length is the number of bytes appended.", "quantifier": "every list of in-range descriptors", "why_tests_cant": "unbounded lists", "anchors": ["src/psi/descriptors/mod.rs: Descriptors::parse, assemble"]}
{"id": "C37", "title": "Descriptor list parsing stops at truncation", "statement": "Parsing a descriptor loop that ends in a truncated descriptor yields the complete descriptors before it and ignores the rest.", "quantifier": "every list of descriptors and every truncated tail", "why_tests_cant": "all truncation points", "anchors": ["src/psi/descriptors/mod.rs: Descriptors::parse"]}
{"id": "C38", "title": "Descriptor parsing does not crash", "statement": "Parsing an arbitrary descriptor loop never panics.", "quantifier": "every byte string, both profiles", "why_tests_cant": "all malformed inputs", "anchors": ["src/psi/descriptors/*.rs: check, parse"]}
{"id": "C39", "title": "Descriptor clone", "statement": "Cloning a descriptor list gives an equal list.", "quantifier": "every descriptor list", "why_tests_cant": "every kind of descriptor", "anchors": ["src/psi/descriptors/mod.rs: Clone for Descriptor"]}
{"id": "C40", "title": "Section packetisation structure", "statement": "`Psi::demux` appends exactly ceil((size+1)/184) packets of 188 bytes to the destination, leaves earlier bytes unchanged; every packet has sync 0x47, the PID, payload flag, consecutive continuity counters; PUSI and a zero pointer field only in the first; the payloads concatenated are the section followed by 0xFF stuffing.", "quantifier": "every section of every size, every pid, every counter, every destination", "why_tests_cant": "unbounded sizes; 188-byte boundary cases", "anchors": ["src/psi/mod.rs: Psi::demux"]}
{"id": "C41", "title": "Reassembly inverts packetisation", "statement": "Feeding the packets produced from a section to `Psi::mux`, in any prior state, ends with exactly that section (buffer and size) in the reassembler, whatever was reassembled before.", "quantifier": "every section, every prior reassembler state", "why_tests_cant": "all states and sizes", "anchors": ["src/psi/mod.rs: Psi::mux, demux"]}
{"id": "C42", "title": "Continuity counter chaining", "statement": "After `demux` the counter is the initial one plus the number of packets modulo 16, so consecutive tables on one PID have gapless counters across calls.", "quantifier": "every list of sections, every starting counter", "why_tests_cant": "arbitrarily many packets", "anchors": ["src/psi/mod.rs: Psi::demux, PsiDemux::demux"]}
{"id": "C43", "title": "Packets without payload do not disturb reassembly", "statement": "`mux` of a packet whose payload flag is clear leaves the reassembler unchanged, so such packets can be interleaved anywhere.", "quantifier": "every state, every such packet, any interleaving", "why_tests_cant": "all interleavings", "anchors": ["src/psi/mod.rs: Psi::mux"]}
{"id": "C44", "title": "Lost packets are never glued over", "statement": "If a non-first packet's counter is not the successor of the previous one, `mux` discards the partial section; a section is reported complete only if its packets had consecutive counters.", "quantifier": "every state and packet, every loss pattern", "why_tests_cant": "all loss patterns", "anchors": ["src/psi/mod.rs: Psi::mux"]}
{"id": "C45", "title": "Reassembly does not crash", "statement": "`mux` never panics on any 188-byte packet in any state.", "quantifier": "every state, every packet, both profiles", "why_tests_cant": "all packets", "anchors": ["src/psi/mod.rs: Psi::mux"]}
{"id": "C46", "title": "Reassembly memory is bounded", "statement": "The reassembly buffer never exceeds the maximal section size plus one packet, for every packet sequence.", "quantifier": "every packet sequence", "why_tests_cant": "unbounded histories", "anchors": ["src/psi/mod.rs: Psi::mux, push"]}
{"id": "C47", "title": "A new section starts at the pointer field", "statement": "For a PUSI packet in a fresh or discontinuous reassembler, the section starts exactly pointer_field bytes after the pointer field, and bytes after its end are dropped.", "quantifier": "every state and packet", "why_tests_cant": "all pointer values", "anchors": ["src/psi/mod.rs: Psi::mux"]}
{"id": "C48", "title": "Pointer-field continuation", "statement": "A section that ends in a PUSI packet (non-zero pointer field) of the right counter is completed by that packet's leading bytes, so back-to-back sections are all delivered.", "quantifier": "every pair of sections sharing a packet", "why_tests_cant": "all split positions", "anchors": ["src/psi/mod.rs: Psi::mux"]}
{"id": "C49", "title": "Finalised sections verify", "statement": "`finalize` appends four bytes and sets the 12-bit section_length, and `check` accepts the result, for every section of 4..4091 bytes before finalisation.", "quantifier": "every section content and length", "why_tests_cant": "all contents", "anchors": ["src/psi/mod.rs: Psi::finalize, check, calc_crc32, get_crc32"]}
{"id": "C50", "title": "Corrupted sections are rejected", "statement": "`check` rejects a section whose stored CRC differs from the CRC of its contents, a section shorter than its declared size, and sections of at most 7 bytes.", "quantifier": "every buffer and size", "why_tests_cant": "all contents", "anchors": ["src/psi/mod.rs: Psi::check, check_crc32"]}
{"id": "C51", "title": "Section equality", "statement": "Two sections compare equal exactly when their sizes and their CRC fields are equal; comparing complete sections never panics.", "quantifier": "every pair of sections", "why_tests_cant": "all pairs", "anchors": ["src/psi/mod.rs: PartialEq for Psi"]}
{"id": "C52", "title": "Section header initialisation", "statement": "`Psi::new(table_id, size, version)` creates a zeroed header of the given size with the table id, syntax bits 0xB0 and, if it has room, version (5 bits) with current_next set.", "quantifier": "every table id, size, version", "why_tests_cant": "all arguments", "anchors": ["src/psi/mod.rs: Psi::new"]}
{"id": "C53", "title": "PAT round trip", "statement": "Packetising a PAT with at most 253 items and parsing the reassembled section gives back the same version, TSID and items.", "quantifier": "every PAT with in-range fields", "why_tests_cant": "all item lists", "anchors": ["src/psi/pat.rs: Pat::demux, parse"]}
{"id": "C54", "title": "PAT wire format and capacity", "statement": "The section a PAT assembles to is the ISO 13818-1 program_association_section of its first 253 items; no item within that limit is lost.", "quantifier": "every PAT", "why_tests_cant": "all item counts", "anchors": ["src/psi/pat.rs: psi_list_assemble"]}
{"id": "C55", "title": "PMT round trip", "statement": "Packetising a PMT that fits one section and parsing the reassembled section gives back version, program number, PCR PID, descriptors and items.", "quantifier": "every PMT with in-range fields that fits one section", "why_tests_cant": "all contents", "anchors": ["src/psi/pmt.rs: Pmt::parse, psi_list_assemble"]}
{"id": "C56", "title": "NIT round trip", "statement": "Packetising a NIT and parsing all its sections gives back table id, version, network id, network descriptors and all transport streams in order.", "quantifier": "every NIT with in-range fields", "why_tests_cant": "all contents, multiple sections", "anchors": ["src/psi/nit.rs: Nit::parse, psi_list_assemble"]}
{"id": "C57", "title": "SDT round trip", "statement": "Packetising an SDT and parsing all its sections gives back table id, version, TSID, ONID and all services in order.", "quantifier": "every SDT with in-range fields", "why_tests_cant": "all contents, multiple sections", "anchors": ["src/psi/sdt.rs: Sdt::parse, psi_list_assemble"]}
{"id": "C58", "title": "EIT present/following round trip", "statement": "Packetising a present/following EIT gives one section per event, numbered 0,1,..., and parsing them gives back all events in order.", "quantifier": "every present/following EIT with in-range fields", "why_tests_cant": "all contents", "anchors": ["src/psi/eit.rs: Eit::psi_list_assemble, parse"]}
{"id": "C59", "title": "EIT schedule delivers every event once, in order", "statement": "Parsing all sections assembled from a schedule EIT gives back exactly the events in order (no loss, no duplication).", "quantifier": "every schedule EIT with in-range fields", "why_tests_cant": "all event lists", "anchors": ["src/psi/eit.rs: psi_list_assemble"]}
{"id": "C60", "title": "EIT schedule segments", "statement": "Every event of a schedule EIT is placed in the three-hour segment (section_number/8, table_id) of its start time, as EN 300 468 / ETR 211 require.", "quantifier": "every schedule EIT", "why_tests_cant": "all start times", "anchors": ["src/psi/eit.rs: psi_list_assemble"]}
{"id": "C61", "title": "TDT round trip", "statement": "Packetising a TDT and parsing the reassembled section gives back the time, for every time before 2038-04-22.", "quantifier": "every time in range, every pid and counter", "why_tests_cant": "2.1e9 times", "anchors": ["src/psi/tdt.rs: Tdt::parse, demux"]}
{"id": "C62", "title": "TOT round trip", "statement": "Packetising a TOT and parsing the reassembled section gives back the time and the descriptors.", "quantifier": "every TOT with in-range fields", "why_tests_cant": "all times and descriptor lists", "anchors": ["src/psi/tot.rs: Tot::parse, demux"]}
{"id": "C63", "title": "Section size limit", "statement": "Every section a table assembles to is at most 1024 bytes (PAT, PMT, NIT, SDT) or 4096 bytes (EIT) including CRC, provided every item by itself fits.", "quantifier": "every table", "why_tests_cant": "all contents", "anchors": ["src/psi/{pat,pmt,nit,sdt,eit}.rs: psi_list_assemble"]}
{"id": "C64", "title": "Section numbering", "statement": "Sections produced by `demux` of a table carry section_number 0,1,2,... and last_section_number = count-1, as long as there are at most 256 sections.", "quantifier": "every table", "why_tests_cant": "all section counts", "anchors": ["src/psi/mod.rs: PsiDemux::demux"]}
{"id": "C65", "title": "Rejected sections leave the table unchanged", "statement": "Parsing a section with wrong table id, short size or bad CRC does not modify the table object.", "quantifier": "every section failing the check, every table object", "why_tests_cant": "all invalid inputs", "anchors": ["src/psi/{pat,pmt,nit,sdt,eit,tdt,tot}.rs: parse"]}
{"id": "C66", "title": "Parsing accumulates", "statement": "Parsing an accepted section appends its items after those already in the object, so parsing sections in sequence gives the concatenated item list.", "quantifier": "every sequence of accepted sections", "why_tests_cant": "unbounded sequences", "anchors": ["src/psi/{pat,nit,sdt,eit}.rs: parse"]}
{"id": "C67", "title": "Table parsing does not crash", "statement": "Parsing any section never panics (it is rejected or parsed).", "quantifier": "every section, both profiles", "why_tests_cant": "all malformed inputs", "anchors": ["src/psi/*.rs: parse"]}
{"id": "C68", "title": "Table version", "statement": "The 5-bit version stored in a table object is carried in every section it assembles to and restored by parsing.", "quantifier": "every version value", "why_tests_cant": "all versions, all tables", "anchors": ["src/psi/*.rs: psi_init, parse"]}
{"id": "C69", "title": "Stream type classification", "statement": "`get_stream_type` classifies by stream_type and, for private data, by the first recognised descriptor tag.", "quantifier": "every stream type byte and descriptor list", "why_tests_cant": "all lists", "anchors": ["src/psi/pmt.rs: PmtItem::get_stream_type", "src/es/mod.rs: StreamType"]}
{"id": "C70", "title": "Reader is independent of chunking", "statement": "The sequence of packets `TsReader` returns depends only on the bytes of the source, not on how its reads are split.", "quantifier": "every byte stream and every schedule of short reads", "why_tests_cant": "all schedules", "anchors": ["src/reader/mod.rs: TsReader::read"]}
{"id": "C71", "title": "Reader packets are synchronised stream slices", "statement": "Each packet returned is 188 consecutive bytes of the stream starting with 0x47; only bytes before a sync byte are skipped; a stream of well-formed packets is returned unchanged, packet by packet.", "quantifier": "every byte stream", "why_tests_cant": "all streams", "anchors": ["src/reader/mod.rs: TsReader::read"]}
{"id": "C72", "title": "Reader end of stream and errors", "statement": "An `Ok(0)` or error of the source is passed on; no partial packet is ever reported as a packet; a short buffer panics.", "quantifier": "every source", "why_tests_cant": "all failure points", "anchors": ["src/reader/mod.rs: TsReader::read"]}
{"id": "C73", "title": "Drain output is the packet stream", "statement": "The bytes read through `TsDrain`, with any sequence of non-empty buffer sizes, are a prefix of the concatenation of the inner packets, nothing lost, duplicated or uninitialised.", "quantifier": "every sequence of read sizes, every source", "why_tests_cant": "all schedules", "anchors": ["src/reader/drain.rs: TsDrain::read"]}
{"id": "C74", "title": "Zero-length reads through the drain are harmless", "statement": "Reading into an empty buffer returns Ok(0) and loses no data.", "quantifier": "every drain state", "why_tests_cant": "all states", "anchors": ["src/reader/drain.rs: TsDrain::read"]}
{"id": "C75", "title": "Debug formatting is total", "statement": "Formatting a packet of at least 188 bytes never panics and reports the header fields and PCR as the accessors do.", "quantifier": "every packet of at least 188 bytes", "why_tests_cant": "all packets", "anchors": ["src/ts/debug.rs: TsPacket, TsAdaptation"]}
{"id": "C76", "title": "End to end through the reader", "statement": "A PAT (SDT, ...) packetised, written to a stream after arbitrary non-sync garbage, read with `TsReader` under any chunking, reassembled and parsed gives back the table.", "quantifier": "every table, every chunking, every garbage prefix without sync byte", "why_tests_cant": "composition of all layers", "anchors": ["src/reader/mod.rs", "src/psi/mod.rs", "src/psi/pat.rs"]}
{"id": "C77", "title": "Stuffing bytes never become a section", "statement": "After the last section of a packet, 0xFF stuffing is not reported as a section.", "quantifier": "every section and every stuffing length", "why_tests_cant": "all lengths", "anchors": ["src/psi/mod.rs: Psi::mux, check"]}
{"id": "C78", "title": "Interleaved PIDs", "statement": "With one reassembler per PID fed by `get_pid`, interleaving the packets of sections on different PIDs in any order that keeps each PID's order reassembles every section.", "quantifier": "every interleaving of any number of packetised sections on distinct PIDs", "why_tests_cant": "all interleavings", "anchors": ["src/psi/mod.rs: Psi::mux, demux", "src/ts/mod.rs: get_pid"]}
{"id": "C79", "title": "Nothing is collected before a section start", "statement": "A reassembler that holds no data ignores every packet that does not start a section (payload_unit_start_indicator clear).", "quantifier": "every empty reassembler, every packet with PUSI clear", "why_tests_cant": "all counters and payloads", "anchors": ["src/psi/mod.rs: Psi::mux"]}
{"id": "C80", "title": "Text display", "statement": "`to_string()` shows a DVB string as the character table named by its codepage says: ISO 6937 (EN 300 468 figure A.1), ISO 8859-1..15, or UTF-8; control bytes 80..9F are not shown and unassigned bytes show as '?'; in UTF-8 every maximal ill-formed piece shows as U+FFFD (Unicode chapter 3.9).", "quantifier": "every StringDVB", "why_tests_cant": "every table, every byte string", "anchors": ["src/textcode/mod.rs: Display for StringDVB", "src/textcode/data.rs"]}
{"id": "C81", "title": "Decoding descriptors encoded by the standard", "statement": "Parsing a descriptor encoded as EN 300 468 / ISO 13818-1 prescribe for arbitrary field values gives a descriptor with exactly these field values in the documented units.", "quantifier": "all field values of all 14 interpreted kinds, item lists of any length", "why_tests_cant": "all field combinations; decimal digits, unit conversions and overflow", "anchors": ["src/psi/descriptors/*.rs: parse"]}
{"id": "C82", "title": "Interrupted reads can be resumed", "statement": "When the source fails or returns Ok(0) for the moment (a timeout, a non-blocking socket), a later read goes on where the interrupted one stopped and no packet is lost.", "quantifier": "every stream, every point of interruption", "why_tests_cant": "all interruption points", "anchors": ["src/reader/mod.rs: TsReader::read"]}
{"id": "C83", "title": "Lost packets", "statement": "When packets of a stream of packetised sections are lost, the receiver gets exactly those sections all of whose packets arrive.", "quantifier": "every list of sections, every set of lost packets", "why_tests_cant": "all loss patterns", "anchors": ["src/psi/mod.rs: Psi::mux, check, clear"]}
{"id": "C84", "title": "Repeated packets", "statement": "A packet sent twice in a row with the same continuity counter (ISO 13818-1 2.4.3.3) does not disturb the reassembly of the section.", "quantifier": "every section, every packet of it, every receiver state", "why_tests_cant": "all positions and section lengths", "anchors": ["src/psi/mod.rs: Psi::mux"]}
{"id": "C85", "title": "Any split of a section", "statement": "A section cut into the payloads of consecutive packets in any way (short payloads by way of adaptation fields) is reassembled.", "quantifier": "every section, every way of cutting it, every preceding receiver state", "why_tests_cant": "all cuts", "anchors": ["src/psi/mod.rs: Psi::mux"]}
{"id": "C86", "title": "Several sections in one packet", "statement": "When a packet holds several complete sections one after the other, all of them are received.", "quantifier": "every list of sections that fits a packet", "why_tests_cant": "all contents", "anchors": ["src/psi/mod.rs: Psi::mux"]}
{"id": "C87", "title": "Bit field packing", "statement": "`set_bits!` with fields whose widths add up to at most the word and whose values fit puts every value at its position; every field can be read back; a value never changes another field.", "quantifier": "every list of fields, all values", "why_tests_cant": "all field layouts and values", "anchors": ["src/bits.rs: set_bits!", "src/psi/descriptors/{x43,x4e,x5a,x83}.rs: assemble", "src/psi/eit.rs: EitItem::assemble"]}
{"id": "C88", "title": "Descriptors that are too long", "statement": "A descriptor whose body exceeds the 255 bytes the length byte can express is left out or refused as a whole, never written so that a reader finds other descriptors.", "quantifier": "every descriptor with a body of more than 255 bytes", "why_tests_cant": "unbounded item lists and texts", "anchors": ["src/psi/descriptors/*.rs: assemble"]}
{"id": "C89", "title": "Delivery system constants", "statement": "A delivery system descriptor built from the named constants of `constants` is sent with the codes EN 300 468 assigns to the named parameters.", "quantifier": "all combinations of parameters, all frequencies and rates", "why_tests_cant": "all parameter combinations", "anchors": ["src/constants.rs", "src/psi/descriptors/{x43,x44,x5a}.rs"]}
{"id": "C90", "title": "Descriptor containers", "statement": "`push`, `len`, `is_empty`, `get`, `get_mut` and `iter` behave as an ordered list and agree with `assemble` and `size`; `downcast_ref` with the type chosen by `tag()` succeeds.", "quantifier": "every list, index and descriptor", "why_tests_cant": "unbounded lists; every received body", "anchors": ["src/psi/descriptors/mod.rs: Descriptors, Descriptor::downcast_ref"]}
{"id": "C91", "title": "Tables over a lossy channel", "statement": "A table is sent with demux and some packets are lost (not the first; the four-bit counter stays unambiguous). The receiver, which feeds every arriving packet to the reassembler and then parses, ends with exactly the entries of the sections all of whose packets arrive, in order; a section with a lost packet contributes nothing and no other section suffers. The head fields are those of the table if any section arrives, otherwise the object is untouched. Network/program descriptors arrive with section 0.", "quantifier": "every PAT, PMT, NIT, SDT, EIT (present/following and schedule) and TOT in range, every pid, counter, every set of lost packets that leaves the counter unambiguous, every earlier state of the reassembler", "why_tests_cant": "there are exponentially many loss patterns and unboundedly many tables", "anchors": ["src/psi/mod.rs: Psi::mux, Psi::check, Psi::demux", "src/psi/sdt.rs: Sdt::parse", "src/psi/nit.rs: Nit::parse", "src/psi/eit.rs: Eit::parse", "src/psi/pat.rs: Pat::parse", "src/psi/pmt.rs: Pmt::parse", "src/psi/tot.rs: Tot::parse"]}
{"id": "C92", "title": "Tables sent repeatedly", "statement": "A table sent n times in a row with the counter handed on (as broadcasters do) is received by one object with its head fields as sent and every entry and descriptor n times over: parse accumulates, it never replaces or deduplicates. Only the time of TDT and TOT is replaced.", "quantifier": "every table in range, every n, pid, counter, destination buffer and earlier reassembler state", "why_tests_cant": "n and the tables are unbounded; the hand-over of the counter wraps modulo 16", "anchors": ["src/psi/mod.rs: Psi::mux, Psi::check, Psi::demux", "src/psi/sdt.rs: Sdt::parse", "src/psi/nit.rs: Nit::parse", "src/psi/eit.rs: Eit::parse", "src/psi/pat.rs: Pat::parse", "src/psi/pmt.rs: Pmt::parse", "src/psi/tdt.rs", "src/psi/tot.rs"]}
{"id": "C93", "title": "Clock helpers for arbitrary 64-bit arguments", "statement": "For arguments that are not clock values: in a release build `pcr_delta`, `pcr_to_stc`, `pcr_delta_bitrate` and `pcr_jitter_ns` never panic except by division by zero and compute modulo 2^64 step by step; in a debug build `pcr_delta` and `pcr_jitter_ns` panic exactly when an intermediate value leaves its type and otherwise agree with release. For two clock values `pcr_jitter_ns` never panics and is the signed distance in nanoseconds.", "quantifier": "all pairs and quadruples of 64-bit integers, both build profiles", "why_tests_cant": "2^128 argument pairs; overflow boundaries", "anchors": ["src/ts/pcr.rs: pcr_delta, pcr_to_stc, pcr_delta_bitrate, pcr_jitter_ns"]}
{"id": "C94", "title": "Tables made from a section", "statement": "`T::from(&psi)` gives, for an accepted section, an object holding exactly the fields and entries of that section; for any other section the empty object: all numbers zero, no entries.", "quantifier": "every section, every table type", "why_tests_cant": "all sections", "anchors": ["src/psi/{pat,pmt,nit,sdt,eit,tdt,tot}.rs: From<&Psi>, Default"]}
{"id": "C95", "title": "Relaying received descriptors", "statement": "Parsing a descriptor (or a descriptor loop) encoded as the standards prescribe and assembling the result reproduces the received bytes.", "quantifier": "all field values of all kinds, unknown tags, loops of any length", "why_tests_cant": "all field combinations and loops", "anchors": ["src/psi/descriptors/*.rs: parse, assemble", "src/psi/descriptors/mod.rs: Descriptors::parse, assemble"]}
{"id": "C96", "title": "Relaying received tables", "statement": "Receiving the sections of a table, whoever sent them and however they were cut into sections, and sending the resulting object gives sections that carry the same table: every field, entry and descriptor in order, cut into sections as full as allowed; a table of one section is reproduced byte for byte.", "quantifier": "all tables of all types, all ways of cutting them into sections, any PID and continuity counter on either side", "why_tests_cant": "all tables and all divisions into sections", "anchors": ["src/psi/{pat,pmt,nit,sdt,eit,tdt,tot}.rs: parse, demux", "src/psi/mod.rs: Psi::mux, PsiDemux"]}
{"id": "C97", "title": "Descriptor validity checks", "statement": "Each descriptor type's public `check` answers, for any slice, whether its length and inner lengths are those of a descriptor of its kind, and never panics; `parse` of a slice that `check` accepts does not panic.", "quantifier": "all byte slices (also ones not cut out by a descriptor loop), all fourteen kinds, both profiles", "why_tests_cant": "all slices", "anchors": ["src/psi/descriptors/x*.rs: check, parse"]}
{"id": "C98", "title": "Entries too large for a section", "statement": "When an entry, or the program/network descriptors, are larger than the 1024 bytes a PMT, NIT or SDT section may have leave room for, no section of more than 1024 bytes is sent, and all other entries are sent as usual.", "quantifier": "every PMT, NIT and SDT, entries and descriptor loops of any size the length fields can express", "why_tests_cant": "unbounded descriptor lists at any position of the table", "anchors": ["src/psi/{pmt,nit,sdt}.rs: psi_list_assemble, demux"]}
{"id": "C99", "title": "Constant bit rate multiplexer", "statement": "`Cbr::read` hands the caller the packets of its source in order; it follows the clock of the stream (PID of the first PCR, last PCR on that PID) and never panics.", "quantifier": "every packet source, every number of calls, every stream and division into reads", "why_tests_cant": "unbounded streams; capacity limits are reached after 26595 packets", "anchors": ["src/mux/cbr/mod.rs: Cbr::new, analyze, push_packet, read"]}
{"id": "C100", "title": "Schedules of any length", "statement": "However many events an EIT schedule has and however long it is, sending it does not panic, every event is sent once, no two sections have the same table id and number, the sections of a segment keep to its eight numbers, and a receiver gets all events back.", "quantifier": "every EIT schedule: any number of events, any start times, both build profiles", "why_tests_cant": "unbounded event lists; counters wrap after 256 sections or 160 sub-tables", "anchors": ["src/psi/eit.rs: Eit::psi_list_assemble, demux, parse"]}
{"id": "C101", "title": "Packetising with arguments that do not fit", "statement": "`Psi::demux` and `demux` of every table refuse (panic) a PID that does not fit 13 bits and an unfinished section, never write a packet with other header flags than documented, and take the continuity counter modulo 16.", "quantifier": "every section state, all 2^16 PIDs, all 2^8 counters, every table of every type, every destination buffer, both build profiles", "why_tests_cant": "all sections, tables, PIDs and counters", "anchors": ["src/psi/mod.rs: Psi::demux, PsiDemux::demux", "src/ts/mod.rs: set_pid, set_cc", "src/psi/{eit,tdt,tot}.rs: demux"]}
{"id": "C102", "title": "Debug and release builds differ only by panics", "statement": "For every operation and every argument a debug build either panics or does exactly what a release build does: the same value, the same bytes appended, the same panic or non-termination. A value observed in a debug build is the value of the release build.", "quantifier": "every modelled operation whose arithmetic depends on the build (clock, BCD, dates, packet headers, texts, descriptors, sections, every table's parse and demux), every argument, every history of packets fed to a collector", "why_tests_cant": "all arguments of all operations under both build profiles", "anchors": ["src/psi/mod.rs: Psi", "src/psi/*.rs: parse, demux, psi_list_assemble", "src/ts/*.rs", "src/psi/utils", "src/textcode/mod.rs"]}
{"id": "C103", "title": "Sending never fails", "statement": "In a release build every table can be sent, whatever its numbers, texts, descriptors and entries, however large it is and whatever PID and counter are given: sending returns and appends whole packets to the buffer. A debug build panics only for a delivery system descriptor with a number it refuses to write as decimal digits, for a PID or counter that does not fit, or for a schedule whose counts overflow.", "quantifier": "every table of every type, every content and size, every PID, counter and destination buffer, both build profiles", "why_tests_cant": "all contents of a table, including those that no test author would call valid", "anchors": ["src/psi/mod.rs: PsiDemux", "src/psi/pat.rs: Pat", "src/psi/pmt.rs: Pmt", "src/psi/nit.rs: Nit", "src/psi/sdt.rs: Sdt", "src/psi/eit.rs: Eit", "src/psi/tdt.rs: Tdt", "src/psi/tot.rs: Tot", "src/psi/descriptors/*.rs: assemble", "src/psi/utils/bcd.rs: BCD"]}
{"id": "C104", "title": "Decimal numbers, times and dates for arbitrary arguments", "statement": "`to_bcd`, `from_bcd`, `from_bcd_time` and `from_mjd` are defined for every argument: a debug build refuses (panics on) every number with too many digits, every value with a digit that is not decimal and every date before 1970, and nothing else; a release build reads digits of 10 to 15 by their value and place and takes results modulo the size of the type.", "quantifier": "every u8, u16 and u32 argument, both build profiles", "why_tests_cant": "2^32 arguments of several functions in two builds", "anchors": ["src/psi/utils/bcd.rs: BCD for u8, u16, u32", "src/psi/utils/bcd.rs: BCDTime for u16, u32", "src/psi/utils/mjd.rs: MJDFrom"]}
{"id": "C105", "title": "Every sent section states its own size", "statement": "The length field of every section that `demux` sends (and that `finalize` completes) counts exactly the bytes of the section, however large the descriptor loops, entries or events of the table are.", "quantifier": "every PMT, NIT, SDT, TOT and EIT (present/following and schedule) with well-formed descriptors of any total size, every PID, counter and buffer, both build profiles", "why_tests_cant": "sizes are unbounded, and the limit lies beyond what tests build", "anchors": ["src/psi/mod.rs: Psi::finalize", "src/psi/pmt.rs: Pmt, PmtItem::assemble", "src/psi/nit.rs: Nit, NitItem::assemble", "src/psi/sdt.rs: Sdt, SdtItem::assemble", "src/psi/eit.rs: Eit, EitItem::assemble", "src/psi/tot.rs: Tot"]}
{"id": "C106", "title": "What a receiver makes of a table's descriptors", "statement": "Receiving the packets of any table gives back every field and every entry in order, and for each descriptor list exactly what parsing its assembled bytes gives (also where that is something else or a panic): sending and receiving adds no change of its own, and a list that does not survive does not disturb any other.", "quantifier": "every SDT, NIT, PMT, TOT and EIT with well-formed descriptors, including texts and numbers that do not read back exactly, every PID, counter and buffer, any state of the receiver before, both build profiles", "why_tests_cant": "all contents of all descriptors in all positions of a table", "anchors": ["src/psi/{pmt,nit,sdt,eit,tot}.rs: parse, demux", "src/psi/descriptors/mod.rs: Descriptors::assemble, Descriptors::parse"]}
{"id": "C107", "title": "Tables that share a PID", "statement": "If tables of any kinds are sent one after the other on one PID, an object that is given every section collects exactly the tables of its own kind: their entries in order, all other fields as in the last of them. Tables of other kinds have no influence, whatever the object and the reassembler held before.", "quantifier": "every list of PAT, PMT, NIT, SDT, EIT, TDT and TOT tables with in-range fields, in any order and number, every PID, counter and buffer, every previous state, both build profiles", "why_tests_cant": "unbounded mixtures of seven kinds of tables", "anchors": ["src/psi/{pat,pmt,nit,sdt,eit,tdt,tot}.rs: check, parse, demux", "src/psi/mod.rs: Psi::mux"]}
{"id": "C108", "title": "Finding the programs of a stream", "statement": "Receiving the PAT of a stream and then the PMT of every program from the PID given in the PAT finds exactly the programs that were sent, in order, each with its own PMT.", "quantifier": "every list of up to 253 programs with in-range PMTs on any PIDs, every PAT that lists them, any leading garbage without sync bytes, any chunking of the stream, both build profiles", "why_tests_cant": "all sets of programs and assignments of PIDs", "anchors": ["src/psi/pat.rs: Pat", "src/psi/pmt.rs: Pmt::parse", "src/reader/mod.rs: TsReader", "src/psi/mod.rs: Psi::mux"]}
{"id": "C109", "title": "A stream of tables on several PIDs", "statement": "Tables of any kinds sent on any PIDs, with one continuity counter per PID, reach every receiver that listens to their PID, however packets of different PIDs are interleaved. With the crate's PID constants they are found on the PIDs of EN 300 468: PAT 0x0000, NIT 0x0010, SDT 0x0011, EIT 0x0012, TDT and TOT 0x0014.", "quantifier": "every list of tables with in-range fields and PIDs, all counters, every source that carries the packets of each PID in order, every chunking, both build profiles", "why_tests_cant": "all mixtures of tables, PIDs and packet orders", "anchors": ["src/psi/{pat,pmt,nit,sdt,eit,tdt,tot}.rs: PAT_PID, NIT_PID, SDT_PID, EIT_PID, TDT_PID, TOT_PID, demux, parse", "src/reader/mod.rs: TsReader", "src/psi/mod.rs: Psi::mux"]}
{"id": "C110", "title": "The bytes sent for any values", "statement": "For every table, whatever its fields, texts, numbers, descriptors and times contain and however many entries it has, the packets that are sent are determined and given by a layout: each value at its place, a value too large for its field or-ed over the fields before it in the same byte or word, sizes stated modulo their field, entries in order over sections by the size they are counted with. No other byte is affected, and only a debug build refuses anything: the numbers of delivery system descriptors and schedules that overflow (C103).", "quantifier": "every descriptor, SDT, PMT, NIT, TDT, TOT and EIT (present/following and schedule) with arbitrary field values, every PID below 8192, every counter below 16, every buffer, both build profiles", "why_tests_cant": "all values of all fields, including those no test author would call valid", "anchors": ["src/psi/descriptors/*.rs: assemble, size", "src/psi/{pmt,nit,sdt,eit,tdt,tot}.rs: assemble, demux", "src/psi/mod.rs: Psi::finalize, PsiDemux"]}
{"id": "C111", "title": "Tables from other senders", "statement": "Sections laid out as ISO 13818-1 and EN 300 468 prescribe, with any values of the bits a sender is free to choose (reserved bits, section numbers, version, last table id, segment numbers, durations up to 99:59:59), in any number and order, are received as the standard defines them: the fields of the last section, the entries of all in order, each descriptor loop as the list of its complete descriptors.", "quantifier": "all PAT, PMT, NIT, SDT, EIT, TDT and TOT sections of up to 4096 bytes, loops of any bytes, lists of any length, every PID, counter, table object and reassembler state, both build profiles", "why_tests_cant": "all field values and all sequences of sections", "anchors": ["src/psi/{pat,pmt,nit,sdt,eit,tdt,tot}.rs: parse", "src/psi/mod.rs: Psi::mux, check"]}
{"id": "C112", "title": "Tables announced for later", "statement": "A section whose current_next_indicator is 0 describes a table that is not yet in force; receiving it does not change the table object.", "quantifier": "every PAT, PMT, NIT, SDT and EIT section of any sender", "why_tests_cant": "all sections and objects", "anchors": ["src/psi/{pat,pmt,nit,sdt,eit}.rs: parse, check"]}
{"id": "C113", "title": "Damaged and scrambled packets", "statement": "A packet marked as damaged (transport_error_indicator) or scrambled (transport_scrambling_control) is not used for a section. The reassembler looks at no other header bits than the start flag, the presence flags, the counter and these.", "quantifier": "every packet, every reassembler state, all values of sync byte, error flag, priority, PID and scrambling control", "why_tests_cant": "all header values", "anchors": ["src/psi/mod.rs: Psi::mux"]}
{"id": "C114", "title": "Events without a start time", "statement": "An event whose start time is undefined (all bits one, EN 300 468 5.2.4, used for reference services of near video on demand) is received without panic and can be told from an event with a start time.", "quantifier": "every EIT section with such events, both build profiles", "why_tests_cant": "all sections; two build profiles", "anchors": ["src/psi/eit.rs: EitItem::parse", "src/psi/utils/bcd.rs: from_bcd_time", "src/psi/utils/mjd.rs: from_mjd"]}
{"id": "C115", "title": "Texts of other senders", "statement": "A text written by another sender as EN 300 468 annex A prescribes (any table selector, accents in front of their letters in the default table, control codes for line breaks) displays as the characters it stands for, and letters the chosen table has can be sent with it.", "quantifier": "every text, every table, every control code", "why_tests_cant": "all byte strings; accents and control codes mean something only in context", "anchors": ["src/textcode/mod.rs: From<&[u8]> for StringDVB, Display for StringDVB, from_str"]}
{"id": "C116", "title": "Clock arithmetic on arbitrary values", "statement": "For arguments outside the range of the clock, or so large that a product leaves 64 bits, it is determined which clock functions panic in a debug build and what a release build returns; the jitter of any two clock values in range is determined too.", "quantifier": "all 64-bit arguments, both build profiles (jitter: every pair of clock values in range)", "why_tests_cant": "all 64-bit values", "anchors": ["src/ts/pcr.rs: pcr_delta, pcr_to_stc, pcr_jitter_ns, pcr_delta_bitrate", "src/es/pes.rs: pts_delta"]}
{"id": "C117", "title": "Decimal and date conversions of arbitrary values", "statement": "For values that are no decimal digits, numbers with too many digits and dates before 1970 it is determined which conversions panic in a debug build and what they return otherwise.", "quantifier": "every u8, u16, u32, both build profiles", "why_tests_cant": "all values of 32 bits", "anchors": ["src/psi/utils/bcd.rs: BCD", "src/psi/utils/mjd.rs: MJDFrom"]}
{"id": "C118", "title": "Debug text of tables", "statement": "Formatting a table or descriptor with `{:?}` or `{:#?}` (for a log) never panics; it writes the names and values of all fields, of every item and every descriptor, in order, on one line or indented on several lines.", "quantifier": "every PAT, PMT, NIT, SDT, EIT, TDT, TOT and descriptor, however received", "why_tests_cant": "any contents, in particular any received code page", "anchors": ["src/textcode/mod.rs: impl Debug for StringDVB", "src/psi/descriptors/mod.rs: impl Debug", "src/psi: derived Debug"]}
{"id": "C119", "title": "The generator of the code page tables", "statement": "Run on a directory of Unicode's ISO 8859 mapping files (in any order, beside hidden files), the tool prints the Rust source of one table per part, by ascending part, with exactly the characters the files assign to the bytes A0 to FF and 0 for the others; files that list the characters of the standard give the tables the crate contains. A file of an unknown part, or an entry with two separators between its columns, makes it fail instead of printing a wrong table. For any directory of files of any text whatsoever the result, or the failure, follows from the lines alone.", "quantifier": "every directory of any files with any text, and in particular every set of parts, content in Unicode's format and order of the directory", "why_tests_cant": "all file contents and directory orders", "anchors": ["tools/iso8859-parser.rs: main, read_file", "src/textcode/data.rs"]}
{"id": "C120", "title": "Every call comes to an end", "statement": "Whatever the arguments and whatever the state of the objects, every call of the crate returns or panics: none runs forever and none has undefined behaviour. (False for splitting a text: into pieces as small as the selector of its code page, or a UTF-8 text into pieces of at most three bytes too small for one of its letters, it runs forever.)", "quantifier": "every function, every byte string, every object (also built by hand with any field values), every profile, every behaviour of the source", "why_tests_cant": "all inputs and states; running forever cannot be observed by a test", "anchors": ["src/lib.rs", "src/psi/mod.rs: Psi::mux, Psi::demux", "src/textcode/mod.rs: StringDVB::split, StringDVB::truncate", "src/reader/mod.rs", "src/reader/drain.rs", "src/mux/cbr/mod.rs", "src/ts/debug.rs", "tools/iso8859-parser.rs"]}
{"id": "C121", "title": "Sections one behind the other", "statement": "A sender may put sections one behind the other, so that a packet holds the end of one and the beginning of the next. A program that gives every packet with payload to the reassembler and the parser, and a packet with a pointer_field other than 0 twice, gets every section of any sender exactly once and in order, whatever the cuts, the adaptation fields and the packets without payload in between. (False for a TDT cut in two, for a second section that begins in the same packet, and when packets without payload are given to the parser as well.)", "quantifier": "every list of sections with any field values of PAT, PMT, SDT, NIT, EIT and TOT, every way to cut them into packets, every state of the reassembler at the start, every profile", "why_tests_cant": "all cuts of all sections into all packet layouts", "anchors": ["src/psi/mod.rs: Psi::mux, Psi::check", "tests/psi.rs: test_parse_ts_two_psi", "src/psi/pat.rs: Pat::parse", "src/psi/pmt.rs: Pmt::parse", "src/psi/sdt.rs: Sdt::parse", "src/psi/nit.rs: Nit::parse", "src/psi/eit.rs: Eit::parse", "src/psi/tot.rs: Tot::parse", "src/psi/tdt.rs: Tdt::parse"]}
{"id": "C122", "title": "Tables of any sender from any source", "statement": "Reading a source packet by packet and giving the packets of a PID to the reassembler and the parser yields exactly the tables the sections on that PID state, whoever made them: whatever the field values and reserved bits, however the sections are cut into packets, whatever other PIDs, packets without payload and bytes between packets there are, and however the source splits its data. Following the PAT finds the programs it names, in order, with the PMT of each. (False for the program descriptors of a PMT, which are read one byte too early.)", "quantifier": "every source without end or error before its data is exhausted, every list of sections of PAT, PMT, SDT, NIT, EIT and TOT, every layout with at most one section beginning per packet, every profile", "why_tests_cant": "all streams of all senders in all chunkings", "anchors": ["src/reader/mod.rs: TsReader::read", "src/ts/mod.rs: get_pid", "src/psi/mod.rs: Psi::mux", "src/psi/pat.rs: Pat::parse", "src/psi/pmt.rs: Pmt::parse", "src/psi/sdt.rs: Sdt::parse", "src/psi/nit.rs: Nit::parse", "src/psi/eit.rs: Eit::parse", "src/psi/tot.rs: Tot::parse"]}
{"id": "C123", "title": "Other receivers get the tables", "statement": "Whatever receiver takes the sections from the packets as ISO/IEC 13818-1 says gets from everything a table sends exactly the sections of that table: each intact and well formed, all current, numbered from 0 to the last, with the ids and the version of the table, the outer descriptors in the first one, and the entries of the table, all of them and in order, in standard form.", "quantifier": "every table whose entries fit into a section, every PID, continuity counter, output written before, number of sections, both build profiles", "why_tests_cant": "The tests of the crate receive what it sends with its own reassembler only, for a handful of tables; an error both directions share goes unnoticed.", "anchors": ["src/psi/mod.rs: Psi::demux, finalize, PsiDemux", "src/psi/pat.rs", "src/psi/pmt.rs", "src/psi/nit.rs", "src/psi/sdt.rs", "src/psi/eit.rs", "src/psi/tdt.rs", "src/psi/tot.rs"]}
{"id": "C124", "title": "What is read from any descriptor", "statement": "Every descriptor, whatever its tag and bytes (reserved bits of any value, digits that are not decimal, texts in any code page), is read as the values that stand at the bit positions of its syntax table in ISO/IEC 13818-1 and EN 300 468; one with a body its table does not allow, or of an unknown kind, is kept as bytes. A loop is read as the list of its complete descriptors in order. (Where parsing panics is given by C38.)", "quantifier": "every tag, every body of up to 255 bytes, every descriptor loop of any length, both build profiles", "why_tests_cant": "all bit patterns of 14 kinds; tests use the patterns a well-behaved sender would write", "anchors": ["src/psi/descriptors/x*.rs: parse", "src/psi/descriptors/mod.rs: Descriptor::parse, Descriptors::parse"]}
{"id": "C125", "title": "What is read from any section", "statement": "Parsing a table from any section that passes the checks gives the values that stand at the bit positions of the section syntax tables, for every bit pattern: header fields are replaced, and every entry, with every descriptor, is added in order; a section that does not pass changes nothing. (Where parsing panics is given by C67. False for the program descriptors of a PMT, read from one byte too early, and for a TOT whose descriptors are announced to reach into the CRC, which is then read as a descriptor.)", "quantifier": "every section object (any bytes, any size, also ones no sender would write), every table object before, all seven tables, both build profiles", "why_tests_cant": "all bit patterns of sections of up to 4096 bytes", "anchors": ["src/psi/{pat,pmt,nit,sdt,eit,tdt,tot}.rs: parse", "src/psi/descriptors/mod.rs: Descriptors::parse"]}
{"id": "C126", "title": "What is received from any packets", "statement": "What a reassembler holds after any packets whatsoever (any headers, counters, pointer and adaptation fields, in any order, of any contents) is given by rules on the raw bits: a packet without payload changes nothing; one whose payload or section would lie outside it empties the reassembler, or panics in the cases of C45; a start continues a section under way if the counter follows and the pointer_field is not 0, and otherwise begins a new one behind the pointer_field; any other packet adds its payload up to the end of the section if the counter follows and otherwise empties the reassembler. A table that parses after every packet holds what the sections so collected say, bit by bit. (For the PMT and TOT with the errors of C125.)", "quantifier": "every list of 188-byte packets, every table object before, all seven tables, both build profiles", "why_tests_cant": "all packet sequences", "anchors": ["src/psi/mod.rs: Psi::mux, Psi::push", "src/psi/{pat,pmt,nit,sdt,eit,tdt,tot}.rs: parse"]}
{"id": "C127", "title": "Any sections on a PID", "statement": "Whatever sections are sent on a PID (of any table, private ones, ones with a wrong CRC), a program that reads the source, takes the packets of the PID and parses as in C121 makes of them exactly what a receiver that follows ISO/IEC 13818-1 finds: each section it finds is read bit by bit if it is intact and of the kind of the table, and ignored otherwise. (For the PMT and TOT with the errors of C125.)", "quantifier": "every source that delivers its data in any chunks, every other PID, garbage between packets, every list of sections, every layout with at most one section beginning per packet, every table object before; PAT, PMT, NIT, SDT, EIT, TOT; both build profiles", "why_tests_cant": "all streams of all sections in all layouts and chunkings", "anchors": ["src/reader/mod.rs: TsReader::read", "src/ts/mod.rs: get_pid", "src/psi/mod.rs: Psi::mux, check", "src/psi/{pat,pmt,nit,sdt,eit,tot}.rs: parse"]}
{"id": "C128", "title": "Reading from any source", "statement": "Over any implementation of `Read` that keeps to its contract, however it decides what to deliver (a socket, a pipe, another reader, a generator that never ends), one call of the packet reader does what it does with the byte stream the source has delivered in the same pieces, takes nothing more from the source, and does not return only as long as the source delivers bytes other than the sync byte. A source that claims more bytes than there was room for is found out by a panic. (The last is false in a release build: a claim of nearly 2^64 bytes makes the reader go back in its buffer and return 188 bytes without a sync byte.)", "quantifier": "every implementation of Read with any state and behaviour, every buffer, every number of calls, both build profiles", "why_tests_cant": "all behaviours of all sources; running forever cannot be observed by a test", "anchors": ["src/reader/mod.rs: TsReader::read"]}
{"id": "C129", "title": "Descriptors of the user's own types", "statement": "A user of the crate may implement the public trait `Desc` for types of their own and put values of them anywhere in the descriptor lists of a table. A value that appends the bytes of complete descriptors and states their number is sent, and received, exactly as uninterpreted descriptors of the same tags and bodies would be, in every table, together with the crate's own; whatever it states, the number decides only which section an entry goes to. It is got back with a cast to its type, no cast to another type succeeds, its tag counts for the type of an elementary stream, and it can be cloned like any other. (The last is false: a list that has one panics when it is cloned, and so does an event. Also, understated sizes lead to sections above 1024 bytes.)", "quantifier": "every descriptor type and value whose methods are functions of their arguments, every table of them and the crate's own, every PID, counter and buffer, both build profiles", "why_tests_cant": "the types do not exist yet when the crate is tested", "anchors": ["src/psi/descriptors/mod.rs: Desc, AsAny, Descriptor, Descriptors", "src/psi/{pmt,nit,sdt,eit,tot}.rs: PsiDemux"]}
{"id": "C130", "title": "Tables of the user's own types", "statement": "A user of the crate may implement the public trait `PsiDemux` for a table of their own. Whatever sections their type assembles, and whatever its finalize hook makes of each of them, all are sent in order: with the section number and the last section number in bytes 6 and 7 before the hook sees the section, length and CRC added after it (only the CRC renewed where the user has set the size), on the given PID with the counter going on. Any receiver that follows the standard and the crate's own reassembler get exactly these sections. A table without sections sends nothing; one with a section of fewer than eight bytes is never sent.", "quantifier": "every list of sections of any contents, every hook that is a function of the section, every PID below 8192, counter below 16 and buffer, both build profiles", "why_tests_cant": "the types do not exist yet when the crate is tested", "anchors": ["src/psi/mod.rs: PsiDemux::psi_list_assemble, PsiDemux::finalize, PsiDemux::demux, Psi::finalize, Psi::demux"]}
{"id": "C131", "title": "Language and country codes given as text", "statement": "A descriptor whose language or country codes (languages, short event, extended event, local time offset) were made from text is sent so that it is received as it was sent, whatever table the text was made for.", "quantifier": "every descriptor with codes, every table, every three printable ASCII characters, every buffer and receiver, both build profiles", "why_tests_cant": "the length byte counts three bytes for a code whatever its encoding takes, so the outcome depends on table, text and the other fields together", "anchors": ["src/psi/descriptors/x0a.rs: Desc0A::size, assemble", "src/psi/descriptors/x4d.rs: Desc4D::check, size, assemble", "src/psi/descriptors/x4e.rs: Desc4E::size, assemble", "src/psi/descriptors/x58.rs: Desc58::size, assemble", "src/textcode/mod.rs: StringDVB::from_str, assemble"]}
{"id": "C132", "title": "Comparing strings", "statement": "Two strings are equal exactly if they are in the same table and have the same bytes; equal strings are sent and shown alike. Texts are equal as strings exactly if they are equal as texts; is_empty tells whether anything is sent, and is true of a string made from text exactly if the text is empty. A received string equals the one sent exactly if that can be told from its bytes, so that a name can be searched for in what was received.", "quantifier": "all strings, all texts, all tables, all received bytes", "why_tests_cant": "the texts and tables are unbounded, and equality has to agree with encoding, decoding and display at once", "anchors": ["src/textcode/mod.rs: StringDVB (derived PartialEq), get_codepage, as_bytes, is_empty, from_str, assemble, size, From<&[u8]>, Display"]}
{"id": "C133", "title": "Tables with a table id that is not of their kind", "statement": "The table id of an SDT, NIT or EIT is a public field with the default zero. A table is received under the id it was given by an object of its kind, and not taken for a table of another kind.", "quantifier": "all tables, all values of the table id, all receivers and reassembler states", "why_tests_cant": "the id, the contents and the state of the receiver are arbitrary, and sending and receiving have to agree", "anchors": ["src/psi/sdt.rs: Sdt::demux, Sdt::parse", "src/psi/nit.rs: Nit::demux, Nit::parse", "src/psi/eit.rs: Eit::demux, Eit::parse", "src/psi/pat.rs: Pat::parse"]}
{"id": "C134", "title": "A long text in several descriptors", "statement": "A text too long for one descriptor can be split, its pieces sent as numbered extended event descriptors of an event, and received: the pieces arrive with their numbers, and the texts of the received descriptors, one after the other, are shown as the text.", "quantifier": "all texts, all tables, all sizes of pieces, all languages, all events and tables around them", "why_tests_cant": "the text, the size of the pieces and the position of every cut are arbitrary, and conversion, splitting, encoding, packetisation, reassembly and display have to agree", "anchors": ["src/textcode/mod.rs: StringDVB::from_str, split, assemble, From<&[u8]>, Display", "src/psi/descriptors/x4e.rs: Desc4E::assemble, Desc4E::parse", "src/psi/eit.rs: Eit::demux, Eit::parse"]}
{"id": "C135", "title": "Joining a stream in the middle", "statement": "A receiver may begin anywhere in a stream. A reader that begins within a packet finds the packets that follow; a reassembler that begins within a section makes nothing of the rest of it and receives the sections that follow; a table object is what it would be had the receiver begun with the next section.", "quantifier": "every stream of packets and of sections, every byte and every packet to begin with, every counter, every way the source cuts its reads", "why_tests_cant": "the point where a receiver begins, the counters there and the bytes left of the packet and of the section are arbitrary", "anchors": ["src/reader/mod.rs: TsReader::read", "src/psi/mod.rs: Psi::mux, Psi::check"]}
{"id": "C136", "title": "Values that do not fit their fields", "statement": "A number in a table or descriptor that is too large for its field on the wire is reduced to the low bits of the field (an offset or duration modulo a day). Every other field, entry and byte is sent, and received, as if the number had fit.", "quantifier": "every table of every kind with arbitrary numbers in all fields, every descriptor, both build profiles, every PID and counter", "why_tests_cant": "the values, their combinations and the number of entries and descriptors are arbitrary", "anchors": ["src/psi/pat.rs: PatItem::assemble", "src/psi/pmt.rs: PmtItem::assemble, psi_init", "src/psi/sdt.rs: SdtItem::assemble", "src/psi/eit.rs: EitItem::assemble", "src/psi/descriptors: assemble", "src/bits.rs: set_bits"]}
{"id": "C137", "title": "Times the wire format cannot carry", "statement": "A time in a TDT, a TOT, a local time offset descriptor or an EIT event that lies after the last day the format has a number for (22 April 2038) is received as that time, or refused. In particular receiving it never panics.", "quantifier": "all times of 64 bits, tables that hold them, reassembler states and both build profiles", "why_tests_cant": "times beyond 2038 are 2^64 values, and the outcome depends on the day modulo 2^16 and on the seconds modulo 2^32; tests use one time of their own year", "anchors": ["src/psi/tdt.rs: Tdt::demux, Tdt::parse", "src/psi/tot.rs: Tot::demux, Tot::parse", "src/psi/eit.rs: Eit::demux, EitItem::parse", "src/psi/utils/mjd.rs: MJDTo, MJDFrom"]}
{"id": "C138", "title": "Different tables are sent differently", "statement": "Two tables of the same kind, sent on the same PID with the same counter, are sent as the same bytes exactly if they agree in everything that is sent: every value reduced to its field, in order (for a PAT the first 253 programs; for a TDT the day modulo 2^16 and the seconds of the day). So a change of any other kind is visible in the packets, program descriptors of a PMT included, which the library itself does not read back. The same for single descriptors and for schedules, the table id of a schedule included.", "quantifier": "all pairs of tables (PAT, TDT) or of tables whose entries fit into a section and whose descriptors are in range, all PIDs, counters, buffers and both build profiles", "why_tests_cant": "ranges over all pairs of tables; two tables that collide are not found by comparing samples", "anchors": ["src/psi/pat.rs: Pat::demux", "src/psi/pmt.rs: Pmt::demux", "src/psi/nit.rs: Nit::demux", "src/psi/sdt.rs: Sdt::demux", "src/psi/eit.rs: Eit::demux", "src/psi/tdt.rs: Tdt::demux", "src/psi/tot.rs: Tot::demux", "src/psi/descriptors/mod.rs: Descriptors::assemble"]}
{"id": "C139", "title": "No more sections than necessary", "statement": "However the entries of a PMT, NIT or SDT are distributed over sections of at most 1024 bytes, in order and with the descriptors of the whole table in the first, there are at least as many sections as the library sends, and the sections it sends have at most 1024 bytes. For schedules, within a segment, the same should hold for sections of at most 4096 bytes.", "quantifier": "all tables whose entries fit into a section, all distributions of the entries over sections, all PIDs, counters, buffers and both build profiles", "why_tests_cant": "ranges over all tables and all ways to distribute their entries", "anchors": ["src/psi/pmt.rs: Pmt::psi_list_assemble", "src/psi/nit.rs: Nit::psi_list_assemble", "src/psi/sdt.rs: Sdt::psi_list_assemble", "src/psi/eit.rs: Eit::psi_list_assemble"]}
{"id": "C140", "title": "Comparing sections shows a change", "statement": "Two intact sections compare equal exactly if they are the same, so a receiver that compares a section with the one before it sees every change of a table. (Sections compare by size and CRC; this shows every change within 32 bits, but not every change.)", "quantifier": "every two intact sections; every PAT, every change of one programme, of the version, or of two neighbouring programmes", "why_tests_cant": "two sections with the same size and CRC have to be constructed for every given section; and that no change within 32 bits goes unseen is a statement about all sections and all changes", "anchors": ["src/psi/mod.rs: PartialEq for Psi", "src/psi/mod.rs: Psi::check", "src/psi/mod.rs: Psi::get_crc32", "src/psi/pat.rs: Pat"]}
{"id": "C141", "title": "Sections with up to three damaged bits are rejected", "statement": "A section of any size in which one, two or three bits are damaged after it was made, wherever they are (except in its length field), is rejected: the checksums differ, checking the section says so, and a table that is given the section, or the packets that carry it, stays as it was. Three is the limit: every section of 376 bytes or more has four bits that can be damaged without any of this.", "quantifier": "every section of up to 4098 bytes, every choice of one to three bits, every table with a CRC, every PID, counter and state of the receiver, both build profiles", "why_tests_cant": "a section has up to 32784 bits and so about 6 * 10^12 choices of three of them, for each of the unboundedly many sections", "anchors": ["src/psi/utils/crc32.rs: crc32b", "src/psi/mod.rs: Psi::check, Psi::mux", "src/psi/pat.rs: Pat::parse", "src/psi/pmt.rs: Pmt::parse", "src/psi/sdt.rs: Sdt::parse", "src/psi/nit.rs: Nit::parse", "src/psi/eit.rs: Eit::parse", "src/psi/tot.rs: Tot::parse"]}
{"id": "C142", "title": "Tables over a channel that damages bits", "statement": "A table is sent and of each of its sections up to three bits, or any bits inside a window of 32 consecutive ones, are damaged on the way (not in the length field). The receiver ends with exactly the entries of the sections that arrive undamaged, in order; a damaged section contributes nothing and no other section suffers. The head fields are those of the table if any section arrives undamaged, otherwise the object is untouched. (False for the TDT, which has no CRC.)", "quantifier": "every PAT, PMT, NIT, SDT, EIT (present/following and schedule) and TOT in range, every TDT, every choice of up to three bits or of a burst of up to 32 bits of each section, every pid, counter, earlier state of the reassembler, both build profiles", "why_tests_cant": "every section has about 10^12 choices of three bits, tables have unboundedly many sections, and reassembly, checking and parsing have to agree on every one", "anchors": ["src/psi/utils/crc32.rs: crc32b", "src/psi/mod.rs: Psi::check, Psi::mux, Psi::demux", "src/psi/pat.rs: Pat::parse", "src/psi/pmt.rs: Pmt::parse", "src/psi/sdt.rs: Sdt::parse", "src/psi/nit.rs: Nit::parse", "src/psi/eit.rs: Eit::parse", "src/psi/tot.rs: Tot::parse", "src/psi/tdt.rs: Tdt::parse"]}
{"id": "C143", "title": "Tables over a channel that loses packets and damages bits", "statement": "A table is sent; packets are lost on the way (not the very first one, and such that the four-bit counter stays unambiguous), and of each section up to three bits, or any bits inside a window of 32 consecutive ones, are damaged (not in the length field). The receiver ends with exactly the entries of the sections all of whose packets arrive and none of whose bits is damaged, in order; loss and damage of a section do no harm to any other. The head fields are those of the table if there is such a section, otherwise the object is untouched.", "quantifier": "every PAT, PMT, NIT, SDT, EIT (present/following and schedule) and TOT in range, every set of lost packets that leaves the counter unambiguous, every choice of damaged bits of each section, every pid, counter, earlier state of the reassembler, both build profiles", "why_tests_cant": "losses and damages combine freely over an unbounded stream; a test can only try single faults", "anchors": ["src/psi/utils/crc32.rs: crc32b", "src/psi/mod.rs: Psi::check, Psi::mux, Psi::demux", "src/psi/pat.rs: Pat::parse", "src/psi/pmt.rs: Pmt::parse", "src/psi/sdt.rs: Sdt::parse", "src/psi/nit.rs: Nit::parse", "src/psi/eit.rs: Eit::parse", "src/psi/tot.rs: Tot::parse"]}
{"id": "C144", "title": "Bytes lost or inserted on the way", "statement": "Bytes of a stream of packets are lost, inserted or replaced somewhere. The packets before the damage are delivered as they are; the reader is in step again behind it and from then on delivers every packet; only damaged packets are lost, and nothing is delivered that nobody sent.", "quantifier": "every stream of packets, every damage of any length at any place, every way the source cuts its reads", "why_tests_cant": "all damages of all streams", "anchors": ["src/reader/mod.rs: TsReader::read", "src/psi/mod.rs: Psi::mux"]}
{"id": "C145", "title": "Packets changed on the way", "statement": "A packet that is moved to another PID, numbered anew or given another PCR with the header functions keeps its payload and everything else, and the sections and tables received from the changed packets are exactly those the packets had carried before. A table moved to another PID or counted from another number is bit for bit the table sent so.", "quantifier": "every list of packets with any adaptation field up to 250 bytes and any payload, every PID, counter and PCR, every state of the reassembler, both builds", "why_tests_cant": "tests change single packets with fixed contents; that no setter reaches into what the reassembler reads is a statement about all packets, all adaptation fields and all histories", "anchors": ["src/ts/mod.rs: set_pid, set_cc, get_cc", "src/ts/pcr.rs: is_pcr, set_pcr", "src/psi/mod.rs: Psi::mux, Psi::check"]}
{"id": "C146", "title": "Reading a section only when it changes", "statement": "A receiver that compares every intact section with the last one it read, and reads it only if they differ, has a table that is sent again and again exactly once, and has the new table once a changed one is sent.", "quantifier": "every table of one section and every sequence of sections, any number of repetitions, every pattern of lost packets, every state of the reassembler, both builds", "why_tests_cant": "how often a broadcaster repeats a table and what changes in it is unbounded; that a change is always noticed is false, and tests with a few changes do not show it", "anchors": ["src/psi/mod.rs: Psi::check, Psi::eq, Psi::clone, Psi::mux", "src/psi/pat.rs: parse", "src/psi/sdt.rs: parse", "src/psi/tot.rs: parse", "src/psi/eit.rs: parse"]}
{"id": "C147", "title": "Measuring time along a stream", "statement": "A receiver that reads the clock of a program off the packets of a stream and adds up the differences measures the time that passed, however long the stream; and on a stream of constant rate the jitter it computes from the estimate is only that of rounding.", "quantifier": "every stream of packets, every sequence of clock readings less than a period apart, any length of time, every constant rate and every distance between PCRs, both builds", "why_tests_cant": "a recording of more than 26 hours and every rate and distance would have to be tried; the loss of a tick and the panic happen only where the clock starts again", "anchors": ["src/ts/pcr.rs: is_pcr, get_pcr, set_pcr, pcr_delta, pcr_to_stc, pcr_jitter_ns", "src/es/pes.rs: pts_delta", "src/reader/mod.rs: TsReader::read"]}
{"id": "C148", "title": "Elementary streams", "statement": "A receiver that takes the payloads of a PID apart at the start indicator gets exactly the PES packets of the sender, whatever adaptation fields, flags and other packets the stream has, and reads from each its time stamps and its data.", "quantifier": "every stream of packets, every division of PES packets into packets, every adaptation field and header, every PES header with any combination of PTS and DTS, every source and division into reads, both builds", "why_tests_cant": "the ways to cut and pad PES packets and to mix them with other packets are unbounded", "anchors": ["src/ts/mod.rs: get_pid, is_payload, is_pusi, get_payload_offset", "src/es/pes.rs: is_prefix, is_syntax_spec, is_pts, get_pts, is_dts, get_dts, get_payload_offset", "src/reader/mod.rs: TsReader::read"]}
{"id": "C149", "title": "Receiving a program", "statement": "Knowing only the number of a program, a user receives the PAT, the PMT listed there, the clock on the PID given there and all elementary streams listed there: every PES packet of every stream with its time stamps, and the time that passed.", "quantifier": "every PAT, every PMT, every program number, every clock, every set of elementary streams, every mixture of their packets with others, every source and division into reads, both builds", "why_tests_cant": "what is received depends on every table, every packet and every mixture", "anchors": ["src/psi/pat.rs: Pat::parse", "src/psi/pmt.rs: Pmt::parse", "src/psi/mod.rs: Psi::mux", "src/ts/mod.rs: get_pid, is_pusi, get_payload_offset", "src/ts/pcr.rs: get_pcr, pcr_delta", "src/es/pes.rs: get_pts, get_dts, get_payload_offset", "src/reader/mod.rs: TsReader::read"]}
{"id": "C150", "title": "Only the packets of a program matter to it", "statement": "What is received of a program is determined by the packets of the PAT, of its PMT, of its clock and of its elementary streams. Two streams that have these in common, in the same order on each PID, give the same result, whatever is on other PIDs and however the packets of different PIDs follow each other. So a program can be extracted: with a new PAT that lists it and only its own packets, the same is received of it.", "quantifier": "every two streams of packets of any contents (also ones that make the parser panic), every program number, every new PAT, every source and division into reads, both builds", "why_tests_cant": "two streams of any length with any other contents have to be compared", "anchors": ["src/psi/pat.rs: Pat::parse, Pat::demux", "src/psi/pmt.rs: Pmt::parse", "src/psi/mod.rs: Psi::mux", "src/ts/mod.rs: get_pid, is_pusi, get_payload_offset", "src/ts/pcr.rs: get_pcr, pcr_delta", "src/es/pes.rs: get_pts, get_dts, get_payload_offset", "src/reader/mod.rs: TsReader::read"]}
{"id": "C151", "title": "Measuring the bit rate of a stream", "statement": "From any two PCRs of a stream of constant rate and the bytes between them a receiver measures the rate: too high by not more than one part in as many as there are whole milliseconds between the PCRs, too low by less than 1 kbit/s, also when the clock starts again in between. (False for PCRs that follow each other within a millisecond: the receiver panics.)", "quantifier": "every rate, every start of the clock, every two places in the stream, both builds", "why_tests_cant": "the rates, places and clock values are unbounded and the rounding errors of four divisions add up", "anchors": ["src/ts/pcr.rs: pcr_delta, pcr_delta_bitrate, pcr_to_ms"]}
{"id": "C152", "title": "Names from text to text", "statement": "The names a user gives as text - provider and name of each service, name of the network, language, name and text of the present and following events - in any code page that has their characters (or in UTF-8), are shown as the same texts by a receiver of the tables, also when a name is empty.", "quantifier": "all texts, all code pages, all tables around them, all streams that carry the packets, all ways of reading them, both builds", "why_tests_cant": "texts, code pages, tables and streams range over unbounded sets; a text passes through encoding, descriptor, section, packets and back", "anchors": ["src/textcode/mod.rs: StringDVB::from_str, Display", "src/psi/descriptors/x48.rs", "src/psi/descriptors/x40.rs", "src/psi/descriptors/x4d.rs", "src/psi/sdt.rs", "src/psi/nit.rs", "src/psi/eit.rs"]}
{"id": "C153", "title": "Receivers of a TOT show the local time of every region listed", "statement": "If a TOT lists, in one or more local time offset descriptors, regions of countries with the offset of their clocks from UTC, west or east of Greenwich, the moment of the next change and the offset from then on, then whoever reads the stream with a TsReader, feeds the packets of the PID to the TOT parser and looks the region up computes exactly the time of the clocks there: UTC plus or minus the offset in force, and nothing for a region that is not listed.", "quantifier": "Every time the wire format can carry, every list of lists of regions that fits into the section, every country code of three ASCII letters, every region number, every offset of less than a day, both polarities, every PID and continuity counter, every stream that carries the packets among others, every region asked for, both build profiles.", "why_tests_cant": "The result depends on the combination of texts, bit fields, BCD times and dates; tests sample a few time zones, and the ones in the tests are close to Greenwich.", "anchors": ["src/psi/tot.rs: Tot", "src/psi/descriptors/x58.rs: Desc58", "src/textcode/mod.rs: StringDVB", "src/reader/mod.rs: TsReader"]}
{"id": "C154", "title": "Receivers of a PMT find the audio in a language and the keys of a scrambled program", "statement": "If a PMT lists elementary streams with their languages and, for the program or for single streams, the PIDs of the entitlement control messages of any number of CA systems, then whoever reads the stream with a TsReader and feeds the packets of the PID to the PMT parser finds for every language the PIDs of exactly the audio streams that have it, and for every CA system the PIDs of exactly the messages announced for it, in order.", "quantifier": "Every list of streams of any type with any number of languages, CA descriptors with any private data and other descriptors that fits, every PID and continuity counter, every stream of packets that carries the PMT among others, every language and CA system asked for, both build profiles.", "why_tests_cant": "Whether a stream is found depends on its type, on the tags of all its descriptors and on texts and bit fields being read as they were written; tests check single descriptors and a few tables.", "anchors": ["src/psi/pmt.rs: Pmt, PmtItem::get_stream_type", "src/psi/descriptors/x0a.rs: Desc0A", "src/psi/descriptors/x09.rs: Desc09", "src/textcode/mod.rs: StringDVB"]}
{"id": "C155", "title": "A channel entered by its number is found in the received NIT, with how to tune to it", "statement": "A NIT is filled with transport streams, each with a delivery system descriptor (satellite, cable or terrestrial), a service list and a list of channel numbers, demultiplexed into packets and put on any stream. Whoever receives it and looks for a channel number finds exactly the channels that have this number, each with its network and transport stream ids, service id, service types, visibility, and all delivery parameters as they were given.", "quantifier": "all numbers of transport streams, services and channels, all values of all parameters, all numbers looked for, all other descriptors, all streams and ways of reading them, both build profiles", "why_tests_cant": "Frequencies, positions and numbers have 2^32, 2^16 and 2^16 values and are combined with every way of filling sections and cutting the stream; a test picks round frequencies.", "anchors": ["src/psi/nit.rs: Nit, NitItem", "src/psi/descriptors/x41.rs: Desc41", "src/psi/descriptors/x43.rs: Desc43", "src/psi/descriptors/x44.rs: Desc44", "src/psi/descriptors/x5a.rs: Desc5A", "src/psi/descriptors/x83.rs: Desc83", "src/psi/mod.rs: Psi::mux", "src/reader/mod.rs: TsReader"]}
{"id": "C156", "title": "What is on: a programme guide", "statement": "Event tables of any services, present/following or schedules, are sent one after the other on one PID. A viewer who collects the sections of one service and asks what is on at a time is shown exactly the events of that service that have begun and not ended, provided no event lasts 24 hours or more. An event of 24 hours or more disappears from the guide once its duration modulo 24 hours is over. A user who gives all sections to one table, without looking at their service id first, is shown the events of all services under the program number of the last one.", "quantifier": "every list of event tables in range, every PID, counter, source that carries the packets, chunking, service, time and earlier reassembler state, both build profiles", "why_tests_cant": "all guides, times and ways to deliver the bytes; the defects show only at times a test must happen to ask for", "anchors": ["src/psi/eit.rs: Eit::parse, Eit::demux, EitItem::assemble", "src/psi/utils/bcd.rs: to_bcd_time", "src/psi/mod.rs: Psi::mux", "src/reader/mod.rs: TsReader"]}
{"id": "C157", "title": "Watching a service by its name", "statement": "Knowing only the name of a service, a user lists the services of the received SDT, takes the first one that shows this name, and receives the program of its number: every PES packet of every stream with its time stamps, and the time that passed. A name that no service has, and a service whose program the PAT does not list, give nothing.", "quantifier": "every SDT with service names that can be written, every PAT, every PMT, every name, every clock and set of elementary streams, every mixture of their packets with others, every source and division into reads, both builds", "why_tests_cant": "what is received depends on every table, text, packet and mixture", "anchors": ["src/psi/sdt.rs: Sdt::demux, Sdt::parse", "src/psi/descriptors/x48.rs: Desc48", "src/textcode/mod.rs: StringDVB::from_str, Display", "src/psi/pat.rs: Pat::parse", "src/psi/pmt.rs: Pmt::parse", "src/reader/mod.rs: TsReader::read"]}
{"id": "C158", "title": "What is on now, by the clock of the stream", "statement": "Tables of any kinds are sent, each on its PID. A viewer who asks what is on a service now, with nothing but the stream, is shown exactly those events sent for that service that are on air at the time of the last TDT.", "quantifier": "every list of tables in range with their PIDs, every state of the continuity counters, every mixture of the packets with others, every source and division into reads, every service, both builds", "why_tests_cant": "all streams of tables, times, services and ways to deliver the bytes", "anchors": ["src/psi/tdt.rs: Tdt::demux, Tdt::parse", "src/psi/eit.rs: Eit::parse, Eit::demux", "src/psi/mod.rs: Psi::mux", "src/reader/mod.rs: TsReader"]}
{"id": "C159", "title": "Shifting the clocks of a stream", "statement": "A relay adds an offset, modulo the period of the clock, to every PCR of a stream (is_pcr, get_pcr, set_pcr). No call fails. Payloads, PIDs and counters stay as they were, every clock shows what it showed plus the offset, and receivers of sections, tables, PES packets and whole programs get what they got before. The time a receiver measures along the stream is the same.", "quantifier": "all packets of all kinds, all offsets, all PIDs, all ways to read the stream, debug and release builds", "why_tests_cant": "the clock wraps, and the PCR field lies between other header fields and the payload; whether a shift changes anything else depends on all adaptation fields and all positions of the clock", "anchors": ["src/ts/pcr.rs: is_pcr, get_pcr, set_pcr, pcr_delta", "src/ts/mod.rs: get_pid, is_payload, get_payload_offset, is_pusi", "src/psi/mod.rs: Psi::mux"]}
{"id": "C160", "title": "Moving a program to other PIDs", "statement": "A relay gives the packets of a program's clock and elementary streams other PIDs and sends a new PAT and a new PMT that name them. Who receives the program from the new stream gets exactly what the old stream gives: the same time, the same streams in the same order, the same PES packets with the same time stamps, even the same failure.", "quantifier": "every stream of packets, every program received from it, every map of PIDs, every new PAT that lists the program and every new PMT with its streams and any descriptors, every mixture of the packets, every source and division into reads, both builds", "why_tests_cant": "the result depends on all packets, adaptation fields, tables and mixtures", "anchors": ["src/ts/mod.rs: set_pid, get_pid, get_payload_offset", "src/ts/pcr.rs: is_pcr, get_pcr", "src/psi/pat.rs: Pat::demux, Pat::parse", "src/psi/pmt.rs: Pmt::demux, Pmt::parse", "src/psi/mod.rs: Psi::mux"]}
{"id": "C161", "title": "A reader and its source used side by side", "statement": "A user reads packets from a reader and, between them, reads bytes from its source directly, looks at it, exchanges it for another one, or takes it back and makes a new reader of it. They always see what the bytes of the stream say: the reader takes no more from the source than the packet it returns and the bytes before it, keeps nothing to itself, and goes on with what the source gives next. After k packets the source taken back has exactly the packets not yet returned. If the source fails or pauses, the source seen is the one that call left.", "quantifier": "every sequence of such uses, every content of the sources, every division into reads, every buffer of at least 188 bytes", "why_tests_cant": "histories of any length with sources that split their reads in any way", "anchors": ["src/reader/mod.rs: TsReader::new, TsReader::get_ref, TsReader::get_mut, TsReader::into_inner, TsRead::read"]}
{"id": "C162", "title": "The services of any sender, by name", "statement": "The SDT of any sender, in any number of sections and with any other descriptors that can be read, lists every service with its number and with the type, provider and name its service descriptors say, where the texts are in a part of ISO 8859, in the default table without accents or in UTF-8 without control codes (C115 has the others). Who knows only the name of a service receives the program of the first service with that name from the PAT and PMT of any sender, and nothing if there is no such service or no such program.", "quantifier": "every SDT, PAT and PMT of any sender, every layout of the sections in packets with at most one section beginning in a packet, every mixture of the packets, every source and division into reads, every name, both builds", "why_tests_cant": "the names depend on all bytes of all descriptors in all sections, and the program on all packets", "anchors": ["src/psi/sdt.rs: Sdt::parse", "src/psi/descriptors/x48.rs: Desc48", "src/textcode/mod.rs: StringDVB", "src/psi/pat.rs: Pat::parse", "src/psi/pmt.rs: Pmt::parse", "src/psi/mod.rs: Psi::mux", "src/reader/mod.rs: TsReader"]}
{"id": "C163", "title": "What is on, in the words of any sender", "statement": "From the event sections of any sender a viewer who asks what is on a service at a time is told exactly the events of that service that have begun and not ended, each with the language, name and text its short event descriptors say. From the NIT of any sender they learn the network names its sections say. The texts may be in a part of ISO 8859, in the default table without accents or in UTF-8 without control codes (C115 has the others), and there may be any other descriptors that can be read.", "quantifier": "all event sections and NIT sections of any sender, all layouts in packets with at most one section beginning in a packet, all services and times, all sources and divisions into reads, both builds", "why_tests_cant": "the answer depends on all bytes of all descriptors in all sections, on the times, and on how the bytes arrive", "anchors": ["src/psi/eit.rs: Eit::parse", "src/psi/nit.rs: Nit::parse", "src/psi/descriptors/x4d.rs: Desc4D", "src/psi/descriptors/x40.rs: Desc40", "src/textcode/mod.rs: StringDVB", "src/psi/mod.rs: Psi::mux", "src/reader/mod.rs: TsReader"]}
{"id": "C164", "title": "Readers on drains", "statement": "A drain is a byte source, so a reader can be put on a drain that stands on a reader, to any depth. The outermost reader then reports, call by call, exactly what the innermost reader alone would report on the same source: the same packets, the same Ok(0) and the same errors, each at the same call, whatever the source does (short reads, pauses, failures), and whatever was in the drains' uninitialised memory and in the callers' buffers. Over a source that keeps delivering, the calls report the packets of the stream one by one and Ok(0) from then on. A drain on top hands out, for buffers of any sizes, the same bytes as a drain on the innermost reader alone. The innermost packet source may also be a user's own TsRead: a reader on a drain on any packet source whose calls give a packet that begins with the sync byte, Ok(0) or an error reports what that source reports.", "quantifier": "every depth, every source and schedule of reads, pauses and errors, every sequence of calls with buffers of at least 188 bytes, every content of uninitialised memory, both builds", "why_tests_cant": "depths and histories of any length over sources that fail at any point; uninitialised memory has any contents", "anchors": ["src/reader/drain.rs: TsDrain::new, TsDrain::read", "src/reader/mod.rs: TsReader::read"]}
{"id": "C165", "title": "Recordings one behind the other", "statement": "A file made of recordings put one behind the other, none of them cut inside a packet, gives the packets of the first, then those of the second, and so on. If in each recording the first packet of a PID begins a section, a table received from the file is exactly what the recordings played one by one, with a new reassembler each, give: wherever in a section a recording ends, nothing of it reaches the next. This also holds when receiving fails, and for every kind of table, the user's own included.", "quantifier": "all recordings, all places at which they end, all noise between packets, all packets on other PIDs, all parsers of tables, all divisions into reads, both builds", "why_tests_cant": "what the reassembler and the reader keep at the end of one recording can be anything, and meets any beginning of the next", "anchors": ["src/reader/mod.rs: TsReader::read", "src/psi/mod.rs: Psi::mux, Psi::clear"]}
{"id": "C166", "title": "What is on now, from any sender", "statement": "A user who knows only a service id takes the time from the TOTs of a stream and the events from its event sections, of any sender, and is told exactly the events of that service that have begun and not ended at the time of the last TOT, each with the language, name and text its descriptors say. TDTs and other sections on the PID of the TOT do not matter. If the descriptors of a TOT cannot be read, the user's program panics, whatever else is sent.", "quantifier": "all TOT and event sections of any sender, all other sections among the TOTs, all layouts in packets with at most one section beginning in a packet, all services, all sources and divisions into reads, both builds", "why_tests_cant": "the answer depends on all sections on two PIDs, on their order, on all bytes of the descriptors, and on how the bytes arrive", "anchors": ["src/psi/tot.rs: Tot::parse", "src/psi/eit.rs: Eit::parse", "src/psi/descriptors/x4d.rs: Desc4D", "src/textcode/mod.rs: StringDVB", "src/psi/mod.rs: Psi::mux", "src/reader/mod.rs: TsReader"]}
