{
 "claims": [
  {
   "property": "C01",
   "status": "proved",
   "theorems": [
    "Mpegts.C01_get_u16",
    "Mpegts.C01_get_u24",
    "Mpegts.C01_get_u32",
    "Mpegts.C01_set_u16",
    "Mpegts.C01_set_u24",
    "Mpegts.C01_set_u32",
    "Mpegts.C01_round_trip",
    "Mpegts.C01_at_offset"
   ],
   "note": ""
  },
  {
   "property": "C02",
   "status": "proved",
   "theorems": [
    "Mpegts.C02_set_pid",
    "Mpegts.C02_set_pid_debug_panics",
    "Mpegts.C02_set_pid_release"
   ],
   "note": ""
  },
  {
   "property": "C03",
   "status": "proved",
   "theorems": [
    "Mpegts.C03_set_cc",
    "Mpegts.C03_set_cc_out_of_range",
    "Mpegts.C03_set_flags",
    "Mpegts.C03_short"
   ],
   "note": ""
  },
  {
   "property": "C04",
   "status": "proved",
   "theorems": [
    "Mpegts.C04_header_fields",
    "Mpegts.C04_short"
   ],
   "note": ""
  },
  {
   "property": "C05",
   "status": "partial",
   "theorems": [
    "Mpegts.C05_payload_offset_partial",
    "Mpegts.C05_payload_offset_overflow_refuted",
    "Mpegts.C05_no_payload_refuted",
    "Mpegts.C05_short"
   ],
   "note": "Holds for adaptation_field_length <= 250. Refuted beyond (u8 overflow: debug panic, release wraps into the header) and the documented 0 for packets without payload is never computed."
  },
  {
   "property": "C06",
   "status": "proved",
   "theorems": [
    "Mpegts.C06_set_pcr",
    "Mpegts.C06_get_pcr",
    "Mpegts.C06_round_trip",
    "Mpegts.C06_round_trip_mod",
    "Mpegts.C06_short"
   ],
   "note": ""
  },
  {
   "property": "C07",
   "status": "proved",
   "theorems": [
    "Mpegts.C07_is_pcr",
    "Mpegts.C07_is_pcr_short"
   ],
   "note": ""
  },
  {
   "property": "C08",
   "status": "partial",
   "theorems": [
    "Mpegts.C08_pcr_delta_partial",
    "Mpegts.C08_pcr_delta_wrap_refuted"
   ],
   "note": "Exact without clock wrap; on every wrap the result is one tick short (uses PCR_MAX instead of the period)."
  },
  {
   "property": "C09",
   "status": "proved",
   "theorems": [
    "Mpegts.C09_pcr_to_stc",
    "Mpegts.C09_panics"
   ],
   "note": ""
  },
  {
   "property": "C10",
   "status": "partial",
   "theorems": [
    "Mpegts.C10_jitter_partial",
    "Mpegts.C10_jitter_wrap_refuted"
   ],
   "note": "Exact without clock wrap; across the wrap one tick too close to zero."
  },
  {
   "property": "C11",
   "status": "proved",
   "theorems": [
    "Mpegts.C11_units",
    "Mpegts.C11_bitrate",
    "Mpegts.C11_bitrate_panics"
   ],
   "note": ""
  },
  {
   "property": "C12",
   "status": "proved",
   "theorems": [
    "Mpegts.C12_get_pts_dts",
    "Mpegts.C12_flags",
    "Mpegts.C12_short"
   ],
   "note": ""
  },
  {
   "property": "C13",
   "status": "proved",
   "theorems": [
    "Mpegts.C13_is_prefix",
    "Mpegts.C13_syntax",
    "Mpegts.C13_length",
    "Mpegts.C13_payload_offset",
    "Mpegts.C13_short"
   ],
   "note": ""
  },
  {
   "property": "C14",
   "status": "partial",
   "theorems": [
    "Mpegts.C14_pts_delta_partial",
    "Mpegts.C14_pts_delta_wrap_refuted"
   ],
   "note": "Exact without clock wrap; on every wrap the result is one tick short."
  },
  {
   "property": "C15",
   "status": "proved",
   "theorems": [
    "Mpegts.C15_null_packet",
    "Mpegts.C15_null_packet_accessors"
   ],
   "note": ""
  },
  {
   "property": "C16",
   "status": "proved",
   "theorems": [
    "Mpegts.C16_crc"
   ],
   "note": ""
  },
  {
   "property": "C17",
   "status": "proved",
   "theorems": [
    "Mpegts.C17_residue"
   ],
   "note": ""
  },
  {
   "property": "C18",
   "status": "proved",
   "theorems": [
    "Mpegts.C18_burst",
    "Mpegts.C18_burst_check"
   ],
   "note": ""
  },
  {
   "property": "C19",
   "status": "proved",
   "theorems": [
    "Mpegts.C19_to_bcd",
    "Mpegts.C19_from_bcd",
    "Mpegts.C19_round_trip",
    "Mpegts.C19_out_of_range"
   ],
   "note": ""
  },
  {
   "property": "C20",
   "status": "proved",
   "theorems": [
    "Mpegts.C20_to_bcd_time",
    "Mpegts.C20_from_bcd_time",
    "Mpegts.C20_round_trip"
   ],
   "note": ""
  },
  {
   "property": "C21",
   "status": "partial",
   "theorems": [
    "Mpegts.C21_to_bcd_time",
    "Mpegts.C21_from_bcd_time_partial",
    "Mpegts.C21_from_bcd_time_refuted",
    "Mpegts.C21_round_trip_partial"
   ],
   "note": "to_bcd_time exact for all inputs. from_bcd_time exact only for hours 0..4; from 05:00 on hours*60 is computed in u8 (debug panic, release wraps): refuted."
  },
  {
   "property": "C22",
   "status": "proved",
   "theorems": [
    "Mpegts.C22_to_mjd",
    "Mpegts.C22_to_mjd_late",
    "Mpegts.C22_from_mjd",
    "Mpegts.C22_from_mjd_early",
    "Mpegts.C22_round_trip"
   ],
   "note": ""
  },
  {
   "property": "C23",
   "status": "proved",
   "theorems": [
    "Mpegts.C23_size",
    "Mpegts.C23_size_encoding"
   ],
   "note": ""
  },
  {
   "property": "C24",
   "status": "proved",
   "theorems": [
    "Mpegts.C24_assemble",
    "Mpegts.C24_assemble_sized"
   ],
   "note": ""
  },
  {
   "property": "C25",
   "status": "proved",
   "theorems": [
    "Mpegts.C25_round_trip_iff",
    "Mpegts.C25_round_trip"
   ],
   "note": ""
  },
  {
   "property": "C26",
   "status": "proved",
   "theorems": [
    "Mpegts.C26_foreign",
    "Mpegts.C26_kept_iff"
   ],
   "note": ""
  },
  {
   "property": "C27",
   "status": "partial",
   "theorems": [
    "Mpegts.C27_round_trip",
    "Mpegts.C27_utf8",
    "Mpegts.C27_unknown_codepage",
    "Mpegts.C27_append",
    "Mpegts.C27_replacement_partial",
    "Mpegts.C27_astral_refuted",
    "Mpegts.C27_astral_any_refuted",
    "Mpegts.C27_c1_refuted"
   ],
   "note": "Round trip proved for every text over the repertoire of each table and for all of UTF-8. Replacement proved for unsupported characters U+00A0..U+FFFF; refuted for characters beyond U+FFFF (upper bits dropped, stored as another character; exact for every such character in any text) and for C1 controls (dropped)."
  },
  {
   "property": "C28",
   "status": "proved",
   "theorems": [
    "Mpegts.C28_no_undefined_behaviour",
    "Mpegts.C28_panics_iff"
   ],
   "note": "Also gives the exact panic condition (non-empty text with a codepage number that names no table)."
  },
  {
   "property": "C29",
   "status": "partial",
   "theorems": [
    "Mpegts.C29_short",
    "Mpegts.C29_long_partial",
    "Mpegts.C29_tiny_refuted"
   ],
   "note": "Exact for n >= 3; refuted for n < 3 (truncating a longer string panics)."
  },
  {
   "property": "C30",
   "status": "partial",
   "theorems": [
    "Mpegts.C30_bytes_refuted",
    "Mpegts.C30_split_partial",
    "Mpegts.C30_split_empty",
    "Mpegts.C30_utf8_partial",
    "Mpegts.C30_utf8_refuted",
    "Mpegts.C30_no_room_refuted",
    "Mpegts.C30_underflow_refuted",
    "Mpegts.C30_utf8_small_partial",
    "Mpegts.C30_utf8_small_refuted"
   ],
   "note": "Proved when at least one byte (three for UTF-8) remains after the reserved selector, and for UTF-8 with one or two remaining bytes when every character is that short; UTF-8 boundaries for characters up to U+FFFF. Refuted: four-byte characters are cut, no room (or a character longer than the room when it is one or two bytes) loops forever, smaller limits overflow. For arbitrary bytes marked as UTF-8: C30_bytes_refuted (exactly when it panics), C120_split_bytes_refuted (exactly when it does not end)."
  },
  {
   "property": "C31",
   "status": "proved",
   "theorems": [
    "Mpegts.C31_listed",
    "Mpegts.C31_there_and_back",
    "Mpegts.C31_back_and_there",
    "Mpegts.C31_unknown"
   ],
   "note": ""
  },
  {
   "property": "C32",
   "status": "partial",
   "theorems": [
    "Mpegts.C32_wire_format_partial",
    "Mpegts.C32_wire_format_refuted"
   ],
   "note": "All 15 kinds except an extended event descriptor with items: its length byte is too small by two per item (refuted, exact bytes given)."
  },
  {
   "property": "C33",
   "status": "partial",
   "theorems": [
    "Mpegts.C33_size_partial",
    "Mpegts.C33_size_refuted",
    "Mpegts.C33_list_partial",
    "Mpegts.C33_raw_oversize_refuted"
   ],
   "note": "Holds for every kind except an extended event descriptor with items (two bytes per item missing, refuted); a raw descriptor over 255 bytes appends nothing (refuted)."
  },
  {
   "property": "C34",
   "status": "partial",
   "theorems": [
    "Mpegts.C34_round_trip_partial",
    "Mpegts.C34_extended_event_refuted",
    "Mpegts.C34_local_time_offset_refuted"
   ],
   "note": "All kinds with values on the grid of the encoding. Refuted: extended event descriptors with items come back uninterpreted and truncated; time offsets of five hours and more panic or come back wrong."
  },
  {
   "property": "C35",
   "status": "proved",
   "theorems": [
    "Mpegts.C35_kept_verbatim",
    "Mpegts.C35_unknown_tag",
    "Mpegts.C35_tag"
   ],
   "note": ""
  },
  {
   "property": "C36",
   "status": "partial",
   "theorems": [
    "Mpegts.C36_parse_wire",
    "Mpegts.C36_round_trip_partial",
    "Mpegts.C36_each",
    "Mpegts.C36_extended_event_refuted"
   ],
   "note": "Parsing the prescribed encoding of any list is exact. Assembling and parsing is element-wise for every list without extended events with items (C36_each). Refuted for lists with one: the sent length byte is two bytes per item short, so the list is never given back, and if the descriptor's text has fewer than two bytes per item, parsing panics in both builds (C36_extended_event_refuted)."
  },
  {
   "property": "C37",
   "status": "proved",
   "theorems": [
    "Mpegts.C37_frames",
    "Mpegts.C37_truncated_tail"
   ],
   "note": ""
  },
  {
   "property": "C38",
   "status": "partial",
   "theorems": [
    "Mpegts.C38_exact_partial",
    "Mpegts.C38_no_panic_partial",
    "Mpegts.C38_loop_partial",
    "Mpegts.C38_service_refuted",
    "Mpegts.C38_short_event_refuted"
   ],
   "note": "Exact panic condition for every descriptor and profile; refuted: inner lengths that overrun the descriptor panic."
  },
  {
   "property": "C39",
   "status": "partial",
   "theorems": [
    "Mpegts.C39_clone_partial",
    "Mpegts.C39_clone_refuted",
    "Mpegts.C39_clone_parsed_refuted",
    "Mpegts.C39_clone_list_partial",
    "Mpegts.C39_clone_list_refuted"
   ],
   "note": "Holds unless an uninterpreted descriptor carries an interpreted tag; then clone panics (refuted), and parsing produces such descriptors."
  },
  {
   "property": "C40",
   "status": "proved",
   "theorems": [
    "Mpegts.C40_demux",
    "Mpegts.C40_packets",
    "Mpegts.C40_empty"
   ],
   "note": ""
  },
  {
   "property": "C41",
   "status": "proved",
   "theorems": [
    "Mpegts.C41_reassemble",
    "Mpegts.C41_round_trip"
   ],
   "note": ""
  },
  {
   "property": "C42",
   "status": "proved",
   "theorems": [
    "Mpegts.C42_chaining",
    "Mpegts.C42_list"
   ],
   "note": ""
  },
  {
   "property": "C43",
   "status": "proved",
   "theorems": [
    "Mpegts.C43_no_payload",
    "Mpegts.C43_interleave"
   ],
   "note": ""
  },
  {
   "property": "C44",
   "status": "proved",
   "theorems": [
    "Mpegts.C44_discontinuity",
    "Mpegts.C44_contiguous"
   ],
   "note": ""
  },
  {
   "property": "C45",
   "status": "partial",
   "theorems": [
    "Mpegts.C45_crash_refuted",
    "Mpegts.C45_no_crash_partial"
   ],
   "note": "Refuted: exact panic condition given (u8 overflow in debug for adaptation_field_length >= 251; section start beyond the packet behind an adaptation field). Proved: none without adaptation field or without PUSI."
  },
  {
   "property": "C46",
   "status": "partial",
   "theorems": [
    "Mpegts.C46_bounded_partial",
    "Mpegts.C46_unbounded_refuted"
   ],
   "note": "Holds when every PUSI packet has pointer_field 0. Refuted in general: PUSI packets with non-zero pointer_field make the buffer grow without bound."
  },
  {
   "property": "C47",
   "status": "proved",
   "theorems": [
    "Mpegts.C47_section_start",
    "Mpegts.C47_no_start"
   ],
   "note": ""
  },
  {
   "property": "C48",
   "status": "partial",
   "theorems": [
    "Mpegts.C48_pointer_continuation_partial",
    "Mpegts.C48_next_section_partial",
    "Mpegts.C48_lost_section_refuted"
   ],
   "note": "The first section is completed and the second kept for a following PUSI packet. Refuted when the second section continues in a non-PUSI packet: it is lost and the first one reported again."
  },
  {
   "property": "C49",
   "status": "proved",
   "theorems": [
    "Mpegts.C49_finalize",
    "Mpegts.C49_check",
    "Mpegts.C49_refinalize",
    "Mpegts.C49_finalize_any",
    "Mpegts.C49_finalize_panics"
   ],
   "note": ""
  },
  {
   "property": "C50",
   "status": "proved",
   "theorems": [
    "Mpegts.C50_check"
   ],
   "note": ""
  },
  {
   "property": "C51",
   "status": "proved",
   "theorems": [
    "Mpegts.C51_eq",
    "Mpegts.C51_panics",
    "Mpegts.C51_sizes"
   ],
   "note": ""
  },
  {
   "property": "C52",
   "status": "proved",
   "theorems": [
    "Mpegts.C52_new",
    "Mpegts.C52_new_short"
   ],
   "note": ""
  },
  {
   "property": "C53",
   "status": "proved",
   "theorems": [
    "Mpegts.Pat.C53_round_trip",
    "Mpegts.Pat.C53_overflow"
   ],
   "note": ""
  },
  {
   "property": "C54",
   "status": "proved",
   "theorems": [
    "Mpegts.Pat.C54_wire"
   ],
   "note": ""
  },
  {
   "property": "C55",
   "status": "partial",
   "theorems": [
    "Mpegts.Pmt.C55_exact_refuted",
    "Mpegts.Pmt.C55_wire",
    "Mpegts.Pmt.C55_received_partial",
    "Mpegts.Pmt.C55_round_trip_partial",
    "Mpegts.Pmt.C55_refuted"
   ],
   "note": "The wire format is as the standard says (C55_wire), and everything but the program descriptors is always given back (C55_received_partial). Program descriptors are read from one byte too early (src/psi/pmt.rs:141 slices at 11 instead of 12), so no PMT with up to 255 bytes of program descriptors survives (C55_refuted). Exactly: a PMT is given back if and only if its program descriptors read one byte early happen to be the same descriptors (C55_exact_refuted; beside it a PMT with 381 bytes of them for which that happens)."
  },
  {
   "property": "C56",
   "status": "proved",
   "theorems": [
    "Mpegts.Nit.C56_wire",
    "Mpegts.Nit.C56_round_trip"
   ],
   "note": "In range includes that the descriptors read back exactly (Desc.Exact); C106 says what is received otherwise."
  },
  {
   "property": "C57",
   "status": "proved",
   "theorems": [
    "Mpegts.Sdt.C57_wire",
    "Mpegts.Sdt.C57_round_trip"
   ],
   "note": "In range includes that the descriptors read back exactly (Desc.Exact); C106 says what is received otherwise."
  },
  {
   "property": "C58",
   "status": "partial",
   "theorems": [
    "Mpegts.Eit.C58_extended_event_refuted",
    "Mpegts.Eit.C58_wire",
    "Mpegts.Eit.C58_empty",
    "Mpegts.Eit.C58_duration_refuted",
    "Mpegts.Eit.C58_round_trip_partial"
   ],
   "note": "Holds for events shorter than a day. Refuted for durations of 24 hours and more: the code sends the duration modulo 24 hours although the field has room for 99:59:59 (C58_duration_refuted). An EIT without events sends nothing (C58_empty). Refuted for events with an extended event descriptor that has items: never given back, and receiving panics in both builds if its text is short (C58_extended_event_refuted). C106 gives what is received in general."
  },
  {
   "property": "C59",
   "status": "partial",
   "theorems": [
    "Mpegts.Eit.C59_delivery_partial",
    "Mpegts.Eit.C59_order_refuted"
   ],
   "note": "Proved in both profiles for every schedule with table id 0x50..0x6F whose events start within 64 days after the midnight before the first and where no segment needs more than eight sections (capacity_small gives a simple sufficient condition). Refuted in the debug profile for lists whose last event starts before that midnight (panic)."
  },
  {
   "property": "C60",
   "status": "partial",
   "theorems": [
    "Mpegts.Eit.C60_any_refuted",
    "Mpegts.Eit.C60_wire_partial",
    "Mpegts.Eit.C60_first_refuted",
    "Mpegts.Eit.C60_segment_partial",
    "Mpegts.Eit.C60_gap_refuted",
    "Mpegts.Eit.C60_segment_last_refuted",
    "Mpegts.Eit.C60_table_refuted"
   ],
   "note": "The exact sections are given (C60_wire_partial). Refuted: the first event (and all others of its segment) is sent one segment late; after a gap events are sent too early; segment_last_section_number is always the own number; a table id other than 0x50/0x60 is used for the first section with events. Holds for events after the first segment when no segment is left out (C60_segment_partial); exactly where every event of any schedule is sent (C60_any_refuted): the first one segment late, each later one in the segment of the event before it or in the next."
  },
  {
   "property": "C61",
   "status": "proved",
   "theorems": [
    "Mpegts.Tdt.C61_wire",
    "Mpegts.Tdt.C61_round_trip"
   ],
   "note": ""
  },
  {
   "property": "C62",
   "status": "partial",
   "theorems": [
    "Mpegts.Tot.C62_time_offset_refuted",
    "Mpegts.Tot.C62_wire",
    "Mpegts.Tot.C62_round_trip_partial"
   ],
   "note": "Holds for descriptors that read back exactly. Refuted for local time offsets of five hours and more: a debug build panics on receiving the TOT (C62_time_offset_refuted). C106 gives what is received in general."
  },
  {
   "property": "C63",
   "status": "proved",
   "theorems": [
    "Mpegts.Pat.C63_pat",
    "Mpegts.Pmt.C63_pmt",
    "Mpegts.Nit.C63_nit",
    "Mpegts.Sdt.C63_sdt",
    "Mpegts.Eit.C63_eit_pf",
    "Mpegts.Eit.C63_eit_schedule"
   ],
   "note": ""
  },
  {
   "property": "C64",
   "status": "proved",
   "theorems": [
    "Mpegts.Pat.C64_pat",
    "Mpegts.Pmt.C64_pmt",
    "Mpegts.Nit.C64_nit",
    "Mpegts.Sdt.C64_sdt",
    "Mpegts.Eit.C64_eit_pf",
    "Mpegts.Eit.C64_eit_schedule"
   ],
   "note": ""
  },
  {
   "property": "C65",
   "status": "proved",
   "theorems": [
    "Mpegts.Eit.C65_eit",
    "Mpegts.Nit.C65_nit",
    "Mpegts.Pat.C65_pat",
    "Mpegts.Pmt.C65_pmt",
    "Mpegts.Sdt.C65_sdt",
    "Mpegts.Tdt.C65_tdt",
    "Mpegts.Tot.C65_tot"
   ],
   "note": ""
  },
  {
   "property": "C66",
   "status": "proved",
   "theorems": [
    "Mpegts.C66_eit_event_release",
    "Mpegts.C66_tdt_release",
    "Mpegts.C66_tot_release",
    "Mpegts.Eit.C66_eit",
    "Mpegts.Eit.C66_eit_event",
    "Mpegts.Nit.C66_nit",
    "Mpegts.Pat.C66_pat",
    "Mpegts.Pmt.C66_pmt",
    "Mpegts.Sdt.C66_sdt",
    "Mpegts.Tdt.C66_tdt",
    "Mpegts.Tot.C66_tot"
   ],
   "note": "Also the exact times read by a build without overflow checks from non-decimal digits and dates before 1970 (C66_eit_event_release, C66_tdt_release, C66_tot_release)."
  },
  {
   "property": "C67",
   "status": "partial",
   "theorems": [
    "Mpegts.Eit.C67_eit_partial",
    "Mpegts.Eit.C67_eit_refuted",
    "Mpegts.Nit.C67_nit_partial",
    "Mpegts.Nit.C67_nit_refuted",
    "Mpegts.Pat.C67_pat",
    "Mpegts.Pmt.C67_pmt_partial",
    "Mpegts.Pmt.C67_pmt_refuted",
    "Mpegts.Sdt.C67_sdt_partial",
    "Mpegts.Sdt.C67_sdt_refuted",
    "Mpegts.Tdt.C67_tdt_partial",
    "Mpegts.Tdt.C67_tdt_refuted",
    "Mpegts.Tot.C67_tot_partial",
    "Mpegts.Tot.C67_tot_refuted",
    "Mpegts.Tot.C67_tot_digits_refuted"
   ],
   "note": "For PAT parsing is total; for the other tables the exact set of sections that make parsing panic is characterised (C67_*_partial) and a concrete section with a valid CRC is given (C67_*_refuted)."
  },
  {
   "property": "C68",
   "status": "proved",
   "theorems": [
    "Mpegts.Pat.C68_pat",
    "Mpegts.Pmt.C68_pmt",
    "Mpegts.Nit.C68_nit",
    "Mpegts.Sdt.C68_sdt",
    "Mpegts.Eit.C68_eit_pf",
    "Mpegts.Eit.C68_eit_schedule"
   ],
   "note": ""
  },
  {
   "property": "C69",
   "status": "proved",
   "theorems": [
    "Mpegts.C69_stream_type",
    "Mpegts.C69_from_bytes",
    "Mpegts.C69_name"
   ],
   "note": ""
  },
  {
   "property": "C70",
   "status": "proved",
   "theorems": [
    "Mpegts.C70_read",
    "Mpegts.C70_all",
    "Mpegts.C70_chunking"
   ],
   "note": ""
  },
  {
   "property": "C71",
   "status": "proved",
   "theorems": [
    "Mpegts.C71_stream",
    "Mpegts.C71_slices",
    "Mpegts.C71_packets"
   ],
   "note": ""
  },
  {
   "property": "C72",
   "status": "proved",
   "theorems": [
    "Mpegts.C72_outcome",
    "Mpegts.C72_short"
   ],
   "note": ""
  },
  {
   "property": "C73",
   "status": "proved",
   "theorems": [
    "Mpegts.C73_read",
    "Mpegts.C73_prefix",
    "Mpegts.C73_copy"
   ],
   "note": "For every packet source and all non-empty buffers (C73_prefix, C73_read); over TsReader the whole stream is copied (C73_copy)."
  },
  {
   "property": "C74",
   "status": "partial",
   "theorems": [
    "Mpegts.C74_empty_refuted",
    "Mpegts.C74_empty_partial"
   ],
   "note": "Refuted at packet boundaries: the read takes a packet from the source and drops it (C74_empty_refuted). Holds while bytes of a packet are pending (C74_empty_partial)."
  },
  {
   "property": "C75",
   "status": "proved",
   "theorems": [
    "Mpegts.C75_adaptation",
    "Mpegts.C75_packet",
    "Mpegts.C75_short",
    "Mpegts.C75_text",
    "Mpegts.C75_wrappers",
    "Mpegts.C75_panic"
   ],
   "note": ""
  },
  {
   "property": "C76",
   "status": "partial",
   "theorems": [
    "Mpegts.C76_listen",
    "Mpegts.C76_pat",
    "Mpegts.C76_sdt",
    "Mpegts.C76_nit",
    "Mpegts.C76_pmt_partial",
    "Mpegts.C76_pmt_received_partial",
    "Mpegts.C76_pmt_refuted",
    "Mpegts.C76_tdt",
    "Mpegts.C76_tot_partial",
    "Mpegts.C76_eit_pf_partial",
    "Mpegts.C76_eit_schedule_partial"
   ],
   "note": "All tables, any garbage without 0x47 between packets, other PIDs interleaved, any chunking. A PMT comes back but for its program descriptors (C76_pmt_received_partial), which are lost if they have up to 255 bytes (C76_pmt_refuted, the defect of C55). TOT and EIT with the restrictions of C58, C59 and C62."
  },
  {
   "property": "C77",
   "status": "proved",
   "theorems": [
    "Mpegts.C77_stuffing_only",
    "Mpegts.C77_stuffing_dropped"
   ],
   "note": ""
  },
  {
   "property": "C78",
   "status": "proved",
   "theorems": [
    "Mpegts.C78_independent",
    "Mpegts.C78_interleaved"
   ],
   "note": ""
  },
  {
   "property": "C79",
   "status": "partial",
   "theorems": [
    "Mpegts.C79_orphan_partial",
    "Mpegts.C79_orphan_refuted",
    "Mpegts.C79_orphan_short_partial"
   ],
   "note": "Holds unless the packet's counter is the stored one plus 1; refuted then (payload taken as section start)."
  },
  {
   "property": "C80",
   "status": "proved",
   "theorems": [
    "Mpegts.C80_display",
    "Mpegts.C80_utf8"
   ],
   "note": ""
  },
  {
   "property": "C81",
   "status": "partial",
   "theorems": [
    "Mpegts.C81_conditional_access",
    "Mpegts.C81_maximum_bitrate",
    "Mpegts.C81_network_name",
    "Mpegts.C81_stream_identifier",
    "Mpegts.C81_satellite",
    "Mpegts.C81_cable_partial",
    "Mpegts.C81_cable_refuted",
    "Mpegts.C81_terrestrial_partial",
    "Mpegts.C81_terrestrial_refuted",
    "Mpegts.C81_language",
    "Mpegts.C81_service_list",
    "Mpegts.C81_logical_channels",
    "Mpegts.C81_service",
    "Mpegts.C81_short_event",
    "Mpegts.C81_extended_event",
    "Mpegts.C81_local_time_offset_partial",
    "Mpegts.C81_local_time_offset_refuted"
   ],
   "note": "Refuted: cable/terrestrial frequencies of 2^32 Hz and more and time offsets of five hours and more overflow. The last digit of the symbol rate is dropped (documented unit ksym/s)."
  },
  {
   "property": "C82",
   "status": "partial",
   "theorems": [
    "Mpegts.C82_interrupted_partial",
    "Mpegts.C82_interrupted_refuted"
   ],
   "note": "Refuted inside a packet: the bytes already read are lost and the next call resynchronises in the middle of the packet (C82_interrupted_refuted). Holds when the interruption comes before the sync byte (C82_interrupted_partial)."
  },
  {
   "property": "C83",
   "status": "partial",
   "theorems": [
    "Mpegts.C83_any",
    "Mpegts.C83_loss_partial",
    "Mpegts.C83_short_sections_partial",
    "Mpegts.C83_middle_refuted"
   ],
   "note": "Holds whenever the packets that are lost do not make the 4-bit counter ambiguous (C83_loss_partial), in particular for sections of at most 16 packets whose first packets arrive. Refuted for a section of 18 or more packets: when its second packet is lost, packet 17 has the expected counter and its payload is taken for the start of a section (C83_middle_refuted)."
  },
  {
   "property": "C84",
   "status": "partial",
   "theorems": [
    "Mpegts.C84_repeat_first_partial",
    "Mpegts.C84_repeat_refuted"
   ],
   "note": "Holds for the first packet of a section (C84_repeat_first_partial). Refuted for every other one: what was collected is dropped and the payload of the next packet is taken for the start of a section."
  },
  {
   "property": "C85",
   "status": "partial",
   "theorems": [
    "Mpegts.C85_any_split_partial",
    "Mpegts.C85_tiny_refuted"
   ],
   "note": "Holds whenever the first two packets together carry at least three bytes of the section (C85_any_split_partial). Refuted otherwise: the bytes are dropped and the third payload is taken for the start of the section."
  },
  {
   "property": "C86",
   "status": "partial",
   "theorems": [
    "Mpegts.C86_first_partial",
    "Mpegts.C86_second_refuted"
   ],
   "note": "Only the first section of a packet is received (C86_first_partial); the others leave no trace (C86_second_refuted): with the one-section buffer of `Psi` there is no way to get them."
  },
  {
   "property": "C87",
   "status": "proved",
   "theorems": [
    "Mpegts.C87_set_bits",
    "Mpegts.C87_set_bits16",
    "Mpegts.C87_fields_readable",
    "Mpegts.C87_overflow_spills"
   ],
   "note": "Proved for all layouts of byte and 16-bit words; the model of the descriptors calls the modelled macro. Nothing is masked: C87_overflow_spills shows that a value that does not fit changes the field above."
  },
  {
   "property": "C88",
   "status": "partial",
   "theorems": [
    "Mpegts.C88_left_out_partial",
    "Mpegts.C88_oversize_refuted"
   ],
   "note": "Holds for uninterpreted and extended event descriptors (left out). Refuted for the kinds 09, 0A, 40, 41, 48, 4D, 58, 83: the length is written modulo 256."
  },
  {
   "property": "C89",
   "status": "partial",
   "theorems": [
    "Mpegts.C89_satellite",
    "Mpegts.C89_terrestrial",
    "Mpegts.C89_cable_partial",
    "Mpegts.C89_cable_refuted"
   ],
   "note": "Proved for satellite and terrestrial. Refuted for FEC_OUTER_RS, which has the code of \"no outer FEC\" (C89_cable_refuted); C89_cable_partial covers the other cable parameters."
  },
  {
   "property": "C90",
   "status": "partial",
   "theorems": [
    "Mpegts.C90_container",
    "Mpegts.C90_push_assemble",
    "Mpegts.C90_downcast_partial",
    "Mpegts.C90_downcast_refuted",
    "Mpegts.C90_downcast"
   ],
   "note": "The list operations hold. The choice of the type by `tag()` is refuted for received descriptors that fail the length check of their kind: downcast_ref panics (C90_downcast_refuted)."
  },
  {
   "property": "C91",
   "status": "proved",
   "theorems": [
    "Mpegts.C91_pat",
    "Mpegts.C91_pmt",
    "Mpegts.C91_tot",
    "Mpegts.C91_sdt",
    "Mpegts.C91_nit",
    "Mpegts.C91_eit_pf",
    "Mpegts.C91_eit_schedule"
   ],
   "note": "C91_example: a five-section SDT with its second packet lost."
  },
  {
   "property": "C92",
   "status": "proved",
   "theorems": [
    "Mpegts.C92_sdt",
    "Mpegts.C92_nit",
    "Mpegts.C92_eit_pf",
    "Mpegts.C92_eit_schedule",
    "Mpegts.C92_pat",
    "Mpegts.C92_pmt",
    "Mpegts.C92_tot",
    "Mpegts.C92_tdt"
   ],
   "note": "For the PMT relative to what parse makes of the program descriptors (C55)."
  },
  {
   "property": "C93",
   "status": "proved",
   "theorems": [
    "Mpegts.C93_delta_release",
    "Mpegts.C93_delta_debug",
    "Mpegts.C93_pts_delta_release",
    "Mpegts.C93_pts_delta_debug",
    "Mpegts.C93_stc_release",
    "Mpegts.C93_bitrate_release",
    "Mpegts.C93_jitter_release",
    "Mpegts.C93_jitter_debug",
    "Mpegts.C93_jitter_in_range"
   ],
   "note": "Extends C06 to C11, which are about clock values, to all 64-bit arguments."
  },
  {
   "property": "C94",
   "status": "proved",
   "theorems": [
    "Mpegts.C94_fresh",
    "Mpegts.C94_pat",
    "Mpegts.C94_pmt",
    "Mpegts.C94_nit",
    "Mpegts.C94_sdt",
    "Mpegts.C94_eit",
    "Mpegts.C94_tdt",
    "Mpegts.C94_tot"
   ],
   "note": "An empty buffer with a size claiming more makes the check panic (C67)."
  },
  {
   "property": "C95",
   "status": "partial",
   "theorems": [
    "Mpegts.C95_descriptor_partial",
    "Mpegts.C95_loop_partial",
    "Mpegts.C95_satellite_refuted",
    "Mpegts.C95_cable_refuted",
    "Mpegts.C95_cable_frequency_refuted",
    "Mpegts.C95_extended_event_refuted",
    "Mpegts.C95_local_time_offset_refuted",
    "Mpegts.C95_terrestrial_refuted",
    "Mpegts.C95_network_name"
   ],
   "note": "Proved for all kinds and for loops (predicate Relayed). Refuted, with the exact outcome: the seventh symbol rate digit of satellite and cable descriptors is zeroed; extended events with items get a wrong length byte; cable/terrestrial frequencies of 2^32 Hz and more and time offsets of five hours and more panic (debug) or come out with other values (release), given exactly; texts outside Kept (C26) are rewritten."
  },
  {
   "property": "C96",
   "status": "partial",
   "theorems": [
    "Mpegts.C96_sdt",
    "Mpegts.C96_sdt_single",
    "Mpegts.C96_nit",
    "Mpegts.C96_pmt_partial",
    "Mpegts.C96_pmt_refuted",
    "Mpegts.C96_eit_pf",
    "Mpegts.C96_eit_following_refuted",
    "Mpegts.C96_pat_partial",
    "Mpegts.C96_pat_refuted",
    "Mpegts.C96_tdt",
    "Mpegts.C96_tot",
    "Mpegts.C96_eit_schedule",
    "Mpegts.C96_eit_empty_refuted"
   ],
   "note": "Proved for SDT, NIT, PMT without program descriptors, present/following EIT, EIT schedules (as far as their placement, see below), TDT, TOT and PATs of up to 253 programs, from any division into sections, with descriptors that C95 covers. Refuted, with the exact outcome: a single program descriptor of a PMT (any usual CA descriptor) is dropped; a following event without a present event is sent on as the present event; programs of a PAT beyond the 253rd are dropped. NIT network descriptors of several sections are accumulated in the first. EIT schedules: the exact sections sent on are given for any received sub-tables, with the exact panic condition (C96_eit_schedule); the placement has the faults of C60 and C100, and an EIT without events is not sent on (C96_eit_empty_refuted)."
  },
  {
   "property": "C97",
   "status": "partial",
   "theorems": [
    "Mpegts.C97_check_length",
    "Mpegts.C97_check_service",
    "Mpegts.C97_check_short_event",
    "Mpegts.C97_check_extended_event",
    "Mpegts.C97_parse",
    "Mpegts.C97_parse_numbers_partial",
    "Mpegts.C97_parse_texts_partial",
    "Mpegts.C97_cut_service_refuted"
   ],
   "note": "Exact for all slices and kinds. Refuted: check of the service and event descriptors panics when an inner length points outside the slice, and accepts slices shorter than their length byte, which parse then panics on; numbers that are not decimal or too large panic in debug builds."
  },
  {
   "property": "C98",
   "status": "partial",
   "theorems": [
    "Mpegts.C98_sdt_partial",
    "Mpegts.C98_nit_partial",
    "Mpegts.C98_pmt_partial",
    "Mpegts.C98_sdt_refuted",
    "Mpegts.C98_nit_refuted",
    "Mpegts.C98_pmt_refuted"
   ],
   "note": "Proved: every entry is sent in order, one that is too large alone in a section of its own, and the crate's own receiver gets the table back (entries up to 4092 bytes). Refuted: that section exceeds the permitted 1024 bytes."
  },
  {
   "property": "C99",
   "status": "partial",
   "theorems": [
    "Mpegts.C99_collect_partial",
    "Mpegts.C99_caller_refuted",
    "Mpegts.C99_stream_partial",
    "Mpegts.C99_full_refuted"
   ],
   "note": "The module is unfinished and not declared in lib.rs. Proved: up to 26595 packets are collected in order in the first block and the clock is followed. Refuted: the caller's buffer is never written; call 26596 panics."
  },
  {
   "property": "C100",
   "status": "partial",
   "theorems": [
    "Mpegts.Eit.C100_wire_partial",
    "Mpegts.Eit.C100_delivery_partial",
    "Mpegts.Eit.C100_complete_partial",
    "Mpegts.Eit.C100_loss_refuted",
    "Mpegts.Eit.C100_events",
    "Mpegts.Eit.C100_length",
    "Mpegts.Eit.C100_unique_partial",
    "Mpegts.Eit.C100_spill_refuted",
    "Mpegts.Eit.C100_duplicate_refuted",
    "Mpegts.Eit.C100_other_refuted"
   ],
   "note": "The exact sections are given for every list of events (C100_wire_partial), with the exact condition for a panic in the debug profile; every event is sent once, in order, in sections of at most 4096 bytes. What a receiver gets is given exactly. Refuted: the ninth section of a segment has a number of the next segment; sections 256 apart have the same number; after 64 days a 0x60 schedule is sent with table ids no EIT has and the rest is lost, a 0x50 schedule continues with the ids of other transport streams. Holds as long as no count overflows: the identification is unique (C100_unique_partial)."
  },
  {
   "property": "C101",
   "status": "partial",
   "theorems": [
    "Mpegts.C101_panic",
    "Mpegts.C101_counter",
    "Mpegts.C101_spill_refuted",
    "Mpegts.C101_tables_refuted",
    "Mpegts.C101_tables_debug"
   ],
   "note": "C101_panic gives the exact condition under which packetising a section panics, for both profiles; C101_tables_debug the same for every table in a debug build. The counter is taken modulo 16 in a release build (C101_counter). Refuted for release builds: a PID of 8192 or more is written, its upper three bits becoming the error, PUSI and priority flags of every packet (C101_spill_refuted, exact packets; C101_tables_refuted, for every table)."
  },
  {
   "property": "C102",
   "status": "proved",
   "theorems": [
    "Mpegts.C102_clock",
    "Mpegts.C102_bcd",
    "Mpegts.C102_packet",
    "Mpegts.C102_text",
    "Mpegts.C102_descriptors",
    "Mpegts.C102_sections",
    "Mpegts.C102_tables_parse",
    "Mpegts.C102_tables_demux",
    "Mpegts.C102_history",
    "Mpegts.C102_meaning"
   ],
   "note": "Agree x y says: x is a panic or x = y. C102_* state it for every modelled operation that takes a build profile (clock, bcd, packet, text, descriptors, sections, parse and demux of each table) and C102_history for any sequence of packets. Operations whose model takes no profile are the same in both builds by construction; that no overflow or debug_assert was left out of them is part of the trusted transcription."
  },
  {
   "property": "C103",
   "status": "proved",
   "theorems": [
    "Mpegts.C103_release",
    "Mpegts.C103_descriptors",
    "Mpegts.C103_debug"
   ],
   "note": "C103_release: no table fails in a release build. C103_debug: the exact condition for a debug build's panic, for every table, EIT schedules included (Desc.Refused in Spec/Sendable.lean lists the refused numbers, SomeOverflow in Spec/AnyValue.lean the counts of a schedule)."
  },
  {
   "property": "C104",
   "status": "partial",
   "theorems": [
    "Mpegts.C104_to_bcd_panics",
    "Mpegts.C104_to_bcd_release",
    "Mpegts.C104_silent_refuted",
    "Mpegts.C104_from_bcd_panics",
    "Mpegts.C104_from_bcd_release",
    "Mpegts.C104_time",
    "Mpegts.C104_short_time",
    "Mpegts.C104_date"
   ],
   "note": "Exact panic conditions and release results for every argument. Refuted: a debug build does not refuse all numbers with too many digits (C104_silent_refuted gives exactly those it writes, and what it writes)."
  },
  {
   "property": "C105",
   "status": "partial",
   "theorems": [
    "Mpegts.Eit.C105_schedule_partial",
    "Mpegts.Eit.C105_schedule_refuted",
    "Mpegts.Sdt.C105_sdt_partial",
    "Mpegts.Sdt.C105_sdt_refuted",
    "Mpegts.Pmt.C105_pmt_partial",
    "Mpegts.Pmt.C105_pmt_refuted",
    "Mpegts.Nit.C105_nit_partial",
    "Mpegts.Nit.C105_nit_refuted",
    "Mpegts.Tot.C105_tot_partial",
    "Mpegts.Tot.C105_tot_refuted",
    "Mpegts.Eit.C105_eit_partial",
    "Mpegts.Eit.C105_eit_refuted"
   ],
   "note": "Partial: what is sent is given exactly for parts of any size, and every section of at most 4098 bytes states its own size; the code does not check larger ones, whose 12-bit length is cut and or-ed over the bits before it (`_refuted`)."
  },
  {
   "property": "C106",
   "status": "proved",
   "theorems": [
    "Mpegts.Sdt.C106_sdt",
    "Mpegts.Nit.C106_nit",
    "Mpegts.Pmt.C106_pmt",
    "Mpegts.Tot.C106_tot",
    "Mpegts.Eit.C106_eit_schedule",
    "Mpegts.Eit.C106_eit_pf"
   ],
   "note": "PMT: program descriptors as read one byte early (C55). EIT schedules: for the schedules of C59; extended events with items are covered for present/following EITs."
  },
  {
   "property": "C107",
   "status": "proved",
   "theorems": [
    "Mpegts.C107_shared_pid",
    "Mpegts.C107_actual_other",
    "Mpegts.C107_clock"
   ],
   "note": "PMT objects: program descriptors as misread (C55), so collecting can panic. Tables of one kind are not told apart by their ids (C107_actual_other)."
  },
  {
   "property": "C108",
   "status": "partial",
   "theorems": [
    "Mpegts.C108_discover",
    "Mpegts.C108_programs_partial",
    "Mpegts.C108_shared_pid_refuted"
   ],
   "note": "Proved in general (C108_discover), and exactly if every program has its own PID (C108_programs_partial; program descriptors as misread, C55). Refuted for programs that share a PID, which ISO 13818-1 allows: their PMTs are merged (C108_shared_pid_refuted)."
  },
  {
   "property": "C109",
   "status": "proved",
   "theorems": [
    "Mpegts.C109_multiplex",
    "Mpegts.C109_standard_pids"
   ],
   "note": "Tables of one kind are not told apart (C107); program descriptors of PMTs as misread (C55)."
  },
  {
   "property": "C110",
   "status": "proved",
   "theorems": [
    "Mpegts.C110_descriptor",
    "Mpegts.C110_size",
    "Mpegts.C110_list",
    "Mpegts.C110_list_size",
    "Mpegts.Sdt.C110_sdt",
    "Mpegts.Pmt.C110_pmt",
    "Mpegts.Nit.C110_nit",
    "Mpegts.Tdt.C110_tdt",
    "Mpegts.Tot.C110_tot",
    "Mpegts.Eit.C110_eit",
    "Mpegts.Eit.C110_schedule"
   ],
   "note": "Layouts in Spec/AnyValue.lean. PATs: C54_wire has no such restriction. PIDs and counters that do not fit: C101."
  },
  {
   "property": "C111",
   "status": "partial",
   "theorems": [
    "Mpegts.Sdt.C111_sdt",
    "Mpegts.Pat.C111_pat",
    "Mpegts.Nit.C111_nit",
    "Mpegts.Pmt.C111_pmt_partial",
    "Mpegts.Pmt.C111_pmt_refuted",
    "Mpegts.Eit.C111_eit",
    "Mpegts.Tdt.C111_tdt",
    "Mpegts.Tot.C111_tot"
   ],
   "note": "Layouts with all free bits in Spec/Foreign.lean. PMT: program descriptors are read one byte too early (C55), so C111_pmt_partial is for sections without them and C111_pmt_refuted says every section with readable program descriptors (up to 255 bytes) is received wrongly."
  },
  {
   "property": "C112",
   "status": "partial",
   "theorems": [
    "Mpegts.Pat.C112_pat_refuted",
    "Mpegts.Sdt.C112_sdt_refuted",
    "Mpegts.Nit.C112_nit_refuted",
    "Mpegts.Eit.C112_eit_refuted",
    "Mpegts.Pmt.C112_pmt_refuted"
   ],
   "note": "Refuted: no parser looks at current_next_indicator; the announced section is taken exactly like the same section in force, and changes the table whenever it has an entry."
  },
  {
   "property": "C113",
   "status": "partial",
   "theorems": [
    "Mpegts.C113_header",
    "Mpegts.C113_received",
    "Mpegts.C113_refuted"
   ],
   "note": "Refuted: `mux` ignores both markings (C113_refuted). Proved: the sync byte, PID, error flag, priority and scrambling control have no influence at all (C113_header, C113_received), for packets whose adaptation field length is at most 250 (the rest is C45)."
  },
  {
   "property": "C114",
   "status": "partial",
   "theorems": [
    "Mpegts.Eit.C114_debug_refuted",
    "Mpegts.Eit.C114_release_refuted"
   ],
   "note": "Refuted: a debug build panics on every such section, a release build takes every such event to start at 2038-04-28 23:47:45 UTC."
  },
  {
   "property": "C115",
   "status": "partial",
   "theorems": [
    "Mpegts.C115_iso8859",
    "Mpegts.C115_utf8",
    "Mpegts.C115_wide_refuted",
    "Mpegts.C115_panics_refuted",
    "Mpegts.C115_accents_refuted",
    "Mpegts.C115_letters_refuted",
    "Mpegts.C115_newline_refuted",
    "Mpegts.C115_utf8_newline_refuted"
   ],
   "note": "Refuted for accents in the default table (the accent is put before its letter, C115_accents_refuted; from_str writes '?', C115_letters_refuted), line breaks (dropped in the single-byte tables, private use characters in UTF-8), the two-byte tables 11..14 (the text is lost) and reserved selectors (exact panic condition). Proved: ISO 8859 with either selector, and UTF-8."
  },
  {
   "property": "C116",
   "status": "proved",
   "theorems": [
    "Mpegts.C116_delta",
    "Mpegts.C116_pts_delta",
    "Mpegts.C116_release",
    "Mpegts.C116_jitter"
   ],
   "note": "Exact results, including what is surprising: a PCR more than a second ahead of the STC is reported as more than 26 hours behind."
  },
  {
   "property": "C117",
   "status": "proved",
   "theorems": [
    "Mpegts.C117_from_bcd",
    "Mpegts.C117_to_bcd8",
    "Mpegts.C117_to_bcd_wide",
    "Mpegts.C117_from_mjd"
   ],
   "note": "Exact results. to_bcd of wide numbers is not refused by debug builds when the upper digits, cut to 8 (16) bits, happen to fit."
  },
  {
   "property": "C118",
   "status": "partial",
   "theorems": [
    "Mpegts.C118_plain",
    "Mpegts.C118_descriptor_partial",
    "Mpegts.C118_tables_partial",
    "Mpegts.C118_panics_refuted",
    "Mpegts.C118_received_refuted"
   ],
   "note": "Refuted: Debug of a DVB string calls to_string(), which panics for a non-empty text of an unknown code page; exactly the tables with such a string panic (C118_panics_refuted), and a sender can cause it (C118_received_refuted). All other tables are shown completely (C118_tables_partial, C118_descriptor_partial; C118_plain for the tables without strings). The quoting of a str is a parameter."
  },
  {
   "property": "C119",
   "status": "proved",
   "theorems": [
    "Mpegts.C119_file",
    "Mpegts.C119_directory",
    "Mpegts.C119_unknown",
    "Mpegts.C119_crate",
    "Mpegts.C119_blank",
    "Mpegts.C119_stray",
    "Mpegts.C119_columns",
    "Mpegts.C119_separator",
    "Mpegts.C119_any_file",
    "Mpegts.C119_any"
   ],
   "note": ""
  },
  {
   "property": "C120",
   "status": "partial",
   "theorems": [
    "Mpegts.C120_packet",
    "Mpegts.C120_clock",
    "Mpegts.C120_numbers",
    "Mpegts.C120_descriptor",
    "Mpegts.C120_descriptors",
    "Mpegts.C120_section",
    "Mpegts.C120_tables",
    "Mpegts.C120_text",
    "Mpegts.C120_reader",
    "Mpegts.C120_debug",
    "Mpegts.C120_tool",
    "Mpegts.C120_split_partial",
    "Mpegts.C120_split_refuted",
    "Mpegts.C120_split_utf8_refuted",
    "Mpegts.C120_split_bytes_refuted"
   ],
   "note": "Every modelled function of the crate and the tool returns or panics, for all arguments and states, except split: C120_split_partial says it ends or never does; C120_split_refuted, C120_split_utf8_refuted and C120_split_bytes_refuted say exactly when it never does (texts of one byte a letter; UTF-8 texts made with from_str; any bytes marked as UTF-8). The uninitialised buffers of TsDrain and Cbr (set_len) are not modelled as undefined behaviour."
  },
  {
   "property": "C121",
   "status": "partial",
   "theorems": [
    "Mpegts.Sdt.C121_sdt_partial",
    "Mpegts.Pat.C121_pat_partial",
    "Mpegts.Nit.C121_nit_partial",
    "Mpegts.Pmt.C121_pmt_partial",
    "Mpegts.Eit.C121_eit_partial",
    "Mpegts.Tot.C121_tot_partial",
    "Mpegts.Tdt.C121_tdt_refuted",
    "Mpegts.C121_second_refuted",
    "Mpegts.C121_empty_refuted"
   ],
   "note": "C121_{pat,pmt,sdt,nit,eit,tot}_partial: every way to lay out sections (Packing in Spec/PackedStream.lean) in which at most one section begins in a packet. Missing, because the code loses them: sections that begin in the same packet as an earlier one (C121_second_refuted), a TDT of which a packet holds three to seven bytes (C121_tdt_refuted, it panics), packets without payload given to the parser (C121_empty_refuted, the section is taken twice)."
  },
  {
   "property": "C122",
   "status": "partial",
   "theorems": [
    "Mpegts.C122_listen",
    "Mpegts.C122_sdt",
    "Mpegts.C122_nit",
    "Mpegts.C122_eit",
    "Mpegts.C122_tot",
    "Mpegts.C122_pat",
    "Mpegts.C122_pmt_partial",
    "Mpegts.C122_discover_partial"
   ],
   "note": "Composition of C71 (reader), C121 (layout) and C111 (field values). Partial because the program descriptors of a PMT are read one byte too early (C55, C111_pmt_refuted): C122_pmt_partial and C122_discover_partial say what is received. The layouts C121 excludes are excluded here as well."
  },
  {
   "property": "C123",
   "status": "proved",
   "theorems": [
    "Mpegts.C123_section",
    "Mpegts.Pat.C123_pat",
    "Mpegts.Pmt.C123_pmt",
    "Mpegts.Nit.C123_nit",
    "Mpegts.Sdt.C123_sdt",
    "Mpegts.Eit.C123_eit_pf",
    "Mpegts.Eit.C123_eit_schedule",
    "Mpegts.Tdt.C123_tdt",
    "Mpegts.Tot.C123_tot"
   ],
   "note": "Spec/Receiver.lean is a receiver written from the standard alone. It is also shown to get the sections of every layout of C121 (sections_packing, Lemmas/Receiver.lean). Of a PAT only the first 253 programmes are sent (C54); the numbers of the sections of a schedule are the subject of C60 and C64; schedules beyond what Schedulable allows are that of C100; events of 24 hours and more are wrong (C58). Packets sent twice are not considered by the receiver."
  },
  {
   "property": "C124",
   "status": "proved",
   "theorems": [
    "Mpegts.C124_descriptor",
    "Mpegts.C124_loop"
   ],
   "note": "Spec/Reading.lean gives the values of any byte string by bit positions. Descriptors whose parsing panics are those of C38."
  },
  {
   "property": "C125",
   "status": "partial",
   "theorems": [
    "Mpegts.Pat.C125_pat",
    "Mpegts.Sdt.C125_sdt",
    "Mpegts.Eit.C125_eit",
    "Mpegts.Nit.C125_nit",
    "Mpegts.Pmt.C125_pmt_partial",
    "Mpegts.Pmt.C125_pmt_none_partial",
    "Mpegts.Tdt.C125_tdt",
    "Mpegts.Tot.C125_tot_partial",
    "Mpegts.Tot.C125_tot_within_partial",
    "Mpegts.Tot.C125_tot_refuted"
   ],
   "note": "Spec/ReadingTables.lean gives the values of any section by bit positions. Full for PAT, SDT, EIT, NIT, TDT. PMT: everything but the program descriptors (C55, C111_pmt_refuted), as stated without them. TOT: as stated when the descriptors end before the CRC; C125_tot_refuted shows a CRC read as a descriptor."
  },
  {
   "property": "C126",
   "status": "partial",
   "theorems": [
    "Mpegts.C126_packets",
    "Mpegts.C126_packet",
    "Mpegts.Pat.C126_pat",
    "Mpegts.Sdt.C126_sdt",
    "Mpegts.Nit.C126_nit",
    "Mpegts.Eit.C126_eit",
    "Mpegts.Pmt.C126_pmt_partial",
    "Mpegts.Tdt.C126_tdt",
    "Mpegts.Tot.C126_tot_partial"
   ],
   "note": "Spec/Reassembly.lean gives the state after any packets by rules on the raw bits (where the rules differ from ISO/IEC 13818-1 is recorded at C48, C79, C84 to C86). The tables follow by C125: full for PAT, SDT, NIT, EIT, TDT; PMT and TOT with the errors of C125."
  },
  {
   "property": "C127",
   "status": "partial",
   "theorems": [
    "Mpegts.Sdt.C127_sdt",
    "Mpegts.Pat.C127_pat",
    "Mpegts.Nit.C127_nit",
    "Mpegts.Eit.C127_eit",
    "Mpegts.Pmt.C127_pmt_partial",
    "Mpegts.Tot.C127_tot_partial"
   ],
   "note": "Spec/Receiver.lean is the receiver of ISO/IEC 13818-1, Spec/PackedStream.lean the layouts, Spec/ReadingTables.lean the values. PMT with the program descriptors of C125; of a TOT the descriptors have to end within it (C125_tot_refuted). The TDT is left out: cut in two it makes parsing panic (C121_tdt_refuted)."
  },
  {
   "property": "C128",
   "status": "partial",
   "theorems": [
    "Mpegts.C128_any",
    "Mpegts.C128_endless",
    "Mpegts.C128_overlong",
    "Mpegts.C128_lie_refuted",
    "Mpegts.C128_tape",
    "Mpegts.C128_source"
   ],
   "note": "Proved for every source that keeps to the contract of Read (Spec/AnySource.lean), and the panic for claims below 2^64 or in a debug build; refuted in a release build for claims that pass 2^64 (C128_lie_refuted)."
  },
  {
   "property": "C129",
   "status": "partial",
   "theorems": [
    "Mpegts.C129_sdt",
    "Mpegts.C129_nit",
    "Mpegts.C129_pmt",
    "Mpegts.C129_tot",
    "Mpegts.C129_eit",
    "Mpegts.Own.Sdt.C129_sdt_any",
    "Mpegts.Own.Pmt.C129_pmt_any",
    "Mpegts.Own.Nit.C129_nit_any",
    "Mpegts.Own.Tot.C129_tot_any",
    "Mpegts.Own.Eit.C129_eit_any",
    "Mpegts.Own.Eit.C129_schedule_any",
    "Mpegts.C129_sdt_received",
    "Mpegts.C129_nit_received",
    "Mpegts.C129_clone_partial",
    "Mpegts.C129_clone_refuted",
    "Mpegts.C129_clone_event_refuted",
    "Mpegts.C129_clone_event_partial",
    "Mpegts.C129_downcast",
    "Mpegts.C129_stream_type",
    "Mpegts.C129_understated_refuted",
    "Mpegts.C129_shrinking"
   ],
   "note": "Proved: sending (all five tables), receiving, casts, stream types, arbitrary appended bytes and stated sizes (SDT, NIT, PMT, TOT, EIT). Refuted: cloning a list or event with such a descriptor panics (C129_clone_refuted); understated sizes give sections above 1024 bytes (C129_understated_refuted)."
  },
  {
   "property": "C130",
   "status": "proved",
   "theorems": [
    "Mpegts.OwnTable.C130_default",
    "Mpegts.OwnTable.C130_empty",
    "Mpegts.OwnTable.C130_sent",
    "Mpegts.OwnTable.C130_received",
    "Mpegts.OwnTable.C130_collected",
    "Mpegts.OwnTable.C130_short"
   ],
   "note": "The hook and psi_list_assemble are arbitrary functions without effects besides their results; a user who overrides demux uses nothing of the crate's."
  },
  {
   "property": "C131",
   "status": "partial",
   "theorems": [
    "Mpegts.C131_lost_refuted",
    "Mpegts.C131_codes_refuted",
    "Mpegts.C131_default_partial",
    "Mpegts.C131_table_refuted",
    "Mpegts.C131_panic_refuted"
   ],
   "note": "Refuted: codes that do not take three bytes (any table but the default one, empty or short codes) are not received as sent (C131_codes_refuted, C131_table_refuted), lost (C131_lost_refuted) or make the receiver panic (C131_panic_refuted). Proved for the default table. Extended events with items, which the crate never sends right, are left to C32-C36."
  },
  {
   "property": "C132",
   "status": "partial",
   "theorems": [
    "Mpegts.C132_equal",
    "Mpegts.C132_accessors",
    "Mpegts.C132_texts_partial",
    "Mpegts.C132_tables_refuted",
    "Mpegts.C132_lossy_refuted",
    "Mpegts.C132_empty",
    "Mpegts.C132_empty_text_partial",
    "Mpegts.C132_controls_refuted",
    "Mpegts.C132_sent",
    "Mpegts.C132_received",
    "Mpegts.C132_search"
   ],
   "note": "Refuted across tables (C132_tables_refuted: the same text, the empty one included, made for two tables is never equal) and for characters a table lacks (C132_lossy_refuted, C132_controls_refuted). Proved within a table and its repertoire, for UTF-8, and for the bytes sent and received."
  },
  {
   "property": "C133",
   "status": "partial",
   "theorems": [
    "Mpegts.Sdt.C133_sdt_refuted",
    "Mpegts.Sdt.C133_sdt_pat_refuted",
    "Mpegts.Sdt.C133_sdt_partial",
    "Mpegts.Nit.C133_nit_refuted",
    "Mpegts.Nit.C133_nit_pat_refuted",
    "Mpegts.Nit.C133_nit_partial",
    "Mpegts.Eit.C133_eit_refuted"
   ],
   "note": "Refuted: an SDT, NIT or EIT (EIT: as long as the events do not count the table id up to that of an EIT, at least 32 events for each step; with the default id up to 2487 events) with a table id outside its kind is sent and then ignored by every object of its kind; with the default id zero SDTs and NITs are read as PATs. Proved for the ids of the kind (SDT, NIT; EIT in C58 and C100)."
  },
  {
   "property": "C134",
   "status": "partial",
   "theorems": [
    "Mpegts.Pieces.C134_arrives_partial",
    "Mpegts.Pieces.C134_schedule_partial",
    "Mpegts.Pieces.C134_many_refuted",
    "Mpegts.Pieces.C134_large_refuted",
    "Mpegts.Pieces.C134_cut_refuted",
    "Mpegts.Pieces.C134_control_refuted"
   ],
   "note": "Proved for up to 16 pieces of 4 to 249 bytes, texts within the repertoire of their table (in the default table no control character where a piece begins) and UTF-8 up to U+FFFF, present/following tables and schedules that can be sent (C134_schedule_partial). Refuted outside: C134_many_refuted, C134_large_refuted, C134_cut_refuted, C134_control_refuted."
  },
  {
   "property": "C135",
   "status": "partial",
   "theorems": [
    "Mpegts.Join.C135_sections_partial",
    "Mpegts.Join.C135_tables_partial",
    "Mpegts.Join.C135_inside_refuted",
    "Mpegts.Join.C135_bytes_partial",
    "Mpegts.Join.C135_bytes_refuted"
   ],
   "note": "Proved if the packets left of the first section do not carry the counter behind that of the (empty) reassembler, and if the rest of the first packet has no byte 47. Refuted otherwise: C135_inside_refuted (a section nobody sent), C135_bytes_refuted (no packet is ever found)."
  },
  {
   "property": "C136",
   "status": "partial",
   "theorems": [
    "Mpegts.C136_descriptor_partial",
    "Mpegts.C136_pat",
    "Mpegts.C136_pmt_partial",
    "Mpegts.C136_nit_partial",
    "Mpegts.C136_sdt_partial",
    "Mpegts.C136_tot_partial",
    "Mpegts.C136_eit_partial",
    "Mpegts.C136_descriptor_read_partial",
    "Mpegts.C136_pat_received",
    "Mpegts.C136_pmt_received_partial",
    "Mpegts.C136_nit_received_partial",
    "Mpegts.C136_sdt_received_partial",
    "Mpegts.C136_eit_received_partial",
    "Mpegts.C136_schedule_received_partial",
    "Mpegts.C136_tot_received_partial",
    "Mpegts.C136_sdt_refuted",
    "Mpegts.C136_eit_refuted",
    "Mpegts.C136_descriptor_refuted",
    "Mpegts.C136_sdt_first_partial",
    "Mpegts.C136_pmt_first_partial",
    "Mpegts.C136_eit_first_partial"
   ],
   "note": "PAT: proved as stated. Other tables and descriptors: what is sent and received is exactly the table with the value each field holds after or-ing (C136_*_partial, all values); this is the English property if only the first value of a byte does not fit (C136_*_first_partial). Refuted in general: C136_sdt_refuted, C136_eit_refuted, C136_descriptor_refuted."
  },
  {
   "property": "C137",
   "status": "partial",
   "theorems": [
    "Mpegts.C137_tdt_partial",
    "Mpegts.C137_tdt_early_refuted",
    "Mpegts.C137_tdt_refuted",
    "Mpegts.C137_tot_partial",
    "Mpegts.C137_eit_partial",
    "Mpegts.C137_eit_early_refuted",
    "Mpegts.C137_schedule_early_refuted",
    "Mpegts.C137_tot_early_refuted",
    "Mpegts.C137_schedule_partial"
   ],
   "note": "What is received is exactly the time the wrapped day number and the seconds of the time modulo 2^32 stand for (C137_tdt_partial all times; C137_tot_partial, C137_eit_partial, C137_schedule_partial for tables otherwise in range), if that day is of 1970 or later; else C137_tdt_early_refuted, C137_tot_early_refuted, C137_eit_early_refuted, C137_schedule_early_refuted: a receiver with overflow checks panics (one event is enough); for TDTs another receiver gets a time modulo 2^64. C137_tdt_refuted: no time from 23 April 2038 up to 2^63 is ever received. Not stated: what a release receiver gets for early TOT and EIT times, and early times of change in a TOT's descriptors."
  },
  {
   "property": "C138",
   "status": "proved",
   "theorems": [
    "Mpegts.C138_pat",
    "Mpegts.C138_nit",
    "Mpegts.C138_sdt",
    "Mpegts.C138_eit",
    "Mpegts.C138_tot",
    "Mpegts.C138_tdt",
    "Mpegts.C138_pmt",
    "Mpegts.C138_schedule",
    "Mpegts.C138_descriptor"
   ],
   "note": "PAT and TDT for all values; PMT, NIT, SDT, EIT present/following and schedules, TOT for tables in range after reduction to the fields (`fit`, see C136), with descriptors that are read back exactly."
  },
  {
   "property": "C139",
   "status": "partial",
   "theorems": [
    "Mpegts.C139_pmt",
    "Mpegts.C139_nit",
    "Mpegts.C139_sdt",
    "Mpegts.C139_schedule_partial",
    "Mpegts.C139_schedule_refuted"
   ],
   "note": "PMT, NIT, SDT: full. Schedules: refuted for the limit of 4096 bytes (events that fill a section exactly are sent in two); proved for sections of at most 4095 bytes when no event starts after the segment next to that of the first."
  },
  {
   "property": "C140",
   "status": "partial",
   "theorems": [
    "Mpegts.C140_intact_partial",
    "Mpegts.C140_change_partial",
    "Mpegts.C140_refuted",
    "Mpegts.C140_equivalence",
    "Mpegts.Pat.C140_pat_refuted",
    "Mpegts.Pat.C140_pat_partial"
   ],
   "note": "Refuted: sections compare by size and CRC only, so of every intact section five bytes can be changed without the comparison showing it (C140_refuted), and in every PAT two neighbouring programmes (C140_pat_refuted). Proved: what the comparison says exactly, that it is an equivalence, and that changes within 32 bits, of one programme of a PAT or of its version are seen."
  },
  {
   "property": "C141",
   "status": "proved",
   "theorems": [
    "Mpegts.C141_crc",
    "Mpegts.C141_check",
    "Mpegts.C141_tables",
    "Mpegts.C141_received",
    "Mpegts.C141_limit"
   ],
   "note": "Proved for every section a PID can carry (up to 4098 bytes) with the length field undamaged; damage to the length field makes the receiver wait for another number of bytes and is not covered. The TDT has no CRC. C141_limit shows that four bits can go unnoticed."
  },
  {
   "property": "C142",
   "status": "partial",
   "theorems": [
    "Mpegts.C142_pat",
    "Mpegts.C142_tot",
    "Mpegts.C142_sdt",
    "Mpegts.C142_nit",
    "Mpegts.C142_pmt",
    "Mpegts.C142_eit_pf",
    "Mpegts.C142_eit_schedule",
    "Mpegts.C142_tdt_refuted"
   ],
   "note": "Proved for every table with a CRC, for up to three damaged bits or a burst of up to 32 bits in each section. Refuted for the TDT: of every TDT one bit can be damaged such that the receiver has another time (C142_tdt_refuted; the format has no CRC, so a receiver could not do better). Damage to the length field of a section or to the header of a packet is not covered. For the PMT relative to what parse makes of the program descriptors (C55)."
  },
  {
   "property": "C143",
   "status": "proved",
   "theorems": [
    "Mpegts.C143_sdt",
    "Mpegts.C143_nit",
    "Mpegts.C143_pmt",
    "Mpegts.C143_eit_pf",
    "Mpegts.C143_eit_schedule",
    "Mpegts.C143_pat",
    "Mpegts.C143_tot"
   ],
   "note": "Proved for every table with a CRC. The losses have to leave the four-bit counter unambiguous (as in C91; C83_middle_refuted shows that this is needed). Damage to the length field of a section or to the header of a packet is not covered. For the PMT relative to what parse makes of the program descriptors (C55). C143_example: five sections of which one is damaged and one loses a packet."
  },
  {
   "property": "C144",
   "status": "partial",
   "theorems": [
    "Mpegts.C144_recover_partial",
    "Mpegts.C144_one_partial",
    "Mpegts.C144_inserted_partial",
    "Mpegts.C144_lost_refuted",
    "Mpegts.C144_sections_partial"
   ],
   "note": "Proved: the reader is in step again behind at most one packet more than those behind the damage that have a second byte 47; exactly what it delivers until then; sections that begin behind that are received (unless mux panics on what was taken for packets, C45). Bytes inserted into a packet cost that packet only (if what hangs over has no byte 47). Refuted: bytes lost of a packet also cost the next, whole one, and a packet is delivered that nobody sent (C144_lost_refuted)."
  },
  {
   "property": "C145",
   "status": "proved",
   "theorems": [
    "Mpegts.C145_pid",
    "Mpegts.C145_listen",
    "Mpegts.C145_pcr",
    "Mpegts.C145_stream_pid",
    "Mpegts.C145_stream_cc",
    "Mpegts.C145_cc"
   ],
   "note": "Proved for packets whose adaptation_field_length is at most 250 (C05: above that the payload offset overflows). PIDs and counters that do not fit are C02, C03."
  },
  {
   "property": "C146",
   "status": "partial",
   "theorems": [
    "Mpegts.C146_lossy",
    "Mpegts.C146_pat",
    "Mpegts.C146_tot",
    "Mpegts.C146_sdt",
    "Mpegts.C146_nit",
    "Mpegts.C146_pmt_partial",
    "Mpegts.C146_pat_update_partial",
    "Mpegts.C146_pat_update_refuted",
    "Mpegts.C146_eit_pf_refuted"
   ],
   "note": "Proved: the table is made of exactly the sections arriving whole that differ in size or CRC from the one before (C146_lossy); PAT, TOT and one-section SDTs, NITs and PMTs (program descriptors misread, C55) sent n times are read once; a new PAT replaces the old one if size or CRC differ. Refuted: changes that keep the CRC are missed (C146_pat_update_refuted), and the sections of a table of several sections are read every time (C146_eit_pf_refuted)."
  },
  {
   "property": "C147",
   "status": "partial",
   "theorems": [
    "Mpegts.C147_elapsed_partial",
    "Mpegts.C147_elapsed_refuted",
    "Mpegts.C147_pts_partial",
    "Mpegts.C147_pts_refuted",
    "Mpegts.C147_read",
    "Mpegts.C147_stamp",
    "Mpegts.C147_stream_refuted",
    "Mpegts.C147_jitter_partial",
    "Mpegts.C147_jitter_refuted"
   ],
   "note": "Proved: the PCRs are read off any stream of packets through the reader; their differences add up exactly while the clock does not start again; on a stream of constant rate the jitter is bounded by rounding. Refuted: one tick is lost at every restart of the clock (also for PTS), and there a perfect stream makes pcr_jitter_ns panic in a debug build and report -37 ns in a release build, because pcr_to_stc does not reduce its result."
  },
  {
   "property": "C148",
   "status": "proved",
   "theorems": [
    "Mpegts.C148_collect",
    "Mpegts.C148_pes",
    "Mpegts.C148_pes_bare",
    "Mpegts.C148_stream"
   ],
   "note": "The receiver is the loop a user writes over the crate's accessors (collectUnits, readPes in the specification)."
  },
  {
   "property": "C149",
   "status": "partial",
   "theorems": [
    "Mpegts.C149_tune_partial",
    "Mpegts.C149_unknown",
    "Mpegts.C149_foreign_partial",
    "Mpegts.C149_foreign_unknown"
   ],
   "note": "The receiver (tune in the specification) is what a user writes over the crate. Partial because the code has the defects of C55 (program descriptors are misread and can make the parser panic: then the user's program panics, stated exactly) and C147 (one tick is lost at every restart of the clock). C149_foreign_partial is the same for the tables of any sender, in any layout that C121 allows. C149_foreign_unknown: a program that no PAT section names is not found."
  },
  {
   "property": "C150",
   "status": "proved",
   "theorems": [
    "Mpegts.C150_independent",
    "Mpegts.C150_extract"
   ],
   "note": "For streams of any contents; the receiver is tune, as in C149."
  },
  {
   "property": "C151",
   "status": "partial",
   "theorems": [
    "Mpegts.C151_rate_partial",
    "Mpegts.C151_short_refuted"
   ],
   "note": "Refuted: pcr_delta_bitrate divides by whole milliseconds, so PCRs less than a millisecond apart (in consecutive packets from 1.504 Mbit/s on) make the receiver panic in both builds. Proved: the exact error bounds otherwise."
  },
  {
   "property": "C152",
   "status": "proved",
   "theorems": [
    "Mpegts.C152_services",
    "Mpegts.C152_network",
    "Mpegts.C152_events"
   ],
   "note": "Texts whose bytes fit their descriptors (longer ones: C134); in the default code page a text may not begin with a control character (C25). Language codes are three ASCII letters in the default code page (others: C131)."
  },
  {
   "property": "C153",
   "status": "partial",
   "theorems": [
    "Mpegts.C153_local_partial",
    "Mpegts.C153_far_refuted"
   ],
   "note": "Holds for offsets of less than five hours (C153_local_partial). A TOT with any offset of five hours or more is sent without complaint, makes every receiver built with overflow checks panic, and shows the wrong local time in one built without (C153_far_refuted, for all such TOTs)."
  },
  {
   "property": "C154",
   "status": "partial",
   "theorems": [
    "Mpegts.C154_tracks_partial",
    "Mpegts.C154_program_refuted"
   ],
   "note": "Holds for PMTs without program descriptors (C154_tracks_partial). A CA descriptor among the program descriptors, where it usually is, is never found (C154_program_refuted, for one with up to four bytes of private data), since the parser starts one byte early there (C55)."
  },
  {
   "property": "C155",
   "status": "partial",
   "theorems": [
    "Mpegts.C155_found",
    "Mpegts.C155_channel_partial",
    "Mpegts.C155_grid_refuted",
    "Mpegts.C155_number_refuted"
   ],
   "note": "Refuted: frequencies and orbital positions that are not multiples of the steps of the standard arrive rounded down, without any sign of it (C155_grid_refuted); a channel number from 1024 on is not found, but its remainder is, and from 32768 on hidden channels become visible (C155_number_refuted). C155_found says what is found in all cases; C155_channel_partial is the property on the grid."
  },
  {
   "property": "C156",
   "status": "partial",
   "theorems": [
    "Mpegts.C156_shown",
    "Mpegts.C156_guide_partial",
    "Mpegts.C156_long_refuted",
    "Mpegts.C156_mixed_refuted",
    "Mpegts.C156_foreign_partial"
   ],
   "note": "Partial because the full property fails for events of 24 hours or more (C156_long_refuted) and for users who do not sort sections themselves (C156_mixed_refuted); C156_shown gives the exact behaviour for every duration. From any sender, in any layout with at most one section beginning in a packet: exact for all durations below 100 hours, unless a descriptor of the service's events makes the parser fail (C156_foreign_partial)."
  },
  {
   "property": "C157",
   "status": "partial",
   "theorems": [
    "Mpegts.C157_watch_partial",
    "Mpegts.C157_unknown_name",
    "Mpegts.C157_off_air"
   ],
   "note": "The receiver (watchService in the specification) is what a user writes over the crate. Partial for the reasons of C149: program descriptors are misread and can make the parser panic (then the user's program panics, stated exactly), and one tick is lost at every restart of the clock. C157_unknown_name and C157_off_air: nothing is found by other names, and for services that the PAT does not list."
  },
  {
   "property": "C158",
   "status": "partial",
   "theorems": [
    "Mpegts.C158_now_partial",
    "Mpegts.C158_shown",
    "Mpegts.C158_long_refuted"
   ],
   "note": "Partial for the reasons of C156: events of 24 hours or more disappear too early (C158_long_refuted); C158_shown states exactly what is shown for every duration. Times must be in the range the wire format carries (C137)."
  },
  {
   "property": "C159",
   "status": "partial",
   "theorems": [
    "Mpegts.C159_shift",
    "Mpegts.C159_time_refuted",
    "Mpegts.C159_time_partial",
    "Mpegts.C159_program"
   ],
   "note": "Partial: the measured time is not the same if the shift moves the end of the clock's period into or out of the stream, because one tick is lost at every restart of the clock (C08, C147); C159_time_refuted states the time exactly. Everything else is proved in full (C159_shift, C159_program)."
  },
  {
   "property": "C160",
   "status": "partial",
   "theorems": [
    "Mpegts.C160_move_partial"
   ],
   "note": "Partial because program descriptors of the new PMT are misread (C55) and can make the receiver's parser panic; C160_move_partial says exactly when. Without program descriptors nothing is missing."
  },
  {
   "property": "C161",
   "status": "proved",
   "theorems": [
    "Mpegts.C161_session",
    "Mpegts.C161_continue",
    "Mpegts.C161_any"
   ],
   "note": "Proved for all sessions with sources that keep delivering; for sources that fail or pause, C161_any reduces a call to the call on the source (C72, C82)."
  },
  {
   "property": "C162",
   "status": "partial",
   "theorems": [
    "Mpegts.C162_services",
    "Mpegts.C162_by_name",
    "Mpegts.C162_watch_partial",
    "Mpegts.C162_nothing"
   ],
   "note": "Listing and looking up proved (C162_services, C162_by_name, C162_nothing). C162_watch_partial: as in C149, program descriptors of the PMT are misread and may make the program panic."
  },
  {
   "property": "C163",
   "status": "proved",
   "theorems": [
    "Mpegts.C163_told",
    "Mpegts.C163_network"
   ],
   "note": "Proved. Events whose descriptors cannot be read make the user's program fail (C156_foreign_partial); texts of other kinds are in C115."
  },
  {
   "property": "C164",
   "status": "proved",
   "theorems": [
    "Mpegts.C164_stack",
    "Mpegts.C164_packets",
    "Mpegts.C164_drain",
    "Mpegts.C164_own"
   ],
   "note": "Depth 0 is the plain reader of C70-C72. The bound `fuel` of the model's loops is 2: at depth n >= 1 a call asks the drain below at most twice."
  },
  {
   "property": "C165",
   "status": "proved",
   "theorems": [
    "Mpegts.C165_packets",
    "Mpegts.C165_recordings"
   ],
   "note": "A recording that begins in the middle of a section is outside this property: the reassembler may then take the bytes for a section or report the last one again (C48, C135). One cut inside a packet takes bytes of the next recording (C144)."
  },
  {
   "property": "C166",
   "status": "proved",
   "theorems": [
    "Mpegts.C166_now",
    "Mpegts.C166_unreadable"
   ],
   "note": "The clock is the TOT, not the TDT, since a TDT cut in two can make its parser panic (C121_tdt_refuted); C158 has the TDT as this crate sends it. Unreadable are, in a debug build, time offsets of five hours and more (C153)."
  }
 ]
}