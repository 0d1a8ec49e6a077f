{
 "claims": [
  {
   "property": "C01",
   "status": "proved",
   "theorems": [
    "Verif.C01.sat2prn_prn2sat",
    "Verif.C01.prn2sat_sat2prn",
    "Verif.C01.prn2sat_injective",
    "Verif.C01.exists_unique_prn",
    "Verif.C01.sat2prn_above",
    "Verif.C01.sat2prn_nonpos",
    "Verif.C01.declared_limits_not_injective",
    "Verif.C01.declared_ok_iff"
   ],
   "note": "Bijection over the slot ranges proved; over the PRN limits the library declares it is false exactly for GPS 33-36 and QZSS 210 (both proved)."
  },
  {
   "property": "C02",
   "status": "proved",
   "theorems": [
    "Verif.C02.sat2id_three_chars",
    "Verif.C02.id2sat_sat2id",
    "Verif.C02.sat2id_injective",
    "Verif.C02.sat2id_above",
    "Verif.C02.id2sat_unknown",
    "Verif.C02.char2sys_sys2char",
    "Verif.C02.id2sat_foreign"
   ],
   "note": "All satellite numbers; text is ASCII. id2sat of an unowned number decodes to another constellation (witness proved)."
  },
  {
   "property": "C03",
   "status": "proved",
   "theorems": [
    "Verif.C03.epoch2time_daycount",
    "Verif.C03.time2epoch_epoch2time",
    "Verif.C03.epoch2time_time2epoch",
    "Verif.C03.epoch2time_unsupported",
    "Verif.C03.epoch2time_injective",
    "Verif.C03.day_of_year"
   ],
   "note": "Every date 1970-2099 and every rational time of day, against a day-counting Gregorian calendar. Seconds are exact rationals."
  },
  {
   "property": "C04",
   "status": "proved",
   "theorems": [
    "Verif.C04.timediff_timeadd",
    "Verif.C04.timeadd_normalised",
    "Verif.C04.timeadd_timediff",
    "Verif.C04.timeadd_zero",
    "Verif.C04.timeadd_timeadd",
    "Verif.C04.timeadd_comm",
    "Verif.C04.timeadd_seq",
    "Verif.C04.timediff_chain",
    "Verif.C04.gt_iff_timediff_pos"
   ],
   "note": "Seconds are exact rationals, not binary64."
  },
  {
   "property": "C05",
   "status": "proved",
   "theorems": [
    "Verif.C05.gpst_roundtrip",
    "Verif.C05.gst_roundtrip",
    "Verif.C05.bdt_roundtrip",
    "Verif.C05.week_tow_instant",
    "Verif.C05.tow_range",
    "Verif.C05.time_roundtrip",
    "Verif.C05.time_roundtrip_eq",
    "Verif.C05.week_offsets",
    "Verif.C05.bdt_gpst_inverse",
    "Verif.C05.negative_week_fails",
    "Verif.C05.tow_out_of_range"
   ],
   "note": "Seconds are exact rationals; int(a/b) is exact truncated division."
  },
  {
   "property": "C06",
   "status": "proved",
   "theorems": [
    "Verif.C06.gpst2utc_offset",
    "Verif.C06.utc2gpst_offset",
    "Verif.C06.gpst2utc_utc2gpst",
    "Verif.C06.utc2gpst_gpst2utc",
    "Verif.C06.roundtrip_in_leap_second"
   ],
   "note": "Exact offset, both directions; inside an inserted leap second the GPS->UTC->GPS trip is late by exactly one second."
  },
  {
   "property": "C07",
   "status": "proved",
   "theorems": [
    "Verif.C07.str_str2sig_three",
    "Verif.C07.str_str2sig_two",
    "Verif.C07.str2sig_str",
    "Verif.C07.str2sig_band",
    "Verif.C07.toTyp_preserves",
    "Verif.C07.toAtt_preserves",
    "Verif.C07.ofStr_repr",
    "Verif.C07.band_spec",
    "Verif.C07.at_sign_lost",
    "Verif.C07.question_mark_none",
    "Verif.C07.gps_attribute_unchecked"
   ],
   "note": "All strings over the RINEX alphabet; the @ and ? attributes are excluded and shown to break the round trip."
  },
  {
   "property": "C08",
   "status": "proved",
   "theorems": [
    "Verif.C08.copyBuff_bits",
    "Verif.C08.copyBuff_raises",
    "Verif.C08.copyBuff_zero"
   ],
   "note": "All buffers, offsets and lengths."
  },
  {
   "property": "C09",
   "status": "proved",
   "theorems": [
    "Verif.C09.inactive_untouched",
    "Verif.C09.active_updated",
    "Verif.C09.raises_iff_singular",
    "Verif.C09.symmetric_preserved",
    "Verif.C09.textbook",
    "Verif.C09.joseph"
   ],
   "note": "Exact real arithmetic."
  },
  {
   "property": "C10",
   "status": "proved",
   "theorems": [
    "Verif.C10.decode_spec",
    "Verif.C10.encode_decode",
    "Verif.C10.decode_encode",
    "Verif.C10.encode_raises",
    "Verif.C10.encode_below_overflows",
    "Verif.C10.decode_injective",
    "Verif.C10.isset_iff_mem"
   ],
   "note": "All widths and masks."
  },
  {
   "property": "C100",
   "status": "proved",
   "theorems": [
    "Verif.C100.read_file",
    "Verif.C100.write_read",
    "Verif.C100.surplus_lines",
    "Verif.C100.inserted_line",
    "Verif.C100.foreign_record",
    "Verif.C100.deviations",
    "Verif.C100.sat_list",
    "Verif.C100.acc_list",
    "Verif.C100.acc_shift"
   ],
   "note": "Lists of the header on characters; lines of the body already split into columns. Exact rationals with rounding as a function. Velocities and deviations are in the model; the theorem on whole files is for position records without deviations."
  },
  {
   "property": "C101",
   "status": "proved",
   "theorems": [
    "Verif.C101.satellite_antennas",
    "Verif.C101.types",
    "Verif.C101.stored",
    "Verif.C101.beyond",
    "Verif.C101.extended_biases",
    "Verif.C101.map_fails",
    "Verif.C101.map_one",
    "Verif.C101.satellite_ten",
    "Verif.C101.satellite_other"
   ],
   "note": "Exact rationals. What is stored before a read beyond the end of the buffer is not modelled."
  },
  {
   "property": "C102",
   "status": "proved",
   "theorems": [
    "Verif.C102.full_week",
    "Verif.C102.week_early",
    "Verif.C102.week_right",
    "Verif.C102.time_early",
    "Verif.C102.time_origin",
    "Verif.C102.yuma_file",
    "Verif.C102.no_week",
    "Verif.C102.no_id",
    "Verif.C102.other_constellations",
    "Verif.C102.xml_week",
    "Verif.C102.xml_health"
   ],
   "note": "Lines are split at the colon, numbers are exact rationals. Of the XML reader only week and health."
  },
  {
   "property": "C103",
   "status": "proved",
   "theorems": [
    "Verif.C103.report",
    "Verif.C103.other_reports",
    "Verif.C103.arrival_early",
    "Verif.C103.np_first",
    "Verif.C103.year_late",
    "Verif.C103.epicentre_lost",
    "Verif.C103.epicentre_lost'",
    "Verif.C103.pages",
    "Verif.C103.complete",
    "Verif.C103.page_zero",
    "Verif.C103.late_page",
    "Verif.C103.unknown_volcano",
    "Verif.C103.unknown_class"
   ],
   "note": "With monlevel 0, without the printing. The texts are files outside the repository; the theorems hold for all sets of defined codes."
  },
  {
   "property": "C104",
   "status": "proved",
   "theorems": [
    "Verif.C104.clock_value",
    "Verif.C104.clkVal_affine",
    "Verif.C104.clkVal_held",
    "Verif.C104.clkVal_between",
    "Verif.C104.steady_clock",
    "Verif.C104.orbit_table",
    "Verif.C104.clock_table",
    "Verif.C104.no_result",
    "Verif.C104.steady_motion",
    "Verif.C104.last_millisecond",
    "Verif.C104.error_before",
    "Verif.C104.error_between",
    "Verif.C104.error_after"
   ],
   "note": "Real numbers; missing values (NaN) are not modelled. Interpolation of the positions is C45 and C46."
  },
  {
   "property": "C105",
   "status": "proved",
   "theorems": [
    "Verif.C105.variation_between",
    "Verif.C105.variation_outside",
    "Verif.C105.phase_band",
    "Verif.C105.rx_signal",
    "Verif.C105.tx_signal",
    "Verif.C105.receiver",
    "Verif.C105.no_antenna",
    "Verif.C105.transmitter",
    "Verif.C105.transmitter_missing",
    "Verif.C105.one_reference",
    "Verif.C105.two_references",
    "Verif.C105.own_reference",
    "Verif.C105.free_reference",
    "Verif.C105.shift_agrees",
    "Verif.C105.shift_count",
    "Verif.C105.attitude"
   ],
   "note": "Real numbers. The zenith angle is a given function of the direction; the position of the Sun is given."
  },
  {
   "property": "C106",
   "status": "proved",
   "theorems": [
    "Verif.C106.slot_sat",
    "Verif.C106.slot_injective",
    "Verif.C106.message",
    "Verif.C106.ignored",
    "Verif.C106.time_value",
    "Verif.C106.day_late",
    "Verif.C106.week_adjust"
   ],
   "note": "Covariance and integrity are skipped by the decoder. Rational numbers."
  },
  {
   "property": "C107",
   "status": "proved",
   "theorems": [
    "Verif.C107.area_message",
    "Verif.C107.rect_inside",
    "Verif.C107.west_missed",
    "Verif.C107.circle_small",
    "Verif.C107.circle_all",
    "Verif.C107.circle_centre",
    "Verif.C107.stec_value",
    "Verif.C107.stec_outside",
    "Verif.C107.offset_centre",
    "Verif.C107.offset",
    "Verif.C107.offset_none"
   ],
   "note": "Real numbers. The order in which areas are searched is C20."
  },
  {
   "property": "C108",
   "status": "proved",
   "theorems": [
    "Verif.C108.frame",
    "Verif.C108.precession_epoch",
    "Verif.C108.full_turn",
    "Verif.C108.rot_dot",
    "Verif.C108.distances",
    "Verif.C108.sidereal_time",
    "Verif.C108.sidereal_rate",
    "Verif.C108.sidereal_day",
    "Verif.C108.leap_twice",
    "Verif.C108.turned",
    "Verif.C108.delay_nonneg",
    "Verif.C108.delay_symm",
    "Verif.C108.delay_frame",
    "Verif.C108.delay_infinite",
    "Verif.C108.delay_centre",
    "Verif.C108.tide_mass",
    "Verif.C108.tide_small"
   ],
   "note": "Real numbers. The tables of nutation and the arguments of Sun and Moon are arbitrary functions of time."
  },
  {
   "property": "C109",
   "status": "proved",
   "theorems": [
    "Verif.C109.columns_read",
    "Verif.C109.satellites_read",
    "Verif.C109.epoch_read",
    "Verif.C109.strength",
    "Verif.C109.no_time",
    "Verif.C109.not_selected",
    "Verif.C109.too_wide"
   ],
   "note": "The formats {:14.3f} and {:010.7f} and the reading of a decimal number are arbitrary functions; that a text has 14 (10) characters is a hypothesis."
  },
  {
   "property": "C11",
   "status": "proved",
   "theorems": [
    "Verif.C11.mask_decodes",
    "Verif.C11.accepted_is_message",
    "Verif.C11.accepted_consistent",
    "Verif.C11.sat_announced",
    "Verif.C11.foreign_satellite",
    "Verif.C11.signal_names"
   ],
   "note": "Mask message decoding specified as the ascending list of set bit positions per announced constellation; the positions the library has no number for are shown to name a satellite of another constellation (foreign_satellite)."
  },
  {
   "property": "C110",
   "status": "proved",
   "theorems": [
    "Verif.C110.record_written",
    "Verif.C110.record_read",
    "Verif.C110.all_records",
    "Verif.C110.two_lines",
    "Verif.C110.seven_signals",
    "Verif.C110.no_letter",
    "Verif.C110.phase_missing"
   ],
   "note": "The records of the header that do not name observation types are not modelled."
  },
  {
   "property": "C111",
   "status": "proved",
   "theorems": [
    "Verif.C111.table",
    "Verif.C111.file",
    "Verif.C111.second_file",
    "Verif.C111.no_version",
    "Verif.C111.satellite",
    "Verif.C111.sbas_wrong",
    "Verif.C111.unknown_letter"
   ],
   "note": "The reading of a decimal number is an arbitrary function."
  },
  {
   "property": "C112",
   "status": "proved",
   "theorems": [
    "Verif.C112.pairing",
    "Verif.C112.update_rows",
    "Verif.C112.repeated_base"
   ],
   "note": "`numpy.intersect1d(assume_unique=True)` is modelled by its definition (stable sort, equal neighbours). Editing, satellite positions and residuals are inputs; that the editing gives distinct observed satellites is C87."
  },
  {
   "property": "C113",
   "status": "proved",
   "theorems": [
    "Verif.C113.code_phase",
    "Verif.C113.above",
    "Verif.C113.below",
    "Verif.C113.positive",
    "Verif.C113.decreasing",
    "Verif.C113.finite_iff",
    "Verif.C113.sea_level",
    "Verif.C113.lower_bound",
    "Verif.C113.dgps_decreasing",
    "Verif.C113.baseline",
    "Verif.C113.standard_choice"
   ],
   "note": "Real numbers instead of floating point; the height of the receiver (`ecef2pos`) is an input."
  },
  {
   "property": "C114",
   "status": "proved",
   "theorems": [
    "Verif.C114.other_lines",
    "Verif.C114.section_read",
    "Verif.C114.file_read",
    "Verif.C114.no_grid",
    "Verif.C114.serial_lost",
    "Verif.C114.serial_raises"
   ],
   "note": "Lines are given by their label and numbers; numbers are exact rationals; dates with six numbers."
  },
  {
   "property": "C115",
   "status": "proved",
   "theorems": [
    "Verif.C115.file_read",
    "Verif.C115.looked_up",
    "Verif.C115.dates",
    "Verif.C115.other_sites",
    "Verif.C115.no_site",
    "Verif.C115.dsb_any_site",
    "Verif.C115.wrong_unit"
   ],
   "note": "Records are given by their columns; numbers are exact rationals. Records whose numbers cannot be converted are not modelled."
  },
  {
   "property": "C116",
   "status": "proved",
   "theorems": [
    "Verif.C116.between",
    "Verif.C116.of_level",
    "Verif.C116.unique",
    "Verif.C116.fits",
    "Verif.C116.shown_eq",
    "Verif.C116.read_back",
    "Verif.C116.unknown",
    "Verif.C116.monotone",
    "Verif.C116.raises"
   ],
   "note": "Real numbers instead of floats: at a value exactly on a level, rounding of the logarithm may give the level below."
  },
  {
   "property": "C117",
   "status": "proved",
   "theorems": [
    "Verif.C117.heading",
    "Verif.C117.file_read",
    "Verif.C117.short_offset"
   ],
   "note": "Lines are given by their text and numbers; exact rationals. Lines whose numbers cannot be converted are not modelled."
  },
  {
   "property": "C12",
   "status": "proved",
   "theorems": [
    "Verif.C12.mismatch_rejected",
    "Verif.C12.truncated_raises",
    "Verif.C12.accepted_matches",
    "Verif.C12.buffer_rejected",
    "Verif.C12.mask_only_by_mask",
    "Verif.C12.fuel_enough",
    "Verif.C12.orbit_not_gated"
   ],
   "note": "All five gated message types, every decoder state and message; also shown that only mask messages change the mask, and that orbit messages are not gated (their issue is stored beside the values)."
  },
  {
   "property": "C13",
   "status": "proved",
   "theorems": [
    "Verif.C13.sval_spec",
    "Verif.C13.svalHas_spec",
    "Verif.C13.svalSbas_spec",
    "Verif.C13.svalBds_spec",
    "Verif.C13.readVal_truncated",
    "Verif.C13.sval_injective",
    "Verif.C13.reencode",
    "Verif.C13.decode_encode",
    "Verif.C13.encode_raises",
    "Verif.C13.encode_ok"
   ],
   "note": "Signed scaled fields over exact rationals; the reserved code is the only one read as not available."
  },
  {
   "property": "C14",
   "status": "proved",
   "theorems": [
    "Verif.C14.completed_frame",
    "Verif.C14.partial_frame",
    "Verif.C14.facility_change",
    "Verif.C14.no_start",
    "Verif.C14.frame_completes"
   ],
   "note": "Every reception history; a sub-frame without preamble is skipped, so \"consecutive\" means consecutive among the valid ones."
  },
  {
   "property": "C15",
   "status": "proved",
   "theorems": [
    "Verif.C15.ready_iff",
    "Verif.C15.flag_persists",
    "Verif.C15.flag_received",
    "Verif.C15.ready_received",
    "Verif.C15.no_network_never_ready",
    "Verif.C15.flag_set",
    "Verif.C15.local_flag_set"
   ],
   "note": "Decision logic plus history: readiness implies every required type was received; before a network is chosen the check reads a slot no message can fill."
  },
  {
   "property": "C16",
   "status": "proved",
   "theorems": [
    "Verif.C16.decoded_from_one_message",
    "Verif.C16.incomplete_kept",
    "Verif.C16.stalled_dropped",
    "Verif.C16.epoch_counter",
    "Verif.C16.collection_fixed",
    "Verif.C16.size_not_checked",
    "Verif.C16.dropped_after_idle",
    "Verif.C16.page_zero_aliases"
   ],
   "note": "Every reception history of valid page numbers (1..255); three theorems exhibit what the collector does not check: sizes of later pages, epochs counted while idle, page number 0."
  },
  {
   "property": "C17",
   "status": "proved",
   "theorems": [
    "Verif.C17.slot_owner",
    "Verif.C17.slot_injective",
    "Verif.C17.slot_sat_faithful",
    "Verif.C17.overflow_is_foreign",
    "Verif.C17.slot_sat_injective",
    "Verif.C17.slot_sat_collisions",
    "Verif.C17.slot_zero",
    "Verif.C17.mask_slots",
    "Verif.C17.setSlots_spec",
    "Verif.C17.mask_counts"
   ],
   "note": "Every slot and mask; the eleven slots beyond the numbering are characterised exactly."
  },
  {
   "property": "C18",
   "status": "proved",
   "theorems": [
    "Verif.C18.select_rule",
    "Verif.C18.outside_mask",
    "Verif.C18.combined_same_issue",
    "Verif.C18.previous_retrievable",
    "Verif.C18.incomplete_set_raises",
    "Verif.C18.comb1_misread",
    "Verif.C18.comb1_not_gated",
    "Verif.C18.comb2_raises"
   ],
   "note": "Every message sequence; the history is read off the bits independently of the decoder. Messages during which the decoder raises end the sequence."
  },
  {
   "property": "C19",
   "status": "proved",
   "theorems": [
    "Verif.C19.count_text",
    "Verif.C19.expand_items",
    "Verif.C19.decode_line",
    "Verif.C19.other_line",
    "Verif.C19.expand_compress",
    "Verif.C19.leading_zero_diverges"
   ],
   "note": "Every text, every segmentation into runs."
  },
  {
   "property": "C20",
   "status": "proved",
   "theorems": [
    "Verif.C20.slot_range",
    "Verif.C20.slot_injective",
    "Verif.C20.slot_surjective",
    "Verif.C20.slot_allocated",
    "Verif.C20.undefined_collide",
    "Verif.C20.other_slots_kept",
    "Verif.C20.pairs_independent",
    "Verif.C20.content",
    "Verif.C20.lookup_sound"
   ],
   "note": "All region/area values, all messages; inside-area test is a parameter."
  },
  {
   "property": "C21",
   "status": "proved",
   "theorems": [
    "Verif.C21.reported_authentic",
    "Verif.C21.counted_authentic",
    "Verif.C21.decode_counts",
    "Verif.C21.run_inv",
    "Verif.C21.decode_status",
    "Verif.C21.genMsg_eq",
    "Verif.C21.genInav_spec",
    "Verif.C21.tag_not_empty",
    "Verif.C21.never_decreases",
    "Verif.C21.fresh_default",
    "Verif.C21.chain_check_ignores_root",
    "Verif.C21.root_key_replaced"
   ],
   "note": "Every history, primitives arbitrary. The two last theorems show where the guarantee of the ICD (every key linked to the verified root key) does not hold of the code."
  },
  {
   "property": "C22",
   "status": "proved",
   "theorems": [
    "Verif.C22.stored",
    "Verif.C22.handed_iff",
    "Verif.C22.handed_content",
    "Verif.C22.stray_block_blocks",
    "Verif.C22.run_fits",
    "Verif.C22.hist_inv",
    "Verif.C22.fresh_default"
   ],
   "note": "Every history of calls; the blocks are read off the received HKROOT bits independently of the decoder."
  },
  {
   "property": "C23",
   "status": "proved",
   "theorems": [
    "Verif.C23.processed_complete",
    "Verif.C23.unprocessed",
    "Verif.C23.not_mixed",
    "Verif.C23.complete_is_processed",
    "Verif.C23.mixed_when_first_page_lost",
    "Verif.C23.run_buf",
    "Verif.C23.fresh_default"
   ],
   "note": "Every history of calls with 40-bit NMA fields; the mixing of two sub-frames when page 0 is lost is shown by a concrete run."
  },
  {
   "property": "C24",
   "status": "proved",
   "theorems": [
    "Verif.C24.chain_code",
    "Verif.C24.chain_times",
    "Verif.C24.chain_times_iff",
    "Verif.C24.codeTime_true",
    "Verif.C24.codeTime_wrong",
    "Verif.C24.chain_raises",
    "Verif.C24.steps_to_root",
    "Verif.C24.first_check",
    "Verif.C24.week_start_raises",
    "Verif.C24.gst_conversion",
    "Verif.C24.gst_week"
   ],
   "note": "Any hash function, any number of steps. The week roll-over defect (week reduced at every step) is characterised exactly."
  },
  {
   "property": "C25",
   "status": "proved",
   "theorems": [
    "Verif.C25.accepted_authentic",
    "Verif.C25.decode_sound",
    "Verif.C25.counted_accepted",
    "Verif.C25.verify_decides",
    "Verif.C25.stored_consistent",
    "Verif.C25.load_adds",
    "Verif.C25.load_local",
    "Verif.C25.key_number_ignored"
   ],
   "note": "Every history of load and decode calls, any signature primitive and key directory. The stored message named by an acceptance is shown complete and of the named issue. Deviations: the key number is ignored once a key is cached; signatures of QZSS satellites about themselves are recorded under issue 0."
  },
  {
   "property": "C26",
   "status": "proved",
   "theorems": [
    "Verif.C26.fast_rejected",
    "Verif.C26.fast_accepted",
    "Verif.C26.fast_udrei",
    "Verif.C26.integrity_spec",
    "Verif.C26.degradation_spec",
    "Verif.C26.half_spec",
    "Verif.C26.half_stores",
    "Verif.C26.number_means_slot",
    "Verif.C26.second_half_misread",
    "Verif.C26.mixed_spec",
    "Verif.C26.mask_in_use",
    "Verif.C26.dfmc_integrity_fails",
    "Verif.C26.short_block_indicators",
    "Verif.C26.long_wrong_satellite"
   ],
   "note": "Full decoder model (message types 1-7, 18, 24-26, 31-36) over bit strings; includes proved defects: misread indicators of short blocks, long-term corrections addressed by mask number stored for the wrong satellite, mixed half read ten bits early."
  },
  {
   "property": "C27",
   "status": "proved",
   "theorems": [
    "Verif.C27.slot_spec",
    "Verif.C27.slot_injective",
    "Verif.C27.mask31_slots",
    "Verif.C27.mask1_slots",
    "Verif.C27.reserved_gps_foreign",
    "Verif.C27.mask1_nodup"
   ],
   "note": "All slots; reserved GPS slots 33-37 of the L1 mask are taken for Galileo satellites (proved)."
  },
  {
   "property": "C28",
   "status": "proved",
   "theorems": [
    "Verif.C28.weights_spec",
    "Verif.C28.rejected_iff",
    "Verif.C28.cell_spec",
    "Verif.C28.cell_north",
    "Verif.C28.cell_south",
    "Verif.C28.cell_polar",
    "Verif.C28.cell_position",
    "Verif.C28.table_nodup",
    "Verif.C28.table_complete",
    "Verif.C28.grid_points",
    "Verif.C28.search_sound",
    "Verif.C28.search_exact",
    "Verif.C28.variances",
    "Verif.C28.result",
    "Verif.C28.constant_grid",
    "Verif.C28.linear_grid",
    "Verif.C28.bounded_grid",
    "Verif.C28.delays_spec",
    "Verif.C28.best_quality_ignored",
    "Verif.C28.unmonitored_used",
    "Verif.C28.do_not_use_used",
    "Verif.C28.larger_mask_raises",
    "Verif.C28.polar_no_correction",
    "Verif.C28.polar_bands_80"
   ],
   "note": "Exact rational arithmetic; pierce point and slant factor are arguments."
  },
  {
   "property": "C29",
   "status": "proved",
   "theorems": [
    "Verif.C29.estimILS_best",
    "Verif.C29.msearch_best",
    "Verif.C29.same_distances",
    "Verif.C29.mlambda_best",
    "Verif.C29.mlambda_refuses"
   ],
   "note": "Exact arithmetic (ordered field with floor; reals for mlambda). The searches end and return the ncands nearest integer vectors, in order, with their distances; hypothesis: ncands integer vectors closer than 1e18 (the initial bound) exist, otherwise the code returns zero vectors. End to end for mlambda parmode=1. parmode=2/3 and the success rate are not part of the claim."
  },
  {
   "property": "C30",
   "status": "proved",
   "theorems": [
    "Verif.C30.ldldecom_exact",
    "Verif.C30.ldldecom_finds",
    "Verif.C30.reduction_unimodular",
    "Verif.C30.one_to_one",
    "Verif.C30.same_distance",
    "Verif.C30.mlambda_transforms"
   ],
   "note": "Exact arithmetic. ldldecom succeeds exactly on matrices with an Lt*D*L factorisation with pivots >= 1e-10 and is exact; reduction ends, Z is integer with determinant +-1, factors belong to Zt*Q*Z and are decorrelated."
  },
  {
   "property": "C31",
   "status": "proved",
   "theorems": [
    "Verif.C31.setLen_spec",
    "Verif.C31.setChecksum_spec",
    "Verif.C31.accepts",
    "Verif.C31.round_trip",
    "Verif.C31.frame_accepted",
    "Verif.C31.short_refused"
   ],
   "note": "Every payload of 6..1023 bytes at every offset; frames shorter than the accepted minimum are shown refused. The bit-serial CRC of the model is compared with nothing else: the theorem says encoder and decoder agree."
  },
  {
   "property": "C32",
   "status": "proved",
   "theorems": [
    "Verif.C32.verdict",
    "Verif.C32.burst_detected",
    "Verif.C32.single_detected",
    "Verif.C32.double_detected",
    "Verif.C32.odd_detected"
   ],
   "note": "Every complete accepted frame and every altered frame with the same length field: bursts up to 24 bits, any two bits, any odd number of bits. A 25-bit burst that passes is exhibited."
  },
  {
   "property": "C33",
   "status": "proved",
   "theorems": [
    "Verif.C33.orbit_round_trip",
    "Verif.C33.clock_round_trip",
    "Verif.C33.ura_round_trip",
    "Verif.C33.combined_record",
    "Verif.C33.hclk_record",
    "Verif.C33.no_combined_encoder",
    "Verif.C33.glonass_misread",
    "Verif.C33.number_63_lost",
    "Verif.C33.qzs_overflow"
   ],
   "note": "encode/decode of SSR orbit, clock and URA messages as whole messages; combined and high-rate clock on record level since the message encoders are missing; quality2qi (float logarithm) is a parameter"
  },
  {
   "property": "C34",
   "status": "proved",
   "theorems": [
    "Verif.C34.msmtype_iff",
    "Verif.C34.msmtype_none",
    "Verif.C34.ssrtype_iff",
    "Verif.C34.isSsrtype_iff",
    "Verif.C34.families_disjoint",
    "Verif.C34.mt2sct_sct2mt",
    "Verif.C34.sct2mt_mt2sct",
    "Verif.C34.getSsrSys_mt2sct",
    "Verif.C34.getSsrSys_ssrtype",
    "Verif.C34.decode_handler",
    "Verif.C34.number_63",
    "Verif.C34.encode_decode_kind",
    "Verif.C34.igs_iff",
    "Verif.C34.decode_iff",
    "Verif.C34.encode_iff",
    "Verif.C34.nrtktype_iff"
   ],
   "note": "All message numbers; the exceptions (1069 taken for SSR, seventeen duplicate test numbers, number 63 decoded as an ephemeris) are part of the statements."
  },
  {
   "property": "C35",
   "status": "proved",
   "theorems": [
    "Verif.C35.msm_cells",
    "Verif.C35.signals_distinct",
    "Verif.C35.signal_freq",
    "Verif.C35.g2a_no_frequency",
    "Verif.C35.glonass_channel_unknown",
    "Verif.C35.too_many_cells",
    "Verif.C35.signal_names",
    "Verif.C35.signal_carrier",
    "Verif.C35.channel_of",
    "Verif.C35.units"
   ],
   "note": "All message types MSM1-MSM7, every mask; the observation epoch is not modelled. The loss-of-lock flags are proved to be never set."
  },
  {
   "property": "C36",
   "status": "proved",
   "theorems": [
    "Verif.C36.getbitu2_value",
    "Verif.C36.getbits2_value",
    "Verif.C36.getbitu3_value",
    "Verif.C36.getbits3_value",
    "Verif.C36.getbitg_value",
    "Verif.C36.u2s_value",
    "Verif.C36.getbit_raises"
   ],
   "note": "field readers of rawnav.py; two-s complement specified by range and congruence (unique)"
  },
  {
   "property": "C37",
   "status": "proved",
   "theorems": [
    "Verif.C37.semicircle",
    "Verif.C37.lnav_history",
    "Verif.C37.other_ids_ignored",
    "Verif.C37.other_satellites_ignored",
    "Verif.C37.eccentricity",
    "Verif.C37.transmission_time"
   ],
   "note": "whole histories of the decoder over all GPS/QZSS satellites and contents; the two wrong parameters (eccentricity sign, time of transmission) are proved as exact deviations"
  },
  {
   "property": "C38",
   "status": "proved",
   "theorems": [
    "Verif.C38.inav_history",
    "Verif.C38.fnav_history",
    "Verif.C38.fnav_page1",
    "Verif.C38.fnav_page234"
   ],
   "note": "whole histories of the I/NAV and F/NAV decoders over all Galileo satellites and contents, with the full parameter tables; the misplaced satellite-number test of F/NAV is proved as the exact condition"
  },
  {
   "property": "C39",
   "status": "proved",
   "theorems": [
    "Verif.C39.read_complete",
    "Verif.C39.read_fails",
    "Verif.C39.stored",
    "Verif.C39.short_lists",
    "Verif.C39.long_lists",
    "Verif.C39.bad_counts",
    "Verif.C39.slots_complete",
    "Verif.C39.header_fuel"
   ],
   "note": "Text-level model of the header loop of rinex.py (signal-type and GLONASS-slot records, other records ignored). The stated property is false for particular counts (27, 40, 41, 53-55, ...): proved exactly which counts are read completely and that all others end in ValueError."
  },
  {
   "property": "C40",
   "status": "proved",
   "theorems": [
    "Verif.C40.pair_within",
    "Verif.C40.first_pair",
    "Verif.C40.terminates_iff",
    "Verif.C40.exhausted_hangs"
   ],
   "note": "Model of sync_obs over lists of epochs (text of an epoch not modelled); exact rational times. Termination is characterised exactly; it fails when one file is exhausted first."
  },
  {
   "property": "C41",
   "status": "proved",
   "theorems": [
    "Verif.C41.record_names",
    "Verif.C41.written_iff",
    "Verif.C41.memory",
    "Verif.C41.written_issues",
    "Verif.C41.written_sublist",
    "Verif.C41.nothing_lost",
    "Verif.C41.no_record_iff"
   ],
   "note": "Model of the de-duplication in the three record writers of rinex.py; formatting of fields not modelled."
  },
  {
   "property": "C42",
   "status": "proved",
   "theorems": [
    "Verif.C42.adjtime_spec",
    "Verif.C42.adjtime_far",
    "Verif.C42.adjday_eq",
    "Verif.C42.adjday_spec",
    "Verif.C42.day_unique",
    "Verif.C42.tod2tow_spec",
    "Verif.C42.glo2time_spec"
   ],
   "note": "every epoch and reference over exact rationals, including the half-day edges and inputs farther than a day and a half; also the two users of the adjustment (GPS and GLONASS time of day)"
  },
  {
   "property": "C43",
   "status": "proved",
   "theorems": [
    "Verif.C43.by_issue",
    "Verif.C43.by_age",
    "Verif.C43.youngest_unique",
    "Verif.C43.sound",
    "Verif.C43.raises_iff",
    "Verif.C43.almanac"
   ],
   "note": "every list, epoch, satellite, issue and type; almanac lookup included"
  },
  {
   "property": "C44",
   "status": "proved",
   "theorems": [
    "Verif.C44.gates",
    "Verif.C44.cartesian_iff",
    "Verif.C44.position",
    "Verif.C44.position_satpos",
    "Verif.C44.unchanged",
    "Verif.C44.unchanged_satpos",
    "Verif.C44.overwritten",
    "Verif.C44.accumulates",
    "Verif.C44.applied_after"
   ],
   "note": "Selection and application of corrections in satposs/satpos for broadcast ephemerides; ephemeris search, evaluation and local frame are parameters; exact rationals with NaN. The full claim holds for all services except PVS and SBAS, where the exact accumulation is proved."
  },
  {
   "property": "C45",
   "status": "proved",
   "theorems": [
    "Verif.C45.interppol_eq",
    "Verif.C45.exact_on_polynomials",
    "Verif.C45.at_node",
    "Verif.C45.linear",
    "Verif.C45.only_nodes"
   ],
   "note": "the in-place recurrence equals Lagrange interpolation at 0 for any number of distinct nodes"
  },
  {
   "property": "C46",
   "status": "proved",
   "theorems": [
    "Verif.C46.bisect_range",
    "Verif.C46.bisect_bracket",
    "Verif.C46.bracket_unique",
    "Verif.C46.search_orbit",
    "Verif.C46.search_none",
    "Verif.C46.counter_beyond_table",
    "Verif.C46.rotated_eq",
    "Verif.C46.pephpos_eq",
    "Verif.C46.position_exact",
    "Verif.C46.position_at_epoch",
    "Verif.C46.search_clock",
    "Verif.C46.clock_spec"
   ],
   "note": "whole path search, window, Earth-rotation, interpolation for orbit and clock tables; the counter of epochs read exceeding the table is shown to raise"
  },
  {
   "property": "C47",
   "status": "proved",
   "theorems": [
    "Verif.C47.layout",
    "Verif.C47.ztd_variance",
    "Verif.C47.noise",
    "Verif.C47.trop_alias",
    "Verif.C47.iono_noise_shifted"
   ],
   "note": "All option combinations; the two single-option combinations (troposphere without ionosphere and vice versa) are proved to be the exceptions."
  },
  {
   "property": "C48",
   "status": "proved",
   "theorems": [
    "Verif.C48.selection",
    "Verif.C48.restored",
    "Verif.C48.held",
    "Verif.C48.too_many"
   ],
   "note": "ddidx, restamb and holdamb over every flag pattern, satellite set and number of frequencies (exact rationals); more than 233 differences raise."
  },
  {
   "property": "C49",
   "status": "proved",
   "theorems": [
    "Verif.C49.update",
    "Verif.C49.joseph_psd",
    "Verif.C49.differences",
    "Verif.C49.covariance",
    "Verif.C49.cov_psd"
   ],
   "note": "kfupdate over real matrices of any dimension; sdres pair selection, counters and variances (values of residuals and design matrix arbitrary)."
  },
  {
   "property": "C50",
   "status": "proved",
   "theorems": [
    "Verif.C50.result",
    "Verif.C50.never_recovers",
    "Verif.C50.average",
    "Verif.C50.bounded",
    "Verif.C50.active_prefix",
    "Verif.C50.run_inv"
   ],
   "note": "Every history of calls of any satellites, exact rationals, any ns>=1, gap and slip thresholds; a satellite whose first measurement was incomplete raises KeyError for every later complete one."
  },
  {
   "property": "C51",
   "status": "proved",
   "theorems": [
    "Verif.C51.cosine_eq",
    "Verif.C51.angle_spec",
    "Verif.C51.windup_spec",
    "Verif.C51.windup_unique",
    "Verif.C51.track_unwrapped",
    "Verif.C51.turn_receiver",
    "Verif.C51.turn_satellite",
    "Verif.C51.dip_length",
    "Verif.C51.face_on",
    "Verif.C51.frame_ok",
    "Verif.C51.windupcorr_turn",
    "Verif.C51.angle_degenerate"
   ],
   "note": "exact reals; the local frame of the receiver and the direction orienting the satellite (sun or velocity) are arguments"
  },
  {
   "property": "C52",
   "status": "proved",
   "theorems": [
    "Verif.C52.succeeds_iff",
    "Verif.C52.decoded",
    "Verif.C52.undetailed",
    "Verif.C52.radii",
    "Verif.C52.onset_instant",
    "Verif.C52.ext_succeeds_iff",
    "Verif.C52.ext_size",
    "Verif.C52.ext_after_unknown"
   ],
   "note": "camfDec.decode and decode_ext; tables loaded from files are parameters, texts are represented by their indices, printing only where it can raise; state after an exception not modelled. The originally intended claim (no hazard with details fails) is false: THazard.WINDCHILL does not exist, so every later branch raises AttributeError."
  },
  {
   "property": "C53",
   "status": "proved",
   "theorems": [
    "Verif.C53.mask",
    "Verif.C53.mask_satellites",
    "Verif.C53.mask_foreign",
    "Verif.C53.issues",
    "Verif.C53.rejected",
    "Verif.C53.corrections",
    "Verif.C53.corrections_missing",
    "Verif.C53.nearest",
    "Verif.C53.distance",
    "Verif.C53.degree",
    "Verif.C53.initial_stations",
    "Verif.C53.station_message",
    "Verif.C53.health_raises",
    "Verif.C53.other_types",
    "Verif.C53.in_use",
    "Verif.C53.history"
   ],
   "note": "dgpsDec message types 47-51, get_station (distance an arbitrary function, the real formula is Dgps.dist) and set_dgps_corr; state kept across exceptions; reference times and status bits not modelled."
  },
  {
   "property": "C54",
   "status": "proved",
   "theorems": [
    "Verif.C54.antenna",
    "Verif.C54.antenna_none",
    "Verif.C54.osb",
    "Verif.C54.osb_none",
    "Verif.C54.adjacent_exclusive",
    "Verif.C54.dcb_fails",
    "Verif.C54.doy_time",
    "Verif.C54.doy_epoch",
    "Verif.C54.open_end",
    "Verif.C54.open_start_never"
   ],
   "note": "every table and epoch; differential biases always raise on a match, and a bias with an undefined start never applies (both proved)"
  },
  {
   "property": "C55",
   "status": "proved",
   "theorems": [
    "Verif.C55.lnav_masked",
    "Verif.C55.cnav_masked",
    "Verif.C55.fnav_masked",
    "Verif.C55.cnav2_masked",
    "Verif.C55.masked_same_iff",
    "Verif.C55.source_injective",
    "Verif.C55.build_bits",
    "Verif.C55.page_slot",
    "Verif.C55.pages_in_order",
    "Verif.C55.lnav_order_matters"
   ],
   "note": "Every message content; includes the reassembly of the signature pages and its order dependence for LNAV."
  },
  {
   "property": "C56",
   "status": "proved",
   "theorems": [
    "Verif.C56.partial_fix",
    "Verif.C56.decision",
    "Verif.C56.closest_formula",
    "Verif.C56.quad_split",
    "Verif.C56.enough_one"
   ],
   "note": "exact reals; the bootstrapped success rate is an arbitrary function of the conditional variances; two candidates closer than 1e18 are assumed to exist; parmode 3 (unused) not modelled"
  },
  {
   "property": "C57",
   "status": "proved",
   "theorems": [
    "Verif.C57.full",
    "Verif.C57.partially",
    "Verif.C57.optimal",
    "Verif.C57.covariance",
    "Verif.C57.est_closest",
    "Verif.C57.reported_right_iff",
    "Verif.C57.reported_too_small"
   ],
   "note": "exact reals; the pair list is an argument (C48 proves its selection); the reported covariance under partial fixing is proved to be that of a full fix, hence too small in general"
  },
  {
   "property": "C58",
   "status": "proved",
   "theorems": [
    "Verif.C58.unnamed_first",
    "Verif.C58.file_back",
    "Verif.C58.orbit_kept",
    "Verif.C58.legacy_kept",
    "Verif.C58.tot_kept_iff",
    "Verif.C58.bds_tot_late",
    "Verif.C58.galileo_bgd",
    "Verif.C58.cnv3_lost",
    "Verif.C58.navic_tgd",
    "Verif.C58.navic_l1_lost",
    "Verif.C58.qzs_health",
    "Verif.C58.cnav_toe",
    "Verif.C58.cut_fields"
   ],
   "note": "a file is a list of lines whose columns are exact numbers (13-digit rounding not modelled); GPS, QZSS, Galileo, BeiDou, NavIC; RINEX version 4; the duplicate suppression is C41. Exact losses of the round trip are part of the theorems."
  },
  {
   "property": "C59",
   "status": "proved",
   "theorems": [
    "Verif.C59.bias_content",
    "Verif.C59.ura_content",
    "Verif.C59.orbit_epochs",
    "Verif.C59.clock_epochs",
    "Verif.C59.other_issue",
    "Verif.C59.mask_message",
    "Verif.C59.signal_table",
    "Verif.C59.signal_name",
    "Verif.C59.outside_mask_misread",
    "Verif.C59.ura_other_mask"
   ],
   "note": "Every decoder state and every message of types 1 to 5 that is decoded without raising; two theorems exhibit what goes wrong: entries of satellites outside the mask are not skipped, and the mask number of accuracy messages is not compared."
  },
  {
   "property": "C60",
   "status": "proved",
   "theorems": [
    "Verif.C60.mask_lists",
    "Verif.C60.orbit_content",
    "Verif.C60.clock_content",
    "Verif.C60.clock_refused",
    "Verif.C60.ura_content",
    "Verif.C60.cbias_content",
    "Verif.C60.pbias_content",
    "Verif.C60.own_place",
    "Verif.C60.own_row",
    "Verif.C60.outside"
   ],
   "note": "Every decoder state whose mask lists belong together (mask_lists: true after every accepted mask message) and every message; decoded exactly when long enough, and the whole resulting state is given field by field. For HAS clocks every satellite of the mask must belong to a constellation of the mask (see C11 for mask positions that do not)."
  },
  {
   "property": "C61",
   "status": "proved",
   "theorems": [
    "Verif.C61.half_content",
    "Verif.C61.long_message",
    "Verif.C61.first_half",
    "Verif.C61.dfmc_correction",
    "Verif.C61.dfmc_indicators",
    "Verif.C61.dfmc_previous",
    "Verif.C61.grid_mask",
    "Verif.C61.delays_paired",
    "Verif.C61.delays_paired_fresh"
   ],
   "note": "Every decoder state and every message long enough; which satellite a slot number means is C27, when a half message is accepted is C26 (half_spec). Covariance and error indicators of type 32 are not modelled."
  },
  {
   "property": "C62",
   "status": "proved",
   "theorems": [
    "Verif.C62.combined_content",
    "Verif.C62.combined_other_issue",
    "Verif.C62.bias_content",
    "Verif.C62.bias_no_network",
    "Verif.C62.no_mask",
    "Verif.C62.mask_counts"
   ],
   "note": "Every decoder state whose mask lists belong together (C60.mask_lists and mask_counts: true after every accepted mask message, for the numbers of signals if it repeats no satellite) and every message, in the layout of the QZSS service. The slot named must exist (33 slots, 32 networks)."
  },
  {
   "property": "C63",
   "status": "proved",
   "theorems": [
    "Verif.C63.stec_content",
    "Verif.C63.grid_content",
    "Verif.C63.atmos_content",
    "Verif.C63.atm_other_issue",
    "Verif.C63.no_grid",
    "Verif.C63.atmos_outside"
   ],
   "note": "Every decoder state whose mask lists belong together (C60.mask_lists: true after every accepted mask message) and every message, in the layout of the QZSS service. The slot named must exist. The mapping function parameters are modelled by the epoch they were computed for."
  },
  {
   "property": "C64",
   "status": "proved",
   "theorems": [
    "Verif.C64.sequence_iff",
    "Verif.C64.sequence_prescribed",
    "Verif.C64.sequence_short",
    "Verif.C64.sequence_second",
    "Verif.C64.macseq_iff",
    "Verif.C64.mack_sections",
    "Verif.C64.kroot_iff",
    "Verif.C64.kroot_raises",
    "Verif.C64.pkr_iff"
   ],
   "note": "Every state with a tag section as long as decode_mack makes it and a 32-bit sub-frame time; the exact rule the code applies in every sub-frame is sequence_iff. MACSEQ: first sub-frames and six-tag sub-frames. Messages are the 2000-bit buffers the decoder keeps."
  },
  {
   "property": "C65",
   "status": "proved",
   "theorems": [
    "Verif.C65.flags",
    "Verif.C65.returned",
    "Verif.C65.delayed",
    "Verif.C65.delayed_again",
    "Verif.C65.delayed_skipped",
    "Verif.C65.delayed_kept"
   ],
   "note": "Histories start from a decoder as constructed; the required number of tags is a setting and at least one. decode returns false after the last tag with data fails, even if earlier tags of the same call were counted (only the implication is claimed)."
  },
  {
   "property": "C66",
   "status": "proved",
   "theorems": [
    "Verif.C66.buffer",
    "Verif.C66.buffer_empty",
    "Verif.C66.eph_data",
    "Verif.C66.utc_data",
    "Verif.C66.page_split"
   ],
   "note": "Words are 128 bits long, pages 240 bits. Satellite numbers 1 to 36."
  },
  {
   "property": "C67",
   "status": "proved",
   "theorems": [
    "Verif.C67.orbit",
    "Verif.C67.clock",
    "Verif.C67.combined",
    "Verif.C67.ura",
    "Verif.C67.hrclock",
    "Verif.C67.hrclock_fails",
    "Verif.C67.dispatch",
    "Verif.C67.skipped",
    "Verif.C67.igs",
    "Verif.C67.methods"
   ],
   "note": "Network 0; the tables of a kind must exist or the message must be of a later epoch (true for the first message once the week is set)."
  },
  {
   "property": "C68",
   "status": "proved",
   "theorems": [
    "Verif.C68.code_bias",
    "Verif.C68.phase_bias",
    "Verif.C68.cut_short",
    "Verif.C68.complete"
   ],
   "note": "Network 0; the list of satellites with biases must exist or the message must be of a later epoch (true for the first message once the week is set); phase biases: the four tables start with the same satellites, which every message preserves."
  },
  {
   "property": "C69",
   "status": "proved",
   "theorems": [
    "Verif.C69.epoch_iff",
    "Verif.C69.uneven",
    "Verif.C69.skipped",
    "Verif.C69.end_of_file",
    "Verif.C69.selection",
    "Verif.C69.selection_twice",
    "Verif.C69.substituted",
    "Verif.C69.replacement_spec",
    "Verif.C69.header_columns"
   ],
   "note": "float() is a parameter: the theorems hold whatever it accepts; int() accepts ASCII digits only. Selections as left by calls of setSignals on a fresh decoder."
  },
  {
   "property": "C70",
   "status": "proved",
   "theorems": [
    "Verif.C70.round",
    "Verif.C70.round_cnav2",
    "Verif.C70.check",
    "Verif.C70.check_without_signature",
    "Verif.C70.no_check",
    "Verif.C70.reachable",
    "Verif.C70.three_pages",
    "Verif.C70.load_same"
   ],
   "note": "Messages shorter than their type are excluded (`Complete`): they would shorten the collecting buffer. After a call that raised nothing is claimed."
  },
  {
   "property": "C71",
   "status": "proved",
   "theorems": [
    "Verif.C71.load",
    "Verif.C71.scan",
    "Verif.C71.whole",
    "Verif.C71.complete_set",
    "Verif.C71.firstOf_found",
    "Verif.C71.lnav_steps",
    "Verif.C71.cnav_steps",
    "Verif.C71.fnav_steps",
    "Verif.C71.inav_steps"
   ],
   "note": "Messages have the full length of their type and LNAV sub-frame number 0 does not occur (`Full`). Reading the text file and splitting it by satellite is outside the model."
  },
  {
   "property": "C72",
   "status": "proved",
   "theorems": [
    "Verif.C72.letters",
    "Verif.C72.bands",
    "Verif.C72.no_letter",
    "Verif.C72.short",
    "Verif.C72.of_code",
    "Verif.C72.of_text",
    "Verif.C72.of_empty",
    "Verif.C72.own",
    "Verif.C72.tracking_letters"
   ],
   "note": "Characters other than capital letters are covered on the bands of the constellation (`no_letter`); on a band without a check some of them are accepted, see the examples and C07."
  },
  {
   "property": "C73",
   "status": "proved",
   "theorems": [
    "Verif.C73.gps_fields",
    "Verif.C73.qzs_fields",
    "Verif.C73.fnav_fields",
    "Verif.C73.inav_fields",
    "Verif.C73.irn_fields",
    "Verif.C73.bds_fields",
    "Verif.C73.glo_fields",
    "Verif.C73.sbs_raises",
    "Verif.C73.gps_message",
    "Verif.C73.qzs_message",
    "Verif.C73.inav_message",
    "Verif.C73.fnav_message",
    "Verif.C73.irn_message",
    "Verif.C73.bds_message",
    "Verif.C73.bds_sqrtA",
    "Verif.C73.bds_sqrtA_wrong",
    "Verif.C73.sign_magnitude",
    "Verif.C73.week_right",
    "Verif.C73.week_right_gal",
    "Verif.C73.week_rollover"
   ],
   "note": "The statement lists the exceptions; they are proved as they are."
  },
  {
   "property": "C74",
   "status": "proved",
   "theorems": [
    "Verif.C74.desc_1007",
    "Verif.C74.desc_1008",
    "Verif.C74.desc_1033",
    "Verif.C74.text_1029",
    "Verif.C74.pos_1005",
    "Verif.C74.pos_1006",
    "Verif.C74.pos_1032",
    "Verif.C74.bias_1230",
    "Verif.C74.text_cut"
   ],
   "note": "The decoding of bytes to text is a parameter (any partial function)."
  },
  {
   "property": "C75",
   "status": "proved",
   "theorems": [
    "Verif.C75.encoded",
    "Verif.C75.decoded",
    "Verif.C75.near",
    "Verif.C75.exact_ms",
    "Verif.C75.other_week",
    "Verif.C75.week_gps",
    "Verif.C75.week_bds",
    "Verif.C75.week_glo",
    "Verif.C75.time_msm",
    "Verif.C75.time_ssr",
    "Verif.C75.time_ssr_glo",
    "Verif.C75.time_igs",
    "Verif.C75.time_nrtk",
    "Verif.C75.time_network",
    "Verif.C75.time_none"
   ],
   "note": "Seconds are exact rationals."
  },
  {
   "property": "C76",
   "status": "proved",
   "theorems": [
    "Verif.C76.d1_history",
    "Verif.C76.d2_history",
    "Verif.C76.f1_encode",
    "Verif.C76.f2_encode",
    "Verif.C76.badM0_iff",
    "Verif.C76.badSqrtA_iff",
    "Verif.C76.badE_iff",
    "Verif.C76.ref_week",
    "Verif.C76.d1_times",
    "Verif.C76.d2_times"
   ],
   "note": "Histories of D1 and of D2 messages separately, each from an empty store (the two decoders share the buffers of a satellite; a satellite sends only one of the two). Values are exact rationals. The three wrong D2 fields, the wrong week correction and the missing conversion of the reference times to GPS time are stated as they are."
  },
  {
   "property": "C77",
   "status": "proved",
   "theorems": [
    "Verif.C77.cnav_history",
    "Verif.C77.cnav_other",
    "Verif.C77.cnav2_message",
    "Verif.C77.cnav2_week",
    "Verif.C77.cnav_times",
    "Verif.C77.near",
    "Verif.C77.val_encode"
   ],
   "note": "Values are exact rationals. The CRC fields of the messages are not checked by the decoders. The wrong week of CNAV/2 is stated as it is. The ionospheric and UTC parameters, which are read and thrown away, are not part of the result."
  },
  {
   "property": "C78",
   "status": "proved",
   "theorems": [
    "Verif.C78.b1_message",
    "Verif.C78.b2_history",
    "Verif.C78.b3_history",
    "Verif.C78.b1_times",
    "Verif.C78.b2_times",
    "Verif.C78.b3_times",
    "Verif.C78.val_encode"
   ],
   "note": "Values are exact rationals. B-CNAV3 with the default offset of 12 bits. The CRC fields are not checked by the decoders. Messages longer than a slot (which spill into the next one) are outside of the histories. The wrong week of the time of ephemeris of B-CNAV3 and the mixed time scales are stated as they are."
  },
  {
   "property": "C79",
   "status": "proved",
   "theorems": [
    "Verif.C79.l1_message",
    "Verif.C79.lnav_history",
    "Verif.C79.full_week",
    "Verif.C79.tot_near",
    "Verif.C79.l1_times",
    "Verif.C79.val_encode"
   ],
   "note": "Values are exact rationals. CRC fields are not checked by the decoders. The ionosphere, UTC and orientation parameters of the third sub-frame on L1 are read but not returned, as in the code."
  },
  {
   "property": "C80",
   "status": "proved",
   "theorems": [
    "Verif.C80.fdma_history",
    "Verif.C80.fdma_times",
    "Verif.C80.gep_days",
    "Verif.C80.near_spec",
    "Verif.C80.l1oc_history",
    "Verif.C80.l3oc_history",
    "Verif.C80.cdma_times",
    "Verif.C80.sbas_message",
    "Verif.C80.sbas_times",
    "Verif.C80.val_encode"
   ],
   "note": "Values are exact rationals. Check bits are not tested by the decoders. The exception of a time outside of 32 bits is modelled by that of a bit field."
  },
  {
   "property": "C81",
   "status": "proved",
   "theorems": [
    "Verif.C81.ranging_message",
    "Verif.C81.degradation_message",
    "Verif.C81.almanac_message",
    "Verif.C81.almanac_epoch",
    "Verif.C81.service_message",
    "Verif.C81.service_wrong",
    "Verif.C81.cov_message",
    "Verif.C81.cov_psd",
    "Verif.C81.cov_sent",
    "Verif.C81.corr32_message",
    "Verif.C81.obad_message",
    "Verif.C81.eph39_message",
    "Verif.C81.eph40_message",
    "Verif.C81.eph39_satellite",
    "Verif.C81.alm47_message",
    "Verif.C81.frames",
    "Verif.C81.unknown_raises",
    "Verif.C81.decode_base",
    "Verif.C81.eph_none",
    "Verif.C81.eph_history",
    "Verif.C81.times",
    "Verif.C81.integrity_issue",
    "Verif.C81.val_encode"
   ],
   "note": "Values are exact rationals, NaN is none. Status bits and logging are not modelled, nor the state after an exception."
  },
  {
   "property": "C82",
   "status": "proved",
   "theorems": [
    "Verif.C82.empty_raises",
    "Verif.C82.network",
    "Verif.C82.near_one",
    "Verif.C82.choose_used",
    "Verif.C82.used_unique",
    "Verif.C82.far_points",
    "Verif.C82.weight_spec",
    "Verif.C82.far_weights",
    "Verif.C82.interp_range",
    "Verif.C82.residual_value",
    "Verif.C82.residual_nan",
    "Verif.C82.residual_single",
    "Verif.C82.trop_value",
    "Verif.C82.trop_off",
    "Verif.C82.trop_single",
    "Verif.C82.stec_value",
    "Verif.C82.stec_single",
    "Verif.C82.dpos_first",
    "Verif.C82.isort_sorts"
   ],
   "note": "Numbers are exact rationals, NaN is none; tangent-plane offsets and distances are inputs. That `@` between a numpy scalar and a list raises is taken from numpy."
  },
  {
   "property": "C83",
   "status": "proved",
   "theorems": [
    "Verif.C83.merge_net",
    "Verif.C83.merge_net_raises",
    "Verif.C83.merge_net_ok",
    "Verif.C83.other_facility",
    "Verif.C83.merge_spec",
    "Verif.C83.merge_no_global",
    "Verif.C83.merge_counts",
    "Verif.C83.count_places",
    "Verif.C83.merge_twice",
    "Verif.C83.validity_spec",
    "Verif.C83.validity_ok",
    "Verif.C83.ages"
   ],
   "note": "Values are of any type; `nsig_n`, sharing of values between the two objects and the state after an exception are not modelled."
  },
  {
   "property": "C84",
   "status": "proved",
   "theorems": [
    "Verif.C84.trop_round_trip",
    "Verif.C84.trop_keeps",
    "Verif.C84.trop_no_residual",
    "Verif.C84.trop_networks",
    "Verif.C84.grid_round_trip",
    "Verif.C84.grid_exact",
    "Verif.C84.grid1_round_trip",
    "Verif.C84.grid1_offset",
    "Verif.C84.grid2_raises"
   ],
   "note": "Exact rationals; the attributes already assigned when an exception is raised are not followed."
  },
  {
   "property": "C85",
   "status": "proved",
   "theorems": [
    "Verif.C85.iono_round_trip",
    "Verif.C85.iono_sorted",
    "Verif.C85.iono_four",
    "Verif.C85.iono_networks"
   ],
   "note": "Exact rationals; satellite numbers of a dictionary are distinct and at least 1; the attributes already assigned when an exception is raised are not followed."
  },
  {
   "property": "C86",
   "status": "proved",
   "theorems": [
    "Verif.C86.code_round_trip",
    "Verif.C86.phase_round_trip",
    "Verif.C86.each_value",
    "Verif.C86.keys_nodup",
    "Verif.C86.names",
    "Verif.C86.count_differs",
    "Verif.C86.count_short",
    "Verif.C86.yaw_missing",
    "Verif.C86.yaw_unflagged",
    "Verif.C86.code_nan"
   ],
   "note": "Exact rationals; GLONASS excluded (its satellite field has 6 bits in the encoder and 5 in the decoder, see C33)."
  },
  {
   "property": "C87",
   "status": "proved",
   "theorems": [
    "Verif.C87.editing",
    "Verif.C87.editing_total",
    "Verif.C87.last_satellite",
    "Verif.C87.twice",
    "Verif.C87.relative"
   ],
   "note": "Elevation, satellite positions and health are inputs; no NaN measurements; exact rationals."
  },
  {
   "property": "C88",
   "status": "proved",
   "theorems": [
    "Verif.C88.predicted",
    "Verif.C88.covariance",
    "Verif.C88.ambiguities",
    "Verif.C88.slants",
    "Verif.C88.others",
    "Verif.C88.outages",
    "Verif.C88.covariances",
    "Verif.C88.flagged",
    "Verif.C88.exact_values",
    "Verif.C88.channel_missing"
   ],
   "note": "Exact rationals instead of floating point; satellite numbers 1..233."
  },
  {
   "property": "C89",
   "status": "proved",
   "theorems": [
    "Verif.C89.design",
    "Verif.C89.residual",
    "Verif.C89.linear",
    "Verif.C89.consistent",
    "Verif.C89.consistent_cdma",
    "Verif.C89.channel_missing",
    "Verif.C89.same_frq"
   ],
   "note": "Exact rationals instead of floating point; mapping function and lines of sight are inputs; satellite numbers 1..233; zenith delay only with slant delays (without them C47 shows the index is wrong)."
  },
  {
   "property": "C90",
   "status": "proved",
   "theorems": [
    "Verif.C90.epoch",
    "Verif.C90.status",
    "Verif.C90.once_used",
    "Verif.C90.stale",
    "Verif.C90.mark_iff"
   ],
   "note": "The stages are parameters; exceptions inside a stage end the epoch and the state left behind is not modelled."
  },
  {
   "property": "C91",
   "status": "proved",
   "theorems": [
    "Verif.C91.find_spec",
    "Verif.C91.find_total",
    "Verif.C91.cssr_biases",
    "Verif.C91.biases_spec",
    "Verif.C91.residuals",
    "Verif.C91.exact_measurement",
    "Verif.C91.missing",
    "Verif.C91.sbas_missing",
    "Verif.C91.toAtt_spec"
   ],
   "note": "Exact rationals; distance, troposphere, slant delay, wind-up and antenna corrections are inputs. Every constellation has as many ranges and phases as signals configured."
  },
  {
   "property": "C92",
   "status": "proved",
   "theorems": [
    "Verif.C92.kepler",
    "Verif.C92.solution",
    "Verif.C92.anomaly_error",
    "Verif.C92.anomaly_small",
    "Verif.C92.geometry",
    "Verif.C92.geo_distance",
    "Verif.C92.five_degrees",
    "Verif.C92.ellipse",
    "Verif.C92.focal",
    "Verif.C92.anomaly_deriv",
    "Verif.C92.velocity_spec",
    "Verif.C92.radial",
    "Verif.C92.relativity",
    "Verif.C92.clock",
    "Verif.C92.adjust",
    "Verif.C92.transmission",
    "Verif.C92.position_error",
    "Verif.C92.velocity_wrong",
    "Verif.C92.almanac"
   ],
   "note": "Exact real arithmetic; times are real seconds. The velocity of geostationary BeiDou satellites and with rates of axis or mean motion is modelled but not characterised."
  },
  {
   "property": "C93",
   "status": "proved",
   "theorems": [
    "Verif.C93.power",
    "Verif.C93.conserved",
    "Verif.C93.torque",
    "Verif.C93.relativity",
    "Verif.C93.rate",
    "Verif.C93.order_linear",
    "Verif.C93.order_quadrature",
    "Verif.C93.step_zero",
    "Verif.C93.loop_rest",
    "Verif.C93.loop_spec",
    "Verif.C93.evaluate",
    "Verif.C93.at_toe",
    "Verif.C93.clock",
    "Verif.C93.circle_motion"
   ],
   "note": "Exact real arithmetic; times are real seconds."
  },
  {
   "property": "C94",
   "status": "proved",
   "theorems": [
    "Verif.C94.components",
    "Verif.C94.orthonormal",
    "Verif.C94.inverse",
    "Verif.C94.length",
    "Verif.C94.azel",
    "Verif.C94.sagnac",
    "Verif.C94.los",
    "Verif.C94.surface",
    "Verif.C94.directions",
    "Verif.C94.degrees",
    "Verif.C94.passes",
    "Verif.C94.back",
    "Verif.C94.forth",
    "Verif.C94.dms",
    "Verif.C94.dms_sign"
   ],
   "note": "Exact real arithmetic."
  },
  {
   "property": "C95",
   "status": "proved",
   "theorems": [
    "Verif.C95.fill_spec",
    "Verif.C95.mask",
    "Verif.C95.order",
    "Verif.C95.energy_eq",
    "Verif.C95.diag_variance",
    "Verif.C95.unbiased",
    "Verif.C95.values",
    "Verif.C95.relations",
    "Verif.C95.det_more",
    "Verif.C95.diag_more",
    "Verif.C95.more",
    "Verif.C95.lower",
    "Verif.C95.cone",
    "Verif.C95.variance_rot",
    "Verif.C95.turned",
    "Verif.C95.diag_inv",
    "Verif.C95.bound",
    "Verif.C95.cross"
   ],
   "note": "Exact real arithmetic; matrices are singular when their determinant is zero."
  },
  {
   "property": "C96",
   "status": "proved",
   "theorems": [
    "Verif.C96.triangle",
    "Verif.C96.small",
    "Verif.C96.far_iff",
    "Verif.C96.sphere",
    "Verif.C96.pierce",
    "Verif.C96.answered",
    "Verif.C96.thick",
    "Verif.C96.day",
    "Verif.C96.slant_spec",
    "Verif.C96.vertical_spec",
    "Verif.C96.klobuchar",
    "Verif.C96.latitude",
    "Verif.C96.choice"
   ],
   "note": "Exact real arithmetic; PI and HALFPI are taken as \u03c0 and \u03c0/2. The result of ionoSBAS is an argument."
  },
  {
   "property": "C97",
   "status": "proved",
   "theorems": [
    "Verif.C97.interpolation",
    "Verif.C97.mapf_zenith",
    "Verif.C97.mapf_le",
    "Verif.C97.mapf_anti",
    "Verif.C97.excess_anti",
    "Verif.C97.params",
    "Verif.C97.niell_outside",
    "Verif.C97.niell_inside",
    "Verif.C97.niell_zenith",
    "Verif.C97.niell_anti",
    "Verif.C97.niell_bounds",
    "Verif.C97.niell_south",
    "Verif.C97.niell_year",
    "Verif.C97.sbas_mapping",
    "Verif.C97.hopf_zenith",
    "Verif.C97.hopf_mapping",
    "Verif.C97.standard",
    "Verif.C97.saast_hydrostatic",
    "Verif.C97.saast_wet",
    "Verif.C97.atmos_range",
    "Verif.C97.sbas_south",
    "Verif.C97.sbas_height",
    "Verif.C97.sbas_delays",
    "Verif.C97.hopf_delays",
    "Verif.C97.models"
   ],
   "note": "Exact real arithmetic; the day of year is an argument (C03 states it). Heights where numpy would give nan are excluded by the hypotheses."
  },
  {
   "property": "C98",
   "status": "proved",
   "theorems": [
    "Verif.C98.head_at",
    "Verif.C98.minimum",
    "Verif.C98.extended",
    "Verif.C98.sis_local",
    "Verif.C98.service_area",
    "Verif.C98.quality_indicators",
    "Verif.C98.carrier_to_noise",
    "Verif.C98.cnr_level",
    "Verif.C98.visibility",
    "Verif.C98.multipath",
    "Verif.C98.ssr_integrity",
    "Verif.C98.truncated",
    "Verif.C98.unknown_constellation",
    "Verif.C98.constellation",
    "Verif.C98.ssr_written",
    "Verif.C98.ssr_misread",
    "Verif.C98.metadata",
    "Verif.C98.metadata_written",
    "Verif.C98.order_matters",
    "Verif.C98.time_lost"
   ],
   "note": "Exact rationals instead of floats. The time of the message as a calendar time, log output and the choice of the decoder by message number are not modelled."
  },
  {
   "property": "C99",
   "status": "proved",
   "theorems": [
    "Verif.C99.no_observations",
    "Verif.C99.too_few_positions",
    "Verif.C99.too_few_left",
    "Verif.C99.advanced",
    "Verif.C99.transition",
    "Verif.C99.predicted",
    "Verif.C99.rows",
    "Verif.C99.var_pos",
    "Verif.C99.design_spec",
    "Verif.C99.reset_spec",
    "Verif.C99.epoch",
    "Verif.C99.epochs",
    "Verif.C99.exact_residual",
    "Verif.C99.combined",
    "Verif.C99.count_rows",
    "Verif.C99.clock_reset",
    "Verif.C99.alternates",
    "Verif.C99.case_sound"
   ],
   "note": "Exact rationals instead of floats. Geometry, delays, positions of satellites, editing and the DGPS variance are inputs; carrier smoothing (C50), base station and DOP (C95) are not part of this model."
  }
 ]
}