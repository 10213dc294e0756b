{
 "claims": [
  {
   "property": "C01",
   "status": "proved",
   "theorems": [
    "Ggnss.C01_accepts_iff",
    "Ggnss.C01_injective",
    "Ggnss.C01_letters",
    "Ggnss.C01_roundtrip",
    "Ggnss.C01_total"
   ],
   "note": "Mutual inverse, injectivity, exact set of accepted chars."
  },
  {
   "property": "C02",
   "status": "proved",
   "theorems": [
    "Ggnss.C02_attributes",
    "Ggnss.C02_bands_agree",
    "Ggnss.C02_functional",
    "Ggnss.C02_lookup",
    "Ggnss.C02_lookup_iff",
    "Ggnss.C02_table",
    "Ggnss.C02_wildcard"
   ],
   "note": "Table proved equal to an independent table of carriers (multiples of 10.23 MHz), lookup characterised for every int."
  },
  {
   "property": "C03",
   "status": "proved",
   "theorems": [
    "Ggnss.C03_code_roundtrip",
    "Ggnss.C03_parse_iff",
    "Ggnss.C03_parse_throws_iff",
    "Ggnss.C03_parse_total",
    "Ggnss.C03_text_roundtrip",
    "Ggnss.C03_two_digit_bands_collide"
   ],
   "note": "Both round trips, exact acceptance and rejection; two-digit bands collide, hence the one-digit hypothesis of the property."
  },
  {
   "property": "C04",
   "status": "partial",
   "theorems": [
    "Ggnss.C04_eq_iff_perm_partial",
    "Ggnss.C04_not_symmetric",
    "Ggnss.C04_perm_eq",
    "Ggnss.C04_refl",
    "Ggnss.C04_symm_partial",
    "Ggnss.C04_trans"
   ],
   "note": "Symmetry is false of the code when a part is repeated (C04_not_symmetric). Reflexivity and transitivity hold for all; equality = permutation when the left operand has no repeated part."
  },
  {
   "property": "C05",
   "status": "proved",
   "theorems": [
    "Ggnss.C05_add",
    "Ggnss.C05_frequency_iff",
    "Ggnss.C05_perm",
    "Ggnss.C05_terminate_iff"
   ],
   "note": "Exact rational arithmetic instead of doubles."
  },
  {
   "property": "C06",
   "status": "proved",
   "theorems": [
    "Ggnss.C06_format",
    "Ggnss.C06_full",
    "Ggnss.C06_injective"
   ],
   "note": ""
  },
  {
   "property": "C07",
   "status": "proved",
   "theorems": [
    "Ggnss.C07_is_empty",
    "Ggnss.C07_ltrim",
    "Ggnss.C07_rtrim_default",
    "Ggnss.C07_rtrim_end"
   ],
   "note": ""
  },
  {
   "property": "C08",
   "status": "proved",
   "theorems": [
    "Ggnss.C08_for2cpp",
    "Ggnss.C08_idempotent"
   ],
   "note": ""
  },
  {
   "property": "C09",
   "status": "partial",
   "theorems": [
    "Ggnss.C09_blank_field_takes_neighbour",
    "Ggnss.C09_fields_partial",
    "Ggnss.C09_range_refused"
   ],
   "note": "False in general: a blank column silently takes its right neighbour's value (C09_blank_field_takes_neighbour). Proved for lines whose columns are filled and separated, any N and M."
  },
  {
   "property": "C10",
   "status": "proved",
   "theorems": [
    "Ggnss.C10_wellformed"
   ],
   "note": "All histories of serial updates, arbitrary uninitialised memory."
  },
  {
   "property": "C11",
   "status": "partial",
   "theorems": [
    "Ggnss.C11_blank_radome_kept",
    "Ggnss.C11_radome_partial",
    "Ggnss.C11_short_radome_lost"
   ],
   "note": "False for 20-char texts with blank radome and for 17-19 char texts (two witnesses, for every memory)."
  },
  {
   "property": "C12",
   "status": "partial",
   "theorems": [
    "Ggnss.C12_compare_exact",
    "Ggnss.C12_compare_partial",
    "Ggnss.C12_has_serial",
    "Ggnss.C12_short_serial_never_matches"
   ],
   "note": "compare_serial is characterised exactly; false for every serial shorter than 20 chars (C12_short_serial_never_matches). has_serial fully proved."
  },
  {
   "property": "C13",
   "status": "proved",
   "theorems": [
    "Ggnss.C13_compare_model",
    "Ggnss.C13_is_same_iff",
    "Ggnss.C13_is_same_symm",
    "Ggnss.C13_is_same_trans"
   ],
   "note": ""
  },
  {
   "property": "C14",
   "status": "partial",
   "theorems": [
    "Ggnss.C14_default",
    "Ggnss.C14_is_same_inverted",
    "Ggnss.C14_not_reflexive",
    "Ggnss.C14_stored_type"
   ],
   "note": "The code returns the inverse of what is documented: proved for all inputs (C14_is_same_inverted)."
  },
  {
   "property": "C15",
   "status": "proved",
   "theorems": [
    "Ggnss.C15_bijective",
    "Ggnss.C15_window"
   ],
   "note": ""
  },
  {
   "property": "C16",
   "status": "proved",
   "theorems": [
    "Ggnss.C16_skip_block",
    "Ggnss.C16_skip_like_read"
   ],
   "note": "Every system, any block of lines the format allows."
  },
  {
   "property": "C17",
   "status": "proved",
   "theorems": [
    "Ggnss.C17_indices_in_range",
    "Ggnss.C17_memory_safe",
    "Ggnss.C17_record"
   ],
   "note": "Layout for every well formed record of every system; memory safety for arbitrary bytes. Hypothesis: errno is 0 at entry (the code never resets it on success)."
  },
  {
   "property": "C18",
   "status": "proved",
   "theorems": [
    "Ggnss.C18_first_match",
    "Ggnss.C18_none"
   ],
   "note": "Any number of preceding records."
  },
  {
   "property": "C19",
   "status": "proved",
   "theorems": [
    "Ggnss.C19_first_valid",
    "Ggnss.C19_gives_up_eof",
    "Ggnss.C19_gives_up_late",
    "Ggnss.C19_sound"
   ],
   "note": "Completeness for well formed files of any length, soundness (C19_sound) for arbitrary bytes."
  },
  {
   "property": "C20",
   "status": "partial",
   "theorems": [
    "Ggnss.C20_find_next_iff",
    "Ggnss.C20_find_next_valid_iff",
    "Ggnss.C20_mixed_line_loops_forever",
    "Ggnss.C20_terminates_partial"
   ],
   "note": "False for lines that start with 'M' (C20_mixed_line_loops_forever); proved for every file without such a line. C20_find_next_iff and C20_find_next_valid_iff say exactly which searches of a file with an 'M' line after its records never return."
  },
  {
   "property": "C21",
   "status": "proved",
   "theorems": [
    "Ggnss.C21_healthy_iff",
    "Ggnss.C21_rules",
    "Ggnss.C21_unhandled_terminates"
   ],
   "note": ""
  },
  {
   "property": "C22",
   "status": "proved",
   "theorems": [
    "Ggnss.C22_day_independent",
    "Ggnss.C22_ref_in_day",
    "Ggnss.C22_toc_exact",
    "Ggnss.C22_toe_exact"
   ],
   "note": "Through stateNclock for every system; real arithmetic."
  },
  {
   "property": "C23",
   "status": "partial",
   "theorems": [
    "Ggnss.C23_half_week_partial",
    "Ggnss.C23_in_week",
    "Ggnss.C23_week_rollover_wrong"
   ],
   "note": "Week part proved for every time of clock and second of week. The half-week part is false at week rollover (C23_week_rollover_wrong) and characterised exactly."
  },
  {
   "property": "C24",
   "status": "proved",
   "theorems": [
    "Ggnss.C24_bounded",
    "Ggnss.C24_converges",
    "Ggnss.C24_kepler_solved",
    "Ggnss.C24_near_exact",
    "Ggnss.C24_status_iff"
   ],
   "note": "Real arithmetic (no rounding of doubles)."
  },
  {
   "property": "C25",
   "status": "proved",
   "theorems": [
    "Ggnss.C25_position",
    "Ggnss.C25_radius",
    "Ggnss.C25_stateNclock",
    "Ggnss.C25_systems"
   ],
   "note": "Position proved equal to the interface-document formula (rotations as matrices), norm = |corrected radius|. BeiDou GEO satellites, which the interface document treats differently, are not distinguished by the code."
  },
  {
   "property": "C26",
   "status": "partial",
   "theorems": [
    "Ggnss.C26_clock_formula",
    "Ggnss.C26_clock_partial",
    "Ggnss.C26_toc_ne_toe_wrong"
   ],
   "note": "Proved when time of clock = time of ephemeris; otherwise the code evaluates the anomaly at t-toc instead of t-toe (C26_toc_ne_toe_wrong). Exact characterisation for all inputs: C26_clock_formula."
  },
  {
   "property": "C27",
   "status": "proved",
   "theorems": [
    "Ggnss.C27_end_time",
    "Ggnss.C27_integration",
    "Ggnss.C27_terminates"
   ],
   "note": "State proved equal to the RK4 iteration of the ICD equations; termination for every epoch."
  },
  {
   "property": "C28",
   "status": "proved",
   "theorems": [
    "Ggnss.C28_state_overwritten",
    "Ggnss.C28_window"
   ],
   "note": "The state is overwritten in both cases (C28_state_overwritten)."
  },
  {
   "property": "C29",
   "status": "proved",
   "theorems": [
    "Ggnss.C29_monotone",
    "Ggnss.C29_strict",
    "Ggnss.C29_values"
   ],
   "note": "Real arithmetic. Monotone for all reals, strict on indices."
  },
  {
   "property": "C30",
   "status": "proved",
   "theorems": [
    "Ggnss.C30_clear",
    "Ggnss.C30_history",
    "Ggnss.C30_reset",
    "Ggnss.C30_set"
   ],
   "note": ""
  },
  {
   "property": "C31",
   "status": "proved",
   "theorems": [
    "Ggnss.C31_epoch_before_eof",
    "Ggnss.C31_epoch_before_header",
    "Ggnss.C31_file"
   ],
   "note": "One epoch before a header, one before the EOF line, and whole files of any number of epochs. errno must not be ERANGE at entry."
  },
  {
   "property": "C32",
   "status": "partial",
   "theorems": [
    "Ggnss.C32_in_bounds_partial",
    "Ggnss.C32_overflow"
   ],
   "note": "False when the vector is too small (C32_overflow: undefined behaviour for every such epoch); proved for arbitrary bytes when the vector has an element per line beginning with P."
  },
  {
   "property": "C33",
   "status": "partial",
   "theorems": [
    "Ggnss.C33_position_partial",
    "Ggnss.C33_predicted_orbit_never_flagged",
    "Ggnss.C33_short_line_flags_from_stale_bytes"
   ],
   "note": "Orbit prediction flag never set for the letter the format uses (C33_predicted_orbit_never_flagged); lines shorter than 75 columns take flags from stale bytes; the rest proved for all lines of 80 columns."
  },
  {
   "property": "C34",
   "status": "partial",
   "theorems": [
    "Ggnss.C34_beyond_limit",
    "Ggnss.C34_lookup_any_partial",
    "Ggnss.C34_lookup_partial",
    "Ggnss.C34_open_any_partial",
    "Ggnss.C34_open_partial"
   ],
   "note": "The first record in force among the first 1000; later records are never searched (C34_beyond_limit). The date reader of ggdatetime is a parameter. Opening: any file gives an object or runtime_error, well formed headers are accepted."
  },
  {
   "property": "C35",
   "status": "proved",
   "theorems": [
    "Ggnss.C35_no_antenna_undefined",
    "Ggnss.C35_receiver"
   ],
   "note": "Every well formed file with at least one antenna (with none the code reads an uninitialised status: C35_no_antenna_undefined)."
  },
  {
   "property": "C36",
   "status": "partial",
   "theorems": [
    "Ggnss.C36_history_iff",
    "Ggnss.C36_history_partial",
    "Ggnss.C36_long_line_spoils"
   ],
   "note": "Proved for files whose lines fit the 84-char buffer; false with a longer line, which spoils the object (C36_long_line_spoils). Arbitrary bytes, exact: C36_history_iff (a history changes no answer as long as no query of it leaves the failbit set; after the first that does every query answers 1)."
  },
  {
   "property": "C37",
   "status": "partial",
   "theorems": [
    "Ggnss.C37_interval_partial",
    "Ggnss.C37_no_method_line",
    "Ggnss.C37_satellite_partial",
    "Ggnss.C37_satellite_pco_partial",
    "Ggnss.C37_sound",
    "Ggnss.C37_sound_text",
    "Ggnss.C37_truncated_record_hangs",
    "Ggnss.C37_uninitialised_read"
   ],
   "note": "Interval iff for well formed records; an answer from a file of arbitrary lines of 60 to 511 chars is always backed by a record of the file that names the satellite and an interval that holds the epoch (C37_sound_text; arbitrary bytes: C37_sound); false on a truncated record (C37_truncated_record_hangs) and reads uninitialised memory (C37_uninitialised_read)."
  },
  {
   "property": "C38",
   "status": "proved",
   "theorems": [
    "Ggnss.C38_all_present",
    "Ggnss.C38_any_request",
    "Ggnss.C38_missing_refused",
    "Ggnss.C38_skip_missing",
    "Ggnss.C38_unique",
    "Ggnss.C38_wrong_system_refused"
   ],
   "note": ""
  },
  {
   "property": "C39",
   "status": "partial",
   "theorems": [
    "Ggnss.C39_collected",
    "Ggnss.C39_last_missing",
    "Ggnss.C39_near",
    "Ggnss.C39_raw_observables",
    "Ggnss.C39_reading_total",
    "Ggnss.C39_satellite_partial",
    "Ggnss.C39_shortened_field",
    "Ggnss.C39_value_after_missing"
   ],
   "note": "Exact result for every satellite line with well formed fields (C39_collected, C39_reading_total, C39_last_missing), within 0.001 per unit coefficient of the true combination when all parts are there (C39_near); the property itself is proved when the LLI is blank and no part is missing before a present one; false otherwise (C39_value_after_missing, C39_shortened_field, C40_flags_spill)."
  },
  {
   "property": "C40",
   "status": "partial",
   "theorems": [
    "Ggnss.C40_any_field",
    "Ggnss.C40_blank_value",
    "Ggnss.C40_decoded",
    "Ggnss.C40_field_partial",
    "Ggnss.C40_flags_spill",
    "Ggnss.C40_range_refused",
    "Ggnss.C40_spill_bound"
   ],
   "note": "False when the loss of lock digit is present: it is read as further decimals (C40_flags_spill; bounded by C40_spill_bound); proved for blank flags; arbitrary columns never fail (C40_any_field)."
  },
  {
   "property": "C41",
   "status": "partial",
   "theorems": [
    "Ggnss.C41_full_line_refused",
    "Ggnss.C41_full_line_swallows",
    "Ggnss.C41_read_partial",
    "Ggnss.C41_repeated_system"
   ],
   "note": "Proved for every number of types that is not a multiple of 13; false for every multiple of 13 (C41_full_line_refused, C41_full_line_swallows)."
  },
  {
   "property": "C42",
   "status": "proved",
   "theorems": [
    "Ggnss.C42_collect_epoch",
    "Ggnss.C42_initial",
    "Ggnss.C42_initial_tight",
    "Ggnss.C42_overflow",
    "Ggnss.C42_read_next_epoch",
    "Ggnss.C42_slot_overflow"
   ],
   "note": "Arbitrary bytes; vectors sized by initialize_epoch_vector hold every epoch of up to 80 satellites, tight (C42_initial_tight, C42_overflow)."
  },
  {
   "property": "C43",
   "status": "partial",
   "theorems": [
    "Ggnss.C43_clock_range",
    "Ggnss.C43_clock_unread",
    "Ggnss.C43_count_range",
    "Ggnss.C43_count_unread",
    "Ggnss.C43_date_range",
    "Ggnss.C43_date_unread",
    "Ggnss.C43_header",
    "Ggnss.C43_malformed_undefined",
    "Ggnss.C43_not_a_header",
    "Ggnss.C43_seconds_range",
    "Ggnss.C43_seconds_unread",
    "Ggnss.C43_sound"
   ],
   "note": "Proved for every well formed header line and for lines not starting with '>'; whatever an accepted line, arbitrary bytes, is said to contain stands in it (C43_sound); a line with a malformed date or count is undefined behaviour or silently read (C43_malformed_undefined, C43_count_unread, C43_date_unread); numbers out of range are refused (C43_date_range, C43_seconds_range, C43_clock_range), an unreadable clock offset is silently 0 (C43_clock_unread)."
  },
  {
   "property": "C44",
   "status": "proved",
   "theorems": [
    "Ggnss.C44_covariance",
    "Ggnss.C44_defined",
    "Ggnss.C44_definite",
    "Ggnss.C44_never_increases",
    "Ggnss.C44_no_weights_singular"
   ],
   "note": "Exact real arithmetic. Without weights (default argument) five or more satellites give a singular matrix: C44_no_weights_singular."
  },
  {
   "property": "C45",
   "status": "partial",
   "theorems": [
    "Ggnss.C45_coef_wrong",
    "Ggnss.C45_design_partial"
   ],
   "note": "For the default coefficient 1; false for every other coefficient (C45_coef_wrong)."
  },
  {
   "property": "C46",
   "status": "partial",
   "theorems": [
    "Ggnss.C46_epoch_partial",
    "Ggnss.C46_far_away_frozen",
    "Ggnss.C46_quantised"
   ],
   "note": "False between 60 s steps (C46_quantised) and beyond half a day (C46_far_away_frozen); proved on multiples of 60 s."
  },
  {
   "property": "C47",
   "status": "partial",
   "theorems": [
    "Ggnss.C47_any_satellite_never_found"
   ],
   "note": "False of the code: PRN -1 never matches, proved for every well formed file."
  },
  {
   "property": "C48",
   "status": "partial",
   "theorems": [
    "Ggnss.C48_long_line_diverges",
    "Ggnss.C48_missing_eof_line_diverges",
    "Ggnss.C48_terminates_partial"
   ],
   "note": "False without an EOF line (C48_missing_eof_line_diverges) and with a line of more than 127 chars; proved for arbitrary bytes when an ending line follows."
  },
  {
   "property": "C49",
   "status": "partial",
   "theorems": [
    "Ggnss.C49_failed_lookup_spoils_object",
    "Ggnss.C49_history_iff",
    "Ggnss.C49_history_independent_partial"
   ],
   "note": "Proved when something follows the records block; when the records reach the end of the file it is false, and C49_history_iff says exactly which histories change which answers (C49_failed_lookup_spoils_object)."
  },
  {
   "property": "C50",
   "status": "partial",
   "theorems": [
    "Ggnss.C50_must_match_partial",
    "Ggnss.C50_status_10_without_model"
   ],
   "note": "Only exact serial matches count: proved. Documented code 1 is false: 10 is returned even when no model matched (C50_status_10_without_model)."
  },
  {
   "property": "C51",
   "status": "partial",
   "theorems": [
    "Ggnss.C51_satellite_own_partial",
    "Ggnss.C51_svn_of_another_satellite"
   ],
   "note": "Proved when the record has its own SVN and COSPAR; false when blank (C51_svn_of_another_satellite)."
  },
  {
   "property": "C52",
   "status": "proved",
   "theorems": [
    "Ggnss.C52_open",
    "Ggnss.C52_open_any",
    "Ggnss.C52_open_before"
   ],
   "note": ""
  },
  {
   "property": "C53",
   "status": "partial",
   "theorems": [
    "Ggnss.C53_bad_number_terminates",
    "Ggnss.C53_receiver_ends_partial",
    "Ggnss.C53_truncated_record_refused"
   ],
   "note": "Proved for files without unparsable numbers; a bad number terminates the process (C53_bad_number_terminates)."
  },
  {
   "property": "C54",
   "status": "proved",
   "theorems": [
    "Ggnss.C54_add",
    "Ggnss.C54_mixed_iff",
    "Ggnss.C54_order"
   ],
   "note": ""
  },
  {
   "property": "C55",
   "status": "proved",
   "theorems": [
    "Ggnss.C55_peek",
    "Ggnss.C55_read_eof",
    "Ggnss.C55_rewind_whole_file",
    "Ggnss.C55_sequence",
    "Ggnss.C55_skip_eof"
   ],
   "note": "Any number of records and calls; whole files through the constructor and rewind()."
  },
  {
   "property": "C56",
   "status": "proved",
   "theorems": [
    "Ggnss.C56_no_end_refused",
    "Ggnss.C56_not_navigation_refused",
    "Ggnss.C56_open",
    "Ggnss.C56_open_any"
   ],
   "note": ""
  },
  {
   "property": "C57",
   "status": "partial",
   "theorems": [
    "Ggnss.C57_epoch_partial",
    "Ggnss.C57_exact",
    "Ggnss.C57_lines_total",
    "Ggnss.C57_small_buffer"
   ],
   "note": "Exact result for every epoch of well formed data lines (C57_exact, C57_lines_total); the values are those of the property for plain fields (C57_epoch_partial; see C39, C40). With at most one observation type the buffer cannot hold an epoch header (C57_small_buffer)."
  },
  {
   "property": "C58",
   "status": "partial",
   "theorems": [
    "Ggnss.C58_eof",
    "Ggnss.C58_exact",
    "Ggnss.C58_file_exact_partial",
    "Ggnss.C58_file_partial",
    "Ggnss.C58_sequence_partial"
   ],
   "note": "For every sequence of well formed epochs whose lines fit the buffer (C58_exact); whole files through the constructor, set_read_map and rewind (C58_file_exact_partial for any names, antennas and well formed fields, C58_file_partial). Missing: files with at most one observation type, whose buffer is too small (C57_small_buffer), and lists with a multiple of 13 types (C41)."
  },
  {
   "property": "C59",
   "status": "proved",
   "theorems": [
    "Ggnss.C59_consistent",
    "Ggnss.C59_information",
    "Ggnss.C59_least_squares"
   ],
   "note": "Exact real arithmetic, coefficient 1."
  },
  {
   "property": "C60",
   "status": "partial",
   "theorems": [
    "Ggnss.C60_bad_clock_flag_refused",
    "Ggnss.C60_bad_date_refused",
    "Ggnss.C60_bad_eccentricity_refused",
    "Ggnss.C60_bad_position_refused",
    "Ggnss.C60_bad_system_terminates",
    "Ggnss.C60_full_line_refused",
    "Ggnss.C60_infinite_version_no_range_error",
    "Ggnss.C60_name_cut",
    "Ggnss.C60_no_version_refused",
    "Ggnss.C60_open_any_partial",
    "Ggnss.C60_open_exact_partial",
    "Ggnss.C60_open_partial",
    "Ggnss.C60_radome_lost",
    "Ggnss.C60_short_line_reinterpreted",
    "Ggnss.C60_truncated_terminates",
    "Ggnss.C60_unknown_system_refused",
    "Ggnss.C60_version_range_refuses_position",
    "Ggnss.C60_wrong_type_refused"
   ],
   "note": "Exact account for headers with any names and antennas and no number of types that is a multiple of 13 (C60_open_exact_partial); the property as stated for names without blanks and antennas with radome NONE (C60_open_partial); arbitrary bytes after a first line of at least 60 chars: opened, runtime_error or termination (C60_open_any_partial); false otherwise: see the other theorems."
  },
  {
   "property": "C61",
   "status": "partial",
   "theorems": [
    "Ggnss.C61_agency_cut",
    "Ggnss.C61_any_second_accuracy_line",
    "Ggnss.C61_file",
    "Ggnss.C61_first_line_refused",
    "Ggnss.C61_inconsistent_start_refused",
    "Ggnss.C61_open_any_partial",
    "Ggnss.C61_open_partial",
    "Ggnss.C61_opened_structure",
    "Ggnss.C61_second_line_refused",
    "Ggnss.C61_seconds_unread",
    "Ggnss.C61_single_accuracy_line_refused",
    "Ggnss.C61_third_line_refused"
   ],
   "note": "Everything but the agency, of which the last of four columns is lost (C61_open_partial, C61_agency_cut); the second accuracy line is not looked at (C61_any_second_accuracy_line); arbitrary bytes after a first line of at least 60 chars: undefined only when seconds or interval do not fit (C61_open_any_partial); whole files: C61_file; defects of the first three lines are refused (C61_first_line_refused, C61_second_line_refused, C61_third_line_refused). The date library is a parameter."
  },
  {
   "property": "C62",
   "status": "partial",
   "theorems": [
    "Ggnss.C62_never_constructed"
   ],
   "note": "False of the code for every opened file: C62_never_constructed."
  },
  {
   "property": "C63",
   "status": "proved",
   "theorems": [
    "Ggnss.C63_every_history",
    "Ggnss.C63_exactly_when",
    "Ggnss.C63_sound"
   ],
   "note": "For files whose GPS, GLONASS, Galileo and BeiDou records are well formed (C63_every_history, C63_exactly_when); for arbitrary bytes an answer with status 0 is sound (C63_sound)."
  },
  {
   "property": "C64",
   "status": "proved",
   "theorems": [
    "Ggnss.C64_built",
    "Ggnss.C64_collision",
    "Ggnss.C64_empty_ub",
    "Ggnss.C64_format",
    "Ggnss.C64_injective",
    "Ggnss.C64_same_text"
   ],
   "note": "Exact rational coefficients. Texts do not distinguish coefficients that agree to six decimals (C64_collision); an emptied vector must not be printed (C64_empty_ub)."
  },
  {
   "property": "C65",
   "status": "proved",
   "theorems": [
    "Ggnss.C65_mask",
    "Ggnss.C65_zenith"
   ],
   "note": "car2ell (external library) is a parameter; real arithmetic."
  },
  {
   "property": "C66",
   "status": "partial",
   "theorems": [
    "Ggnss.C66_dry_partial",
    "Ggnss.C66_weight",
    "Ggnss.C66_weight_wrong",
    "Ggnss.C66_wet_missing"
   ],
   "note": "The correction is the dry part of the formula up to 2e-5 m / cos z for heights from -1000 m to 2500 m (C66_dry_partial); the wet part, more than 2 cm in the zenith, is lost (temperature in Celsius, coefficient squared instead of temperature: C66_wet_missing); the weights are 1 for every angle (C66_weight, C66_weight_wrong)."
  },
  {
   "property": "C67",
   "status": "partial",
   "theorems": [
    "Ggnss.C67_overflow",
    "Ggnss.C67_rows_partial"
   ],
   "note": "Up to 30 satellites in the list (C67_rows_partial); for longer lists the same, or, exactly when more than 30 satellites are usable, the write behind the arrays is reported (C67_overflow: the property is false there). Satellites of the list are of the four systems the navigation reader handles and none is more than 0.2 rad below the horizon."
  },
  {
   "property": "C68",
   "status": "partial",
   "theorems": [
    "Ggnss.C68_covariance",
    "Ggnss.C68_defined",
    "Ggnss.C68_dt_wrong",
    "Ggnss.C68_main_partial",
    "Ggnss.C68_no_epoch",
    "Ggnss.C68_request_refused",
    "Ggnss.C68_run_partial"
   ],
   "note": "One update per epoch of more than four satellites with the right rows, in file order, until the end of the file (C68_run_partial, C68_main_partial), covariance (C68_covariance, C68_defined). False: time step is the second of day (C68_dt_wrong), exit code -1 instead of 0 (C68_main_partial), an epoch without usable satellite aborts (assert), a file without epochs reads an unassigned time (C68_no_epoch), and the request in the source is refused for every file (C68_request_refused)."
  },
  {
   "property": "C69",
   "status": "partial",
   "theorems": [
    "Ggnss.C69_freed_once_partial",
    "Ggnss.C69_iff",
    "Ggnss.C69_moved_freed_twice"
   ],
   "note": "False of the code: the defaulted moves copy the raw pointer, so that every program that moves a reader frees a buffer twice (C69_moved_freed_twice). Exact: C69_iff."
  },
  {
   "property": "C70",
   "status": "partial",
   "theorems": [
    "Ggnss.C70_missing_file",
    "Ggnss.C70_run_partial",
    "Ggnss.C70_run_two_files_partial",
    "Ggnss.C70_shipped_computes_nothing",
    "Ggnss.C70_shipped_satellites",
    "Ggnss.C70_usage"
   ],
   "note": "False of the program as it is: no file makes it compute anything (C70_shipped_computes_nothing). The list of satellites, too few arguments and missing files are as they should be; with a request that the file satisfies every epoch is processed, but the exit code is -1 (C70_run_partial). Assumes a terminator in the last 25 bytes of an uninitialised array (PpWorld.OK), see C37."
  },
  {
   "property": "C71",
   "status": "partial",
   "theorems": [
    "Ggnss.C71_bad_stream",
    "Ggnss.C71_clock_far",
    "Ggnss.C71_collect",
    "Ggnss.C71_collect_too_many",
    "Ggnss.C71_epoch_any",
    "Ggnss.C71_epoch_partial",
    "Ggnss.C71_epoch_safe",
    "Ggnss.C71_epochs_partial",
    "Ggnss.C71_far_production",
    "Ggnss.C71_find_next_any",
    "Ggnss.C71_find_next_partial",
    "Ggnss.C71_find_next_valid_any",
    "Ggnss.C71_find_next_valid_partial",
    "Ggnss.C71_fractional_toe",
    "Ggnss.C71_invalid_date",
    "Ggnss.C71_many_satellites",
    "Ggnss.C71_no_final_newline",
    "Ggnss.C71_record_any",
    "Ggnss.C71_record_partial",
    "Ggnss.C71_slot_short",
    "Ggnss.C71_state_far",
    "Ggnss.C71_state_near_partial",
    "Ggnss.C71_toe_fraction_aborts"
   ],
   "note": "Equal for well formed navigation files with whole seconds of ephemeris time and a final newline, for times within half a week of ephemeris and clock reference, and for well formed epochs with valid dates and no more lines than slots (theorems _partial); for arbitrary bytes the differences are bounded (C71_find_next_any, C71_epoch_any). False otherwise: C71_fractional_toe, C71_no_final_newline, C71_state_far, C71_clock_far, C71_many_satellites, C71_invalid_date."
  },
  {
   "property": "C72",
   "status": "proved",
   "theorems": [
    "Ggnss.C72_open_iff",
    "Ggnss.C72_open_iff_unterminated"
   ],
   "note": "Text files (no NUL, every line terminated) with lines of at most 255 characters."
  },
  {
   "property": "C73",
   "status": "proved",
   "theorems": [
    "Ggnss.C73_header_refused",
    "Ggnss.C73_record_refused"
   ],
   "note": "Defects of every column, after any number of good records; blanks where a number should be count as a defect."
  },
  {
   "property": "C74",
   "status": "proved",
   "theorems": [
    "Ggnss.C74_galileo"
   ],
   "note": "gal_sisa before its rounding to float."
  },
  {
   "property": "C75",
   "status": "partial",
   "theorems": [
    "Ggnss.C75_accepted",
    "Ggnss.C75_bad_date_kills",
    "Ggnss.C75_blank_satellite_takes_year",
    "Ggnss.C75_cut_refused",
    "Ggnss.C75_number_refused",
    "Ggnss.C75_satellite_refused",
    "Ggnss.C75_search_refused",
    "Ggnss.C75_search_stray",
    "Ggnss.C75_search_valid_refused",
    "Ggnss.C75_search_valid_stray",
    "Ggnss.C75_short_line_taken_for_previous"
   ],
   "note": "Every defect of a line that reaches its columns is refused with the status of the line (C75_number_refused, C75_satellite_refused, C75_cut_refused, also through find_next and find_next_valid), and what is accepted has its numbers (C75_accepted). Full property false of the code: an unreadable date ends the program (C75_bad_date_kills), a missing satellite number is replaced by the year (C75_blank_satellite_takes_year), a line too short for its columns is taken for the one before it (C75_short_line_taken_for_previous), a blank column followed by a number takes that number (C09_blank_field_takes_neighbour)."
  },
  {
   "property": "C76",
   "status": "proved",
   "theorems": [
    "Ggnss.C76_accurate",
    "Ggnss.C76_no_convergence",
    "Ggnss.C76_status_iff",
    "Ggnss.C76_whole_seconds"
   ],
   "note": "Proved for messages in range within half a week, for every rounding to nearest and every library with sin, cos within 2^-53 and atan2 within 2^-51 (C76_accurate, C76_whole_seconds); no fused multiply-add. False beyond: with a mean anomaly of 65 rad the loop can alternate for ever, because neighbouring doubles differ by more than the limit (C76_no_convergence). The GLONASS integration is C79."
  },
  {
   "property": "C77",
   "status": "partial",
   "theorems": [
    "Ggnss.C77_blank_svn_takes_year",
    "Ggnss.C77_channel_unread",
    "Ggnss.C77_range_refused",
    "Ggnss.C77_short_record_previous_channel",
    "Ggnss.C77_stale_errno",
    "Ggnss.C77_svn_refused"
   ],
   "note": "Proved: unreadable SVN, PRN or channel beyond long (C77_svn_refused, C77_range_refused), stale errno (C77_stale_errno). False as stated and proved so: a blank channel is reported as channel 0 with status 0 (C77_channel_unread), a line that ends before the channel columns gets the channel of the previous record (C77_short_record_previous_channel), a blank SVN takes the next number of the line (C77_blank_svn_takes_year)."
  },
  {
   "property": "C78",
   "status": "partial",
   "theorems": [
    "Ggnss.C78_combination_micrometre",
    "Ggnss.C78_observations_partial",
    "Ggnss.C78_sp3_nanometres",
    "Ggnss.C78_sp3_position_partial"
   ],
   "note": "Proved for lines whose fields have no LLI digits (with them the value is another one, C40) and, for combinations, when no part is missing or the last part is; a present part after a missing one is added to the marker (C39). Values within 1e-6 of the marker (not exactly it) and SP3 lines shorter than 80 columns are excluded; the orbit prediction flag is wrong (C33)."
  },
  {
   "property": "C79",
   "status": "proved",
   "theorems": [
    "Ggnss.C79_accurate",
    "Ggnss.C79_outside"
   ],
   "note": "Every rounding to nearest, no fused multiply-add; divisions of the step by 2 and 6 and doublings are exact. The comparison is with the exact Runge-Kutta steps of C27, not with the solution of the differential equation, and those steps run up to 60 s past the epoch (C27_end_time)."
  },
  {
   "property": "C80",
   "status": "partial",
   "theorems": [
    "Ggnss.C80_bad_offset_terminates",
    "Ggnss.C80_damaged_records_partial",
    "Ggnss.C80_no_record"
   ],
   "note": "Status and offsets for every kind of defect of AtxSays, for receiver antennas; an offset that is no number, or too large, terminates the program instead (C80_bad_offset_terminates, proved). Lines up to the defect are assumed to have the columns of the format; labels of lines shorter than 60 characters are compared with what the array held before and are not covered. Satellite antennas: C37, C52."
  },
  {
   "property": "C81",
   "status": "partial",
   "theorems": [
    "Ggnss.C81_truncated_file_partial"
   ],
   "note": "For every cut after the METH / BY / # / DATE line of a record whose serial number matches, also in the middle of a line. Cuts before that line compare an uninitialised array; antennas matched by model only: C53_truncated_record_refused."
  },
  {
   "property": "C82",
   "status": "proved",
   "theorems": [
    "Ggnss.C82_data_line",
    "Ggnss.C82_header",
    "Ggnss.C82_sequence"
   ],
   "note": "Exactly the defects listed in Spec/ObsBad. Text after a readable number in a field is ignored by the code and is not a defect here; a blank count of satellites and an unreadable clock are the disagreements of C43; a header that runs past the terminator is C43_malformed_undefined. Lines fit the line buffer."
  },
  {
   "property": "C83",
   "status": "partial",
   "theorems": [
    "Ggnss.C83_after",
    "Ggnss.C83_cut_epoch",
    "Ggnss.C83_cut_line",
    "Ggnss.C83_no_newline",
    "Ggnss.C83_number_cut",
    "Ggnss.C83_seen",
    "Ggnss.C83_sequence"
   ],
   "note": "Every prefix of a well formed file (C83_sequence). Two exceptions, violations by the code: a file ending between the two digits of a satellite number delivers another satellite of the system, without values, and status -1 (C83_number_cut, proved); with a combination whose parts are not in the order of the columns a missing early part does not stop the sum (C39), so C83_seen asks for columns in order. Complete last epoch without newline: status -1 (C83_no_newline, proved). Line buffer of at least 3 chars; lines fit it."
  },
  {
   "property": "C84",
   "status": "partial",
   "theorems": [
    "Ggnss.C84_after",
    "Ggnss.C84_cut_accepted",
    "Ggnss.C84_cut_first",
    "Ggnss.C84_cut_last",
    "Ggnss.C84_cut_middle",
    "Ggnss.C84_found_present",
    "Ggnss.C84_found_valid_present",
    "Ggnss.C84_lines_present",
    "Ggnss.C84_sequence",
    "Ggnss.C84_skip",
    "Ggnss.C84_skip_any"
   ],
   "note": "Every prefix of a well formed file (C84_sequence) and every byte sequence (C84_lines_present, C84_found_present, C84_found_valid_present, C84_skip_any). The last sentence is false of the code: a record cut within its last line is delivered with status 0, a cut number as if it were complete, numbers beyond the end taken from the line before (C84_cut_accepted, C84_cut_last, proved). A file cut inside a date: the outcome is the date parser's; an exception of it ends the program."
  },
  {
   "property": "C85",
   "status": "partial",
   "theorems": [
    "Ggnss.C85_cut_body",
    "Ggnss.C85_cut_file_never_returns",
    "Ggnss.C85_cut_not_delivered",
    "Ggnss.C85_header_cut",
    "Ggnss.C85_header_only",
    "Ggnss.C85_returned",
    "Ggnss.C85_sequence"
   ],
   "note": "Every byte sequence (C85_returned), every prefix of the epochs of a well formed file (C85_sequence), every prefix of its header (C85_header_cut, C85_header_only). Violated by the code: where the file ends within an epoch the call need not return (C85_cut_file_never_returns; C85_cut_body: it does not return, or reports a broken record with 22..28)."
  },
  {
   "property": "C86",
   "status": "partial",
   "theorems": [
    "Ggnss.C86_aligned_iff",
    "Ggnss.C86_file_partial",
    "Ggnss.C86_last_epoch_lost",
    "Ggnss.C86_misaligned",
    "Ggnss.C86_never_emptied",
    "Ggnss.C86_nothing_loaded"
   ],
   "note": "For an object with the slots the constructor is meant to make (none can be constructed, C62) and a 0 in the local variable that is read before it is set: status, times and slots for every file (C86_file_partial); records and times correspond exactly when no satellite is missing in any loaded epoch (C86_aligned_iff). False of the code: any other value in that variable loads nothing and reports success (C86_nothing_loaded); a missing satellite shifts its series (C86_misaligned); a window of all epochs loses the last one (C86_last_epoch_lost); a second call appends (C86_never_emptied). More satellites than slots: not covered."
  },
  {
   "property": "C87",
   "status": "partial",
   "theorems": [
    "Ggnss.C87_gap",
    "Ggnss.C87_glonass_overflow",
    "Ggnss.C87_in_force_partial",
    "Ggnss.C87_lines_partial",
    "Ggnss.C87_no_message",
    "Ggnss.C87_not_in_antex",
    "Ggnss.C87_table_partial",
    "Ggnss.C87_unknown_system",
    "Ggnss.C87_usage",
    "Ggnss.C87_without_antex"
   ],
   "note": "GPS, Galileo, BeiDou, eccentricities in [0, 0.95], ANTEX file given: exact course for messages of any health (C87_lines_partial), whole table for healthy messages (C87_table_partial), all lines from messages in force when the messages leave no gap (C87_in_force_partial), exit codes 1, 5 and 10 (C87_usage, C87_unknown_system, C87_not_in_antex, C87_no_message). Violated by the code: in a gap lines are computed from a message that is not yet in force (C87_gap); without the optional ANTEX file there is never a table (C87_without_antex); for GLONASS six numbers are stored into an array of three (C87_glonass_overflow). An eccentricity above 0.95 and malformed files are not covered."
  },
  {
   "property": "C88",
   "status": "partial",
   "theorems": [
    "Ggnss.C88_bad_offset_terminates",
    "Ggnss.C88_borrowed_interval",
    "Ggnss.C88_last_record_hangs",
    "Ggnss.C88_no_offsets",
    "Ggnss.C88_offsets_partial",
    "Ggnss.C88_satellite_partial"
   ],
   "note": "Files in which every record that names the satellite has a method line followed (within the record) by both dates, a date that cannot be read, or START OF FREQUENCY, or has no method line (C88_satellite_partial, C88_offsets_partial, C88_no_offsets); the unwritten part of a local array is assumed to contain a terminator, as in C37. Violated by the code for a record of the satellite that has neither: its interval is taken from the following record (C88_borrowed_interval), or the query never returns (C88_last_record_hangs). An offset that is no number terminates the program (C88_bad_offset_terminates). SVN and COSPAR id of the answer: C51."
  },
  {
   "property": "C89",
   "status": "partial",
   "theorems": [
    "Ggnss.C89_complete_record",
    "Ggnss.C89_cut_at_svn_refused",
    "Ggnss.C89_cut_before_channel",
    "Ggnss.C89_cut_in_svn",
    "Ggnss.C89_header_cut",
    "Ggnss.C89_not_found_partial"
   ],
   "note": "Header and complete records: all cuts (C89_header_cut, C89_complete_record). Not-found answers when the cut line still says that it does not match (C89_not_found_partial), fewer than 1000 records. Violated by the code when the file ends within a record: the bytes of the previous record still in the array are used for what is missing, so that the lookup succeeds with another satellite's channel (C89_cut_before_channel), even for an SVN that is not in the file (C89_cut_in_svn). Status 2 when it ends at the SVN (C89_cut_at_svn_refused)."
  },
  {
   "property": "C90",
   "status": "partial",
   "theorems": [
    "Ggnss.C90_antex",
    "Ggnss.C90_antex_cut",
    "Ggnss.C90_navigation",
    "Ggnss.C90_navigation_cut",
    "Ggnss.C90_observation",
    "Ggnss.C90_observation_cut",
    "Ggnss.C90_observation_cut_terminates",
    "Ggnss.C90_observation_refused",
    "Ggnss.C90_stale_memory"
   ],
   "note": "Navigation and ANTEX: all bytes (C90_navigation, C90_antex), all cuts of well formed headers from char 60 on (C90_navigation_cut, C90_antex_cut). Observations: never opened (C90_observation, C90_observation_cut), with a first line of 60 to 84 chars the outcome is std::runtime_error or the end of the process (C90_observation_refused). Violated: an observation file cut in the line after a list of observation types ends the process (C90_observation_cut_terminates); with a first line of fewer than 60 chars a file of 45 chars is opened when the uninitialised array happens to hold the label (C90_stale_memory)."
  },
  {
   "property": "C91",
   "status": "partial",
   "theorems": [
    "Ggnss.C91_nav_one_too_many",
    "Ggnss.C91_obs_one_too_many",
    "Ggnss.C91_sp3",
    "Ggnss.C91_sp3_exit"
   ],
   "note": "SP3: the count is exact and the exit code 0 (C91_sp3); the exit code is 0 whatever happened, so it does not tell a damaged file (C91_sp3_exit). Violated for the others: the call that finds the end is counted too, so one more epoch is reported than the file has (C91_obs_one_too_many; the printed lines are right) and one more data block (C91_nav_one_too_many; the blocks of the GLONASS satellite are one too many when the last record is one of them). No observation type lists of a multiple of 13 types (C60)."
  },
  {
   "property": "C92",
   "status": "partial",
   "theorems": [
    "Ggnss.C92_exit_never_zero",
    "Ggnss.C92_hangs",
    "Ggnss.C92_never_in_force",
    "Ggnss.C92_next_message"
   ],
   "note": "Violated: C92_next_message proves, for files whose messages are at least a minute apart, what the programs do: one line a minute from the first to the last time of clock, every line computed from the NEXT message, then exit code -1; C92_never_in_force: no line is computed from the message in force; C92_hangs: with fewer than two messages the program never ends; C92_exit_never_zero: no run of any kind ends with 0."
  },
  {
   "property": "C93",
   "status": "partial",
   "theorems": [
    "Ggnss.C93_hangs",
    "Ggnss.C93_health_ignored",
    "Ggnss.C93_less_than_a_day",
    "Ggnss.C93_listing"
   ],
   "note": "C93_listing: for every file the lines are exactly those of the epochs (every 60.001 s) at which the first message that is not past is near, each one what that message says, and the exit code is 5 when the messages run out, 0 when the iterations do. Violated: the 1499 iterations never suffice, no line is later than 21 h 59 min after the first message and fewer than 1340 lines are printed (C93_less_than_a_day); unhealthy messages are used (C93_health_ignored); without a message of the satellite the program hangs (C93_hangs)."
  },
  {
   "property": "C94",
   "status": "partial",
   "theorems": [
    "Ggnss.C94_answers_partial",
    "Ggnss.C94_damaged",
    "Ggnss.C94_records_to_the_end",
    "Ggnss.C94_refused"
   ],
   "note": "C94_answers_partial when something follows the records; C94_damaged, C94_refused (wrong arguments, missing file, other file). Violated when the records reach to the end of the file: after the first satellite not matched all others are reported as not matched, exit code 0 (C94_records_to_the_end, exact)."
  },
  {
   "property": "C95",
   "status": "partial",
   "theorems": [
    "Ggnss.C95_obs_epoch_kills",
    "Ggnss.C95_obs_header_kills",
    "Ggnss.C95_sp3_epoch_kills",
    "Ggnss.C95_sp3_file",
    "Ggnss.C95_sp3_file_kills",
    "Ggnss.C95_sp3_header_kills"
   ],
   "note": "C95_sp3_file: accepted dates are delivered. The rest is violated: the functions are noexcept, so the exception ends the program (C95_sp3_epoch_kills, C95_sp3_file_kills, C95_sp3_header_kills, C95_obs_epoch_kills, C75_bad_date_kills); in an observation header only std::invalid_argument is reported (C60_bad_date_refused), any other kills (C95_obs_header_kills)."
  },
  {
   "property": "C96",
   "status": "partial",
   "theorems": [
    "Ggnss.C96_histories_partial",
    "Ggnss.C96_one_call_too_many",
    "Ggnss.C96_unterminated"
   ],
   "note": "C96_unterminated: every history, when the EOF line is the end of the file. C96_histories_partial: EOF followed by a newline, every history that never reads past the last epoch. Otherwise violated: one call past the end sets the failbit, rewind() does not clear it, every later call returns 1 (C96_one_call_too_many)."
  },
  {
   "property": "C97",
   "status": "partial",
   "theorems": [
    "Ggnss.C97_borrowed_offsets",
    "Ggnss.C97_receiver_partial",
    "Ggnss.C97_satellite_partial"
   ],
   "note": "C97_receiver_partial, C97_satellite_partial: all offsets stand in order behind the line that names the antenna; count as announced. That they stand before the end of the record is violated by the code: the scan for START OF FREQUENCY does not stop at END OF ANTENNA, so a record that has lost its frequencies is answered with status 0 and the offsets of the next antenna (C97_borrowed_offsets)."
  },
  {
   "property": "C98",
   "status": "partial",
   "theorems": [
    "Ggnss.C98_determined",
    "Ggnss.C98_lookup"
   ],
   "note": "C98_lookup, C98_determined: proved for lines of at least 194 columns and for the first thousand records. Shorter lines keep bytes of earlier lines (C77, C89), and records beyond the thousandth are not searched by the code."
  },
  {
   "property": "C99",
   "status": "proved",
   "theorems": [
    "Ggnss.C99_determined",
    "Ggnss.C99_record"
   ],
   "note": "C99_record, C99_determined. The time of ephemeris computed from the numbers is the subject of C17/C18, dates of C95; lines shorter than their columns (which then show what earlier lines left in the buffer) are not in the quantifier."
  },
  {
   "property": "C100",
   "status": "proved",
   "theorems": [
    "Ggnss.C100_determined",
    "Ggnss.C100_epoch",
    "Ggnss.C100_last"
   ],
   "note": "C100_epoch, C100_last, C100_determined. The event orbit predicted is excluded (the code looks for the wrong letter: C33), as are the flags of lines shorter than 80 characters and position lines too short for their numbers (both then show what earlier lines left in the buffer)."
  },
  {
   "property": "C101",
   "status": "proved",
   "theorems": [
    "Ggnss.C101_determined",
    "Ggnss.C101_epoch",
    "Ggnss.C101_value"
   ],
   "note": "C101_epoch, C101_determined, C101_value. A part that is present is added to the marker left by an earlier missing part, flag digits behind the decimals are read as decimals and a field cut at the end of the line counts as missing (codeSum, fieldCols; C39 and C40 say where this departs from RINEX); the reason why a header is refused is the subject of C108; data lines missing at the end of the file are the subject of C83."
  },
  {
   "property": "C102",
   "status": "partial",
   "theorems": [
    "Ggnss.C102_determined",
    "Ggnss.C102_opened",
    "Ggnss.C102_unreadable_interval",
    "Ggnss.C102_word_for_interval"
   ],
   "note": "C102_opened, C102_determined. False of the code for the four real columns (seconds, second of week, interval, fraction of day): a text that is no number counts as 0 (C102_unreadable_interval for all files, C102_word_for_interval: a file that is opened that way, its interval 0 makes the interpolator divide by 0). A number that overflows is refused. The agency is the first three of its four columns (C61)."
  },
  {
   "property": "C103",
   "status": "proved",
   "theorems": [
    "Ggnss.C103_determined",
    "Ggnss.C103_opened",
    "Ggnss.C103_opened_iff"
   ],
   "note": "C103_opened, C103_opened_iff, C103_determined. Hypotheses on the first line only (60 columns, not itself labelled END OF HEADER); hexadecimal versions, infinities and NaN are left open in the iff. The version is the exact number (a float in the code, and no range check)."
  },
  {
   "property": "C104",
   "status": "proved",
   "theorems": [
    "Ggnss.C104_determined",
    "Ggnss.C104_opened",
    "Ggnss.C104_opened_iff"
   ],
   "note": "C104_opened, C104_opened_iff, C104_determined. Header lines shorter than 60 characters are outside the statement (what happens with them is in C60). The entry relation states what the code accepts: names are cut at the first blank, a list with a multiple of 13 codes needs a further labelled line (C60), a clock line without a number counts as not applied. The date parser is a parameter that reads a C string. The iff assumes errno 0 at the call, a version that fits a float, and no hexadecimal numbers, infinities or NaN."
  },
  {
   "property": "C105",
   "status": "proved",
   "theorems": [
    "Ggnss.C105_info",
    "Ggnss.C105_own",
    "Ggnss.C105_pco"
   ],
   "note": "C105_info, C105_own, C105_pco. The interval is the one the library reads (C37). That SVN and COSPAR id are always those of the record itself is C51, which the code violates."
  },
  {
   "property": "C106",
   "status": "proved",
   "theorems": [
    "Ggnss.C106_determined",
    "Ggnss.C106_opened",
    "Ggnss.C106_opened_iff"
   ],
   "note": "C106_opened, C106_opened_iff, C106_determined. The version is the exact number, not its nearest float. A first line shorter than 60 characters, or one of the first two labelled END OF HEADER, is outside the statement (C90 covers files without an END OF HEADER line)."
  },
  {
   "property": "C107",
   "status": "proved",
   "theorems": [
    "Ggnss.C107_determined",
    "Ggnss.C107_headings_last",
    "Ggnss.C107_opened",
    "Ggnss.C107_opened_iff"
   ],
   "note": "C107_opened, C107_opened_iff, C107_determined. A file that ends with the headings is opened too; its object has no position and its stream has failed (C107_headings_last)."
  },
  {
   "property": "C108",
   "status": "proved",
   "theorems": [
    "Ggnss.C108_accepted",
    "Ggnss.C108_complete",
    "Ggnss.C108_refused"
   ],
   "note": "C108_refused, C108_accepted, C108_complete. That an unreadable number of satellites or clock offset counts as 0 instead of being refused is how the code is, see C43. Lines whose date numbers run into the flag column compare pointers that may coincide; for them C43_sound holds."
  },
  {
   "property": "C109",
   "status": "proved",
   "theorems": [
    "Ggnss.C109_determined",
    "Ggnss.C109_fate"
   ],
   "note": "C109_fate, C109_determined. That a fate other than returning exists is a defect of the code, see C48 and C32; here it is said exactly when. Position lines shorter than 46 columns are read together with the left-overs of the buffer and are outside the hypotheses."
  },
  {
   "property": "C110",
   "status": "proved",
   "theorems": [
    "Ggnss.C110_determined",
    "Ggnss.C110_fate"
   ],
   "note": "C110_fate, C110_determined. That a fate other than returning exists is a defect of the code (C75, C95); here it is said exactly when. The calendar of ggdatetime is a parameter. Lines that do not reach their columns are read together with left-overs of the buffer (C84) and are outside the hypotheses."
  },
  {
   "property": "C111",
   "status": "proved",
   "theorems": [
    "Ggnss.C111_determined",
    "Ggnss.C111_fate",
    "Ggnss.C111_room"
   ],
   "note": "C111_fate, C111_determined, C111_room. That more than 80 satellites of requested systems in an epoch are undefined behaviour with the vector of initialize_epoch_vector is a defect of the code; here it is said exactly when it strikes. The calendar of ggdatetime is a parameter."
  },
  {
   "property": "C112",
   "status": "proved",
   "theorems": [
    "Ggnss.C112_determined",
    "Ggnss.C112_search",
    "Ggnss.C112_total"
   ],
   "note": "C112_search, C112_total, C112_determined. With C18 (well formed files) as special case. That an unreadable record of another satellite ends the search with an error is what the code does, stated as such."
  },
  {
   "property": "C113",
   "status": "proved",
   "theorems": [
    "Ggnss.C113_determined",
    "Ggnss.C113_search",
    "Ggnss.C113_total"
   ],
   "note": "C113_search, C113_total, C113_determined. Extends C112 to the search with validity; that a late message ends the search even when a later record would be in force is what the code does, stated as such."
  },
  {
   "property": "C114",
   "status": "proved",
   "theorems": [
    "Ggnss.C114_cursor",
    "Ggnss.C114_determined",
    "Ggnss.C114_total"
   ],
   "note": "C114_cursor, C114_total, C114_determined. Searches that are given a position by the caller with rewind(pos) are in C18 and C55."
  },
  {
   "property": "C115",
   "status": "proved",
   "theorems": [
    "Ggnss.C115_answers",
    "Ggnss.C115_determined",
    "Ggnss.C115_file"
   ],
   "note": "C115_file, C115_determined, C115_answers. The orbit prediction flag and the flags of lines shorter than 80 columns are left open (C33). Calls after a status that is not 0 are in C73, C96."
  },
  {
   "property": "C116",
   "status": "proved",
   "theorems": [
    "Ggnss.C116_answers",
    "Ggnss.C116_determined",
    "Ggnss.C116_file",
    "Ggnss.C116_text"
   ],
   "note": "C116_file, C116_determined, C116_answers, C116_text (every text is such a file). The values left by the refused line in the element behind those counted are left open. Calls after a status that is not 0 are in C82, C83 (well formed pieces)."
  },
  {
   "property": "C117",
   "status": "proved",
   "theorems": [
    "Ggnss.C117_calls",
    "Ggnss.C117_determined"
   ],
   "note": "C117_calls, C117_determined. The values a refused line leaves in the element behind those counted are left open, and so are the values behind the requested ones of a satellite read into it later."
  }
 ]
}