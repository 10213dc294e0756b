M["C01"]=("proved",None,"Mutual inverse, injectivity, exact set of accepted chars.")
M["C02"]=("proved",None,"Table proved equal to an independent table of carriers (multiples of 10.23 MHz), lookup characterised for every int.")
M["C03"]=("proved",None,"Both round trips, exact acceptance and rejection; two-digit bands collide, hence the one-digit hypothesis of the property.")
M["C04"]=("partial",None,"Symmetry is false of the code when a part is repeated (C04_not_symmetric). Reflexivity and transitivity hold for all; equality = permutation when the left operand has no repeated part.")
M["C05"]=("proved",None,"Exact rational arithmetic instead of doubles.")
M["C06"]=("proved",None,"")
M["C07"]=("proved",None,"")
M["C08"]=("proved",None,"")
M["C09"]=("partial",None,"False in general: a blank column silently takes its right neighbour's value (C09_blank_field_takes_neighbour). Proved for lines whose columns are filled and separated, any N and M.")
M["C10"]=("proved",None,"All histories of serial updates, arbitrary uninitialised memory.")
M["C11"]=("partial",None,"False for 20-char texts with blank radome and for 17-19 char texts (two witnesses, for every memory).")
M["C12"]=("partial",None,"compare_serial is characterised exactly; false for every serial shorter than 20 chars (C12_short_serial_never_matches). has_serial fully proved.")
M["C13"]=("proved",None,"")
M["C14"]=("partial",None,"The code returns the inverse of what is documented: proved for all inputs (C14_is_same_inverted).")
M["C15"]=("proved",None,"")
M["C16"]=("proved",None,"Every system, any block of lines the format allows.")
M["C17"]=("proved",None,"Layout for every well formed record of every system; memory safety for arbitrary bytes. Hypothesis: errno is 0 at entry (the code never resets it on success).")
M["C18"]=("proved",None,"Any number of preceding records.")
M["C19"]=("proved",None,"Completeness for well formed files of any length, soundness (C19_sound) for arbitrary bytes.")
M["C20"]=("partial",None,"False for lines that start with 'M' (C20_mixed_line_loops_forever); proved for every file without such a line. C20_find_next_iff and C20_find_next_valid_iff say exactly which searches of a file with an 'M' line after its records never return.")
M["C21"]=("proved",None,"")
M["C22"]=("proved",None,"Through stateNclock for every system; real arithmetic.")
M["C23"]=("partial",None,"Week part proved for every time of clock and second of week. The half-week part is false at week rollover (C23_week_rollover_wrong) and characterised exactly.")
M["C24"]=("proved",None,"Real arithmetic (no rounding of doubles).")
M["C25"]=("proved",None,"Position proved equal to the interface-document formula (rotations as matrices), norm = |corrected radius|. BeiDou GEO satellites, which the interface document treats differently, are not distinguished by the code.")
M["C26"]=("partial",None,"Proved when time of clock = time of ephemeris; otherwise the code evaluates the anomaly at t-toc instead of t-toe (C26_toc_ne_toe_wrong). Exact characterisation for all inputs: C26_clock_formula.")
M["C27"]=("proved",None,"State proved equal to the RK4 iteration of the ICD equations; termination for every epoch.")
M["C28"]=("proved",None,"The state is overwritten in both cases (C28_state_overwritten).")
M["C29"]=("proved",None,"Real arithmetic. Monotone for all reals, strict on indices.")
M["C46"]=("partial",None,"False between 60 s steps (C46_quantised) and beyond half a day (C46_far_away_frozen); proved on multiples of 60 s.")
M["C47"]=("partial",None,"False of the code: PRN -1 never matches, proved for every well formed file.")
M["C30"]=("proved",None,"")
M["C31"]=("proved",None,"One epoch before a header, one before the EOF line, and whole files of any number of epochs. errno must not be ERANGE at entry.")
M["C32"]=("partial",None,"False when the vector is too small (C32_overflow: undefined behaviour for every such epoch); proved for arbitrary bytes when the vector has an element per line beginning with P.")
M["C33"]=("partial",None,"Orbit prediction flag never set for the letter the format uses (C33_predicted_orbit_never_flagged); lines shorter than 75 columns take flags from stale bytes; the rest proved for all lines of 80 columns.")
M["C48"]=("partial",None,"False without an EOF line (C48_missing_eof_line_diverges) and with a line of more than 127 chars; proved for arbitrary bytes when an ending line follows.")
M["C34"]=("partial",None,"The first record in force among the first 1000; later records are never searched (C34_beyond_limit). The date reader of ggdatetime is a parameter. Opening: any file gives an object or runtime_error, well formed headers are accepted.")
M["C49"]=("partial",None,"Proved when something follows the records block; when the records reach the end of the file it is false, and C49_history_iff says exactly which histories change which answers (C49_failed_lookup_spoils_object).")
M["C35"]=("proved",None,"Every well formed file with at least one antenna (with none the code reads an uninitialised status: C35_no_antenna_undefined).")
M["C36"]=("partial",None,"Proved for files whose lines fit the 84-char buffer; false with a longer line, which spoils the object (C36_long_line_spoils). Arbitrary bytes, exact: C36_history_iff (a history changes no answer as long as no query of it leaves the failbit set; after the first that does every query answers 1).")
M["C37"]=("partial",None,"Interval iff for well formed records; an answer from a file of arbitrary lines of 60 to 511 chars is always backed by a record of the file that names the satellite and an interval that holds the epoch (C37_sound_text; arbitrary bytes: C37_sound); false on a truncated record (C37_truncated_record_hangs) and reads uninitialised memory (C37_uninitialised_read).")
M["C50"]=("partial",None,"Only exact serial matches count: proved. Documented code 1 is false: 10 is returned even when no model matched (C50_status_10_without_model).")
M["C51"]=("partial",None,"Proved when the record has its own SVN and COSPAR; false when blank (C51_svn_of_another_satellite).")
M["C52"]=("proved",None,"")
M["C53"]=("partial",None,"Proved for files without unparsable numbers; a bad number terminates the process (C53_bad_number_terminates).")
M["C54"]=("proved",None,"")
M["C55"]=("proved",None,"Any number of records and calls; whole files through the constructor and rewind().")
M["C56"]=("proved",None,"")

M["C38"]=("proved",None,"")
M["C39"]=("partial",None,"Exact result for every satellite line with well formed fields (C39_collected, C39_reading_total, C39_last_missing), within 0.001 per unit coefficient of the true combination when all parts are there (C39_near); the property itself is proved when the LLI is blank and no part is missing before a present one; false otherwise (C39_value_after_missing, C39_shortened_field, C40_flags_spill).")
M["C40"]=("partial",None,"False when the loss of lock digit is present: it is read as further decimals (C40_flags_spill; bounded by C40_spill_bound); proved for blank flags; arbitrary columns never fail (C40_any_field).")
M["C42"]=("proved",None,"Arbitrary bytes; vectors sized by initialize_epoch_vector hold every epoch of up to 80 satellites, tight (C42_initial_tight, C42_overflow).")
M["C43"]=("partial",None,"Proved for every well formed header line and for lines not starting with '>'; whatever an accepted line, arbitrary bytes, is said to contain stands in it (C43_sound); a line with a malformed date or count is undefined behaviour or silently read (C43_malformed_undefined, C43_count_unread, C43_date_unread); numbers out of range are refused (C43_date_range, C43_seconds_range, C43_clock_range), an unreadable clock offset is silently 0 (C43_clock_unread).")
M["C57"]=("partial",None,"Exact result for every epoch of well formed data lines (C57_exact, C57_lines_total); the values are those of the property for plain fields (C57_epoch_partial; see C39, C40). With at most one observation type the buffer cannot hold an epoch header (C57_small_buffer).")
M["C58"]=("partial",None,"For every sequence of well formed epochs whose lines fit the buffer (C58_exact); whole files through the constructor, set_read_map and rewind (C58_file_exact_partial for any names, antennas and well formed fields, C58_file_partial). Missing: files with at most one observation type, whose buffer is too small (C57_small_buffer), and lists with a multiple of 13 types (C41).")

M["C44"]=("proved",None,"Exact real arithmetic. Without weights (default argument) five or more satellites give a singular matrix: C44_no_weights_singular.")
M["C45"]=("partial",None,"For the default coefficient 1; false for every other coefficient (C45_coef_wrong).")
M["C59"]=("proved",None,"Exact real arithmetic, coefficient 1.")

M["C41"]=("partial",None,"Proved for every number of types that is not a multiple of 13; false for every multiple of 13 (C41_full_line_refused, C41_full_line_swallows).")
M["C60"]=("partial",None,"Exact account for headers with any names and antennas and no number of types that is a multiple of 13 (C60_open_exact_partial); the property as stated for names without blanks and antennas with radome NONE (C60_open_partial); arbitrary bytes after a first line of at least 60 chars: opened, runtime_error or termination (C60_open_any_partial); false otherwise: see the other theorems.")

M["C61"]=("partial",None,"Everything but the agency, of which the last of four columns is lost (C61_open_partial, C61_agency_cut); the second accuracy line is not looked at (C61_any_second_accuracy_line); arbitrary bytes after a first line of at least 60 chars: undefined only when seconds or interval do not fit (C61_open_any_partial); whole files: C61_file; defects of the first three lines are refused (C61_first_line_refused, C61_second_line_refused, C61_third_line_refused). The date library is a parameter.")
M["C62"]=("partial",None,"False of the code for every opened file: C62_never_constructed.")

M["C63"]=("proved",None,"For files whose GPS, GLONASS, Galileo and BeiDou records are well formed (C63_every_history, C63_exactly_when); for arbitrary bytes an answer with status 0 is sound (C63_sound).")

M["C64"]=("proved",None,"Exact rational coefficients. Texts do not distinguish coefficients that agree to six decimals (C64_collision); an emptied vector must not be printed (C64_empty_ub).")
M["C65"]=("proved",None,"car2ell (external library) is a parameter; real arithmetic.")
M["C66"]=("partial",None,"The correction is the dry part of the formula up to 2e-5 m / cos z for heights from -1000 m to 2500 m (C66_dry_partial); the wet part, more than 2 cm in the zenith, is lost (temperature in Celsius, coefficient squared instead of temperature: C66_wet_missing); the weights are 1 for every angle (C66_weight, C66_weight_wrong).")
M["C67"]=("partial",None,"Up to 30 satellites in the list (C67_rows_partial); for longer lists the same, or, exactly when more than 30 satellites are usable, the write behind the arrays is reported (C67_overflow: the property is false there). Satellites of the list are of the four systems the navigation reader handles and none is more than 0.2 rad below the horizon.")
M["C68"]=("partial",None,"One update per epoch of more than four satellites with the right rows, in file order, until the end of the file (C68_run_partial, C68_main_partial), covariance (C68_covariance, C68_defined). False: time step is the second of day (C68_dt_wrong), exit code -1 instead of 0 (C68_main_partial), an epoch without usable satellite aborts (assert), a file without epochs reads an unassigned time (C68_no_epoch), and the request in the source is refused for every file (C68_request_refused).")
M["C69"]=("partial",None,"False of the code: the defaulted moves copy the raw pointer, so that every program that moves a reader frees a buffer twice (C69_moved_freed_twice). Exact: C69_iff.")
M["C70"]=("partial",None,"False of the program as it is: no file makes it compute anything (C70_shipped_computes_nothing). The list of satellites, too few arguments and missing files are as they should be; with a request that the file satisfies every epoch is processed, but the exit code is -1 (C70_run_partial). Assumes a terminator in the last 25 bytes of an uninitialised array (PpWorld.OK), see C37.")
M["C71"]=("partial",None,"Equal for well formed navigation files with whole seconds of ephemeris time and a final newline, for times within half a week of ephemeris and clock reference, and for well formed epochs with valid dates and no more lines than slots (theorems _partial); for arbitrary bytes the differences are bounded (C71_find_next_any, C71_epoch_any). False otherwise: C71_fractional_toe, C71_no_final_newline, C71_state_far, C71_clock_far, C71_many_satellites, C71_invalid_date.")

M["C72"]=("proved",None,"Text files (no NUL, every line terminated) with lines of at most 255 characters.")
M["C73"]=("proved",None,"Defects of every column, after any number of good records; blanks where a number should be count as a defect.")
M["C74"]=("proved",None,"gal_sisa before its rounding to float.")
M["C75"]=("partial",None,"Every defect of a line that reaches its columns is refused with the status of the line (C75_number_refused, C75_satellite_refused, C75_cut_refused, also through find_next and find_next_valid), and what is accepted has its numbers (C75_accepted). Full property false of the code: an unreadable date ends the program (C75_bad_date_kills), a missing satellite number is replaced by the year (C75_blank_satellite_takes_year), a line too short for its columns is taken for the one before it (C75_short_line_taken_for_previous), a blank column followed by a number takes that number (C09_blank_field_takes_neighbour).")
M["C76"]=("proved",None,"Proved for messages in range within half a week, for every rounding to nearest and every library with sin, cos within 2^-53 and atan2 within 2^-51 (C76_accurate, C76_whole_seconds); no fused multiply-add. False beyond: with a mean anomaly of 65 rad the loop can alternate for ever, because neighbouring doubles differ by more than the limit (C76_no_convergence). The GLONASS integration is C79.")
M["C77"]=("partial",None,"Proved: unreadable SVN, PRN or channel beyond long (C77_svn_refused, C77_range_refused), stale errno (C77_stale_errno). False as stated and proved so: a blank channel is reported as channel 0 with status 0 (C77_channel_unread), a line that ends before the channel columns gets the channel of the previous record (C77_short_record_previous_channel), a blank SVN takes the next number of the line (C77_blank_svn_takes_year).")
M["C78"]=("partial",None,"Proved for lines whose fields have no LLI digits (with them the value is another one, C40) and, for combinations, when no part is missing or the last part is; a present part after a missing one is added to the marker (C39). Values within 1e-6 of the marker (not exactly it) and SP3 lines shorter than 80 columns are excluded; the orbit prediction flag is wrong (C33).")
M["C79"]=("proved",None,"Every rounding to nearest, no fused multiply-add; divisions of the step by 2 and 6 and doublings are exact. The comparison is with the exact Runge-Kutta steps of C27, not with the solution of the differential equation, and those steps run up to 60 s past the epoch (C27_end_time).")
M["C80"]=("partial",None,"Status and offsets for every kind of defect of AtxSays, for receiver antennas; an offset that is no number, or too large, terminates the program instead (C80_bad_offset_terminates, proved). Lines up to the defect are assumed to have the columns of the format; labels of lines shorter than 60 characters are compared with what the array held before and are not covered. Satellite antennas: C37, C52.")
M["C81"]=("partial",None,"For every cut after the METH / BY / # / DATE line of a record whose serial number matches, also in the middle of a line. Cuts before that line compare an uninitialised array; antennas matched by model only: C53_truncated_record_refused.")

M["C82"]=("proved",None,"Exactly the defects listed in Spec/ObsBad. Text after a readable number in a field is ignored by the code and is not a defect here; a blank count of satellites and an unreadable clock are the disagreements of C43; a header that runs past the terminator is C43_malformed_undefined. Lines fit the line buffer.")
M["C83"]=("partial",None,"Every prefix of a well formed file (C83_sequence). Two exceptions, violations by the code: a file ending between the two digits of a satellite number delivers another satellite of the system, without values, and status -1 (C83_number_cut, proved); with a combination whose parts are not in the order of the columns a missing early part does not stop the sum (C39), so C83_seen asks for columns in order. Complete last epoch without newline: status -1 (C83_no_newline, proved). Line buffer of at least 3 chars; lines fit it.")
M["C84"]=("partial",None,"Every prefix of a well formed file (C84_sequence) and every byte sequence (C84_lines_present, C84_found_present, C84_found_valid_present, C84_skip_any). The last sentence is false of the code: a record cut within its last line is delivered with status 0, a cut number as if it were complete, numbers beyond the end taken from the line before (C84_cut_accepted, C84_cut_last, proved). A file cut inside a date: the outcome is the date parser's; an exception of it ends the program.")
M["C85"]=("partial",None,"Every byte sequence (C85_returned), every prefix of the epochs of a well formed file (C85_sequence), every prefix of its header (C85_header_cut, C85_header_only). Violated by the code: where the file ends within an epoch the call need not return (C85_cut_file_never_returns; C85_cut_body: it does not return, or reports a broken record with 22..28).")
M["C86"]=("partial",None,"For an object with the slots the constructor is meant to make (none can be constructed, C62) and a 0 in the local variable that is read before it is set: status, times and slots for every file (C86_file_partial); records and times correspond exactly when no satellite is missing in any loaded epoch (C86_aligned_iff). False of the code: any other value in that variable loads nothing and reports success (C86_nothing_loaded); a missing satellite shifts its series (C86_misaligned); a window of all epochs loses the last one (C86_last_epoch_lost); a second call appends (C86_never_emptied). More satellites than slots: not covered.")
M["C87"]=("partial",None,"GPS, Galileo, BeiDou, eccentricities in [0, 0.95], ANTEX file given: exact course for messages of any health (C87_lines_partial), whole table for healthy messages (C87_table_partial), all lines from messages in force when the messages leave no gap (C87_in_force_partial), exit codes 1, 5 and 10 (C87_usage, C87_unknown_system, C87_not_in_antex, C87_no_message). Violated by the code: in a gap lines are computed from a message that is not yet in force (C87_gap); without the optional ANTEX file there is never a table (C87_without_antex); for GLONASS six numbers are stored into an array of three (C87_glonass_overflow). An eccentricity above 0.95 and malformed files are not covered.")
M["C88"]=("partial",None,"Files in which every record that names the satellite has a method line followed (within the record) by both dates, a date that cannot be read, or START OF FREQUENCY, or has no method line (C88_satellite_partial, C88_offsets_partial, C88_no_offsets); the unwritten part of a local array is assumed to contain a terminator, as in C37. Violated by the code for a record of the satellite that has neither: its interval is taken from the following record (C88_borrowed_interval), or the query never returns (C88_last_record_hangs). An offset that is no number terminates the program (C88_bad_offset_terminates). SVN and COSPAR id of the answer: C51.")
M["C89"]=('partial',None,"Header and complete records: all cuts (C89_header_cut, C89_complete_record). Not-found answers when the cut line still says that it does not match (C89_not_found_partial), fewer than 1000 records. Violated by the code when the file ends within a record: the bytes of the previous record still in the array are used for what is missing, so that the lookup succeeds with another satellite's channel (C89_cut_before_channel), even for an SVN that is not in the file (C89_cut_in_svn). Status 2 when it ends at the SVN (C89_cut_at_svn_refused).")
M["C90"]=('partial',None,'Navigation and ANTEX: all bytes (C90_navigation, C90_antex), all cuts of well formed headers from char 60 on (C90_navigation_cut, C90_antex_cut). Observations: never opened (C90_observation, C90_observation_cut), with a first line of 60 to 84 chars the outcome is std::runtime_error or the end of the process (C90_observation_refused). Violated: an observation file cut in the line after a list of observation types ends the process (C90_observation_cut_terminates); with a first line of fewer than 60 chars a file of 45 chars is opened when the uninitialised array happens to hold the label (C90_stale_memory).')
M["C91"]=('partial',None,'SP3: the count is exact and the exit code 0 (C91_sp3); the exit code is 0 whatever happened, so it does not tell a damaged file (C91_sp3_exit). Violated for the others: the call that finds the end is counted too, so one more epoch is reported than the file has (C91_obs_one_too_many; the printed lines are right) and one more data block (C91_nav_one_too_many; the blocks of the GLONASS satellite are one too many when the last record is one of them). No observation type lists of a multiple of 13 types (C60).')
M["C92"]=('partial',None,'Violated: C92_next_message proves, for files whose messages are at least a minute apart, what the programs do: one line a minute from the first to the last time of clock, every line computed from the NEXT message, then exit code -1; C92_never_in_force: no line is computed from the message in force; C92_hangs: with fewer than two messages the program never ends; C92_exit_never_zero: no run of any kind ends with 0.')
M["C93"]=('partial',None,'C93_listing: for every file the lines are exactly those of the epochs (every 60.001 s) at which the first message that is not past is near, each one what that message says, and the exit code is 5 when the messages run out, 0 when the iterations do. Violated: the 1499 iterations never suffice, no line is later than 21 h 59 min after the first message and fewer than 1340 lines are printed (C93_less_than_a_day); unhealthy messages are used (C93_health_ignored); without a message of the satellite the program hangs (C93_hangs).')
M["C94"]=('partial',None,'C94_answers_partial when something follows the records; C94_damaged, C94_refused (wrong arguments, missing file, other file). Violated when the records reach to the end of the file: after the first satellite not matched all others are reported as not matched, exit code 0 (C94_records_to_the_end, exact).')
M["C95"]=('partial',None,'C95_sp3_file: accepted dates are delivered. The rest is violated: the functions are noexcept, so the exception ends the program (C95_sp3_epoch_kills, C95_sp3_file_kills, C95_sp3_header_kills, C95_obs_epoch_kills, C75_bad_date_kills); in an observation header only std::invalid_argument is reported (C60_bad_date_refused), any other kills (C95_obs_header_kills).')
M["C96"]=('partial',None,'C96_unterminated: every history, when the EOF line is the end of the file. C96_histories_partial: EOF followed by a newline, every history that never reads past the last epoch. Otherwise violated: one call past the end sets the failbit, rewind() does not clear it, every later call returns 1 (C96_one_call_too_many).')
M["C97"]=('partial',None,'C97_receiver_partial, C97_satellite_partial: all offsets stand in order behind the line that names the antenna; count as announced. That they stand before the end of the record is violated by the code: the scan for START OF FREQUENCY does not stop at END OF ANTENNA, so a record that has lost its frequencies is answered with status 0 and the offsets of the next antenna (C97_borrowed_offsets).')
M["C98"]=('partial',None,'C98_lookup, C98_determined: proved for lines of at least 194 columns and for the first thousand records. Shorter lines keep bytes of earlier lines (C77, C89), and records beyond the thousandth are not searched by the code.')
M["C99"]=('proved',None,'C99_record, C99_determined. The time of ephemeris computed from the numbers is the subject of C17/C18, dates of C95; lines shorter than their columns (which then show what earlier lines left in the buffer) are not in the quantifier.')
M["C100"]=('proved',None,'C100_epoch, C100_last, C100_determined. The event orbit predicted is excluded (the code looks for the wrong letter: C33), as are the flags of lines shorter than 80 characters and position lines too short for their numbers (both then show what earlier lines left in the buffer).')
M["C101"]=('proved',None,'C101_epoch, C101_determined, C101_value. A part that is present is added to the marker left by an earlier missing part, flag digits behind the decimals are read as decimals and a field cut at the end of the line counts as missing (codeSum, fieldCols; C39 and C40 say where this departs from RINEX); the reason why a header is refused is the subject of C108; data lines missing at the end of the file are the subject of C83.')
M["C102"]=('partial',None,'C102_opened, C102_determined. False of the code for the four real columns (seconds, second of week, interval, fraction of day): a text that is no number counts as 0 (C102_unreadable_interval for all files, C102_word_for_interval: a file that is opened that way, its interval 0 makes the interpolator divide by 0). A number that overflows is refused. The agency is the first three of its four columns (C61).')
M["C103"]=('proved',None,'C103_opened, C103_opened_iff, C103_determined. Hypotheses on the first line only (60 columns, not itself labelled END OF HEADER); hexadecimal versions, infinities and NaN are left open in the iff. The version is the exact number (a float in the code, and no range check).')
M["C104"]=('proved',None,'C104_opened, C104_opened_iff, C104_determined. Header lines shorter than 60 characters are outside the statement (what happens with them is in C60). The entry relation states what the code accepts: names are cut at the first blank, a list with a multiple of 13 codes needs a further labelled line (C60), a clock line without a number counts as not applied. The date parser is a parameter that reads a C string. The iff assumes errno 0 at the call, a version that fits a float, and no hexadecimal numbers, infinities or NaN.')
M["C105"]=('proved',None,'C105_info, C105_own, C105_pco. The interval is the one the library reads (C37). That SVN and COSPAR id are always those of the record itself is C51, which the code violates.')
M["C106"]=('proved',None,'C106_opened, C106_opened_iff, C106_determined. The version is the exact number, not its nearest float. A first line shorter than 60 characters, or one of the first two labelled END OF HEADER, is outside the statement (C90 covers files without an END OF HEADER line).')
M["C107"]=('proved',None,'C107_opened, C107_opened_iff, C107_determined. A file that ends with the headings is opened too; its object has no position and its stream has failed (C107_headings_last).')
M["C108"]=('proved',None,'C108_refused, C108_accepted, C108_complete. That an unreadable number of satellites or clock offset counts as 0 instead of being refused is how the code is, see C43. Lines whose date numbers run into the flag column compare pointers that may coincide; for them C43_sound holds.')
M["C109"]=('proved',None,'C109_fate, C109_determined. That a fate other than returning exists is a defect of the code, see C48 and C32; here it is said exactly when. Position lines shorter than 46 columns are read together with the left-overs of the buffer and are outside the hypotheses.')
M["C110"]=('proved',None,'C110_fate, C110_determined. That a fate other than returning exists is a defect of the code (C75, C95); here it is said exactly when. The calendar of ggdatetime is a parameter. Lines that do not reach their columns are read together with left-overs of the buffer (C84) and are outside the hypotheses.')
M["C111"]=('proved',None,'C111_fate, C111_determined, C111_room. That more than 80 satellites of requested systems in an epoch are undefined behaviour with the vector of initialize_epoch_vector is a defect of the code; here it is said exactly when it strikes. The calendar of ggdatetime is a parameter.')
M["C112"]=('proved',None,'C112_search, C112_total, C112_determined. With C18 (well formed files) as special case. That an unreadable record of another satellite ends the search with an error is what the code does, stated as such.')
M["C113"]=('proved',None,'C113_search, C113_total, C113_determined. Extends C112 to the search with validity; that a late message ends the search even when a later record would be in force is what the code does, stated as such.')
M["C114"]=('proved',None,'C114_cursor, C114_total, C114_determined. Searches that are given a position by the caller with rewind(pos) are in C18 and C55.')
M["C115"]=('proved',None,'C115_file, C115_determined, C115_answers. The orbit prediction flag and the flags of lines shorter than 80 columns are left open (C33). Calls after a status that is not 0 are in C73, C96.')
M["C116"]=('proved',None,'C116_file, C116_determined, C116_answers, C116_text (every text is such a file). The values left by the refused line in the element behind those counted are left open. Calls after a status that is not 0 are in C82, C83 (well formed pieces).')
M["C117"]=('proved',None,'C117_calls, C117_determined. The values a refused line leaves in the element behind those counted are left open, and so are the values behind the requested ones of a satellite read into it later.')
