# DESIGN

Plan written before the proofs (updated as the model grows; see the end for the trusted base).

## Plan per property

* **C01 Satellite-system letters round-trip** — SatSys: enum + two total functions, `Res` outcome for the throw; proved by case analysis over the enum and all chars.
* **C02 Band-to-frequency lookup is total exactly on the tabulated bands** — SatSys: tables as association lists (std::map), lookup = `.at`; proof by case split on the finite table, all other ints by omega.
* **C03 Observation codes round-trip through their three-character text** — Obs: parser/formatter over char lists; round-trip theorems in both directions, error branches characterised as iff.
* **C04 Equality of observables is an equivalence relation** — Obs: model of operator== (size test + membership). Symmetry is false of the code: negation by witness; equivalence/permutation proved for observables without repeated parts (_partial).
* **C05 Frequency of a linear combination is the weighted sum of its parts** — Obs: fold over parts in Res; sum spec by List.sum; iff for termination; permutation invariance.
* **C06 Satellite identifiers format injectively** — Satellite: decimal printing of Int (std::to_string) modelled with Nat.toDigits; injectivity via toDigits injectivity.
* **C07 Right-trim and left-trim remove exactly the blanks they promise** — Str: the three functions on (buffer, stop); independent spec with dropWhile/takeWhile on the considered prefix.
* **C08 Fortran exponents are normalised in place without changing anything else** — Str: in-place update of a buffer up to NUL; spec = map on prefix.
* **C09 Fixed-width numeric fields are decoded independently** — Str: strtod modelled concretely (decimal grammar); loop of __char2double__; independence is false in general (blank field): negation + proof for lines whose fields are right justified non-blank and which end in a delimiter (_partial).
* **C10 Receiver antenna records stay well formed under every sequence of operations** — Antenna: 41-byte buffer state machine, ops = ctor + set_serial list; invariant by induction over the ops list.
* **C11 A missing radome reads as NONE** — Antenna: false for >=20 char texts with blank radome: negation; proved for shorter texts / texts with radome (_partial).
* **C12 Setting a serial number makes comparison with it succeed** — Antenna: false for serials shorter than 20: negation; proved for serials of exactly >= 20 chars, and has_serial iff (_partial).
* **C13 Antenna identity is model + radome + serial** — Antenna: strncmp model, relation theorems over API-reachable antennas with arbitrary garbage.
* **C14 Satellite antenna comparison says whether the types are equal** — SatAntenna: strncmp returned as bool: the negation is proved (result is exactly inverted).
* **C15 Two-digit years expand to the RINEX window** — rinex.hpp: integer function; full statement by omega.
* **C16 Skipping a navigation record consumes exactly the lines reading it would** — NavRnx: stream model (bytes, pos, eof/fail bits); consumption counted in lines; induction on lines.
* **C17 Reading a navigation record stays inside its 31-element payload** — NavRnx: payload writes as a trace; bounds by case analysis per system.
* **C18 find_next returns the first record of the requested satellite** — NavRnx: find_next loop over stream with fuel; refinement to List.find? on well-formed record lists, induction over the records.
* **C19 find_next_valid returns the first healthy message valid at the requested time** — NavRnx: same with acceptance predicate.
* **C20 Searching a navigation file always terminates** — NavRnx: false ('M' record, 0 lines): divergence for every fuel; termination proved for files without such lines (_partial).
* **C21 Validity and health rules per system** — NavRnx: total functions; iff statements.
* **C22 Times measured from a reference epoch are exact across day boundaries** — Time: (mjd, sec of day) integers/rationals; algebra.
* **C23 GLONASS reference time lands in the record's week** — Time: modular arithmetic; half-week claim is false: witness (_partial).
* **C24 Kepler's equation is solved to the promised tolerance or the failure is reported** — Kepler: loop over ℝ with Real.sin; residual bound by |sin a - sin b| ≤ |a-b|; convergence by geometric contraction.
* **C25 The computed satellite position lies at the orbit radius** — Kepler: algebra with sin²+cos²=1.
* **C26 Satellite clock correction is the broadcast polynomial plus relativity** — Clock: algebra on the returned value.
* **C27 GLONASS integration terminates, in bounded steps, at the right time** — GLONASS: loop over ℝ time with arbitrary derivative function; step count by Nat.ceil.
* **C28 GLONASS requests outside the validity window are flagged** — GLONASS: branch analysis with explicit state passing.
* **C29 GPS user range accuracy grows with the URA index** — URA: real powers; strict monotonicity.
* **C30 SP3 flags behave as a set of independent bits** — Sp3Flag: BitVec/Nat testBit; induction over ops.
* **C31 An SP3 epoch block is delivered record by record** — Sp3: line-level reader with the stream model.
* **C32 The SP3 reader never writes beyond the caller's vector** — Sp3: negation (ub reachable) + proof under the guard (_partial).
* **C33 SP3 position records decode to metres with the documented flags** — Sp3: line buffer, columns; iff per flag; the orbit-prediction column deviates (witness).
* **C34 GLONASS channel lookup selects the record in force** — Bern: line scanner; refinement to List.find?.
* **C35 Receiver phase-centre query uses the closest antenna match** — Antex: scanner over stream lines; refinement to an independent spec on the list of antenna records (find? for serial, last model match), induction over the records.
* **C36 ANTEX queries do not depend on earlier queries** — Antex: stream reposition at end of header; by definition of seekg on good streams; failbit caveat (_partial).
* **C37 ANTEX validity intervals are closed and open-ended when UNTIL is missing** — Antex: loop with fuel; interval iff; divergence witness (_partial).
* **C38 Requested observables map one-to-one onto header columns** — ObsRnx: set_read_map as nested folds; forall/iff statements by induction.
* **C39 Collected observable values are the requested linear combinations** — ObsRnx: fold over the parts, exact for every well formed field (Spec/ObsExact); false if a missing part precedes a present one (witness); _partial otherwise.
* **C40 Observation fields are decoded into value, LLI and SSI** — ObsRnx: resolve; contamination witness; _partial for blank LLI.
* **C41 Header observation-type lists are read completely and not beyond** — ObsRnx: line consumption; false for multiples of 13 (witness), proved otherwise (_partial).
* **C42 Epoch reading sizes are safe** — ObsRnx: sizes; invariant.
* **C43 Epoch headers are decoded column by column** — ObsRnx: column decoder.
* **C44 The Kalman covariance stays symmetric positive semi-definite** — Kalman: Mathlib matrices, PosSemidef; induction over updates.
* **C45 The observation partials are the derivatives of the modelled range** — Kalman: HasDerivAt of sqrt of sum of squares.
* **C46 The GLONASS state is that of the requested epoch** — GLONASS: false between the 60 s steps (all epochs of one step get one state) and beyond half a day; proved on the steps (_partial).
* **C47 A search for any satellite finds one** — NavRnx: false: proved that the search with PRN -1 never returns a record of a well formed file.
* **C48 Reading an SP3 epoch always returns** — Sp3: fuelled loop; false without an EOF line or with an over-long line (divergence for every fuel), proved when an ending line follows (_partial).
* **C49 Satellite lookups do not depend on earlier lookups** — Bern: induction over the list of lookups; false when the records reach the end of the file (witness) (_partial).
* **C50 must_match_serial makes only exact serial matches count** — Antex: same refinement with must_match_serial; the documented code 1 is false (10 without any match): witness (_partial).
* **C51 Satellite antenna information is that of its own record** — Antex: characterised exactly; a blank SVN takes the text of an earlier satellite (witness) (_partial).
* **C52 Opening an ANTEX file** — Antex: header loop over the stream; induction over header lines, arbitrary bytes by case analysis.
* **C53 A receiver query on any ANTEX file ends** — Antex: fuelled loops over arbitrary bytes; stod failures terminate the process (witness) (_partial).
* **C54 Mixed-system observables are recognised** — Obs: iff by list membership.
* **C55 A navigation file can be read from beginning to end, any number of times** — NavRnx: induction over records with the C16 block theorem; end of file branch.
* **C56 Opening a navigation file** — NavRnx: header loop over the stream, induction over header lines; arbitrary bytes by case analysis; stale-buffer invariant for short lines.
* **C57 Reading an epoch returns exactly its requested satellites** — ObsRnx: induction over satellite lines with the exact C39/C40 line theorems, for every well formed line; the buffer is too small for files with one observation type (witness) (_partial).
* **C58 Observation epochs are read once each, in order, then end of file** — ObsRnx: induction over epochs; end of file branch.
* **C59 The position estimate is the weighted least-squares solution** — Kalman: Woodbury identity, completing the square.
* **C60 Opening an observation file reports what its header says** — ObsRnx: header loop over the stream, induction over header entries; arbitrary bytes by case analysis (no undefined behaviour when the first line has 60 chars); witnesses for the disagreements (_partial).
* **C61 Opening an SP3 file reports what its header says** — Sp3Head: header reader over the stream, induction over satellite, accuracy and comment lines; soundness by inversion of the reader; arbitrary bytes by case analysis; witnesses for the disagreements (_partial).
* **C62 An interpolator can be built from any opened SP3 file** — Sp3Head: the constructor of the interpolator; false of the code, the negation is proved for every opened file (_partial).
* **C63 Messages used for positioning are of the satellite, healthy and in force** — Pp: the vector of messages as a list, find_if with its side effect on status as a recursion, update_msg over find_next_valid and rewind; induction over the requests with the invariant that every cached message was read from the file, is healthy and no two are of the same satellite.
* **C64 The text of an observable shows its terms** — ObsText: printf %f as nearest integer of a million times the coefficient (ties to even) and its digits; induction over the terms, the number has no plus sign and is read back by the model of strtod.
* **C65 The zenith angle of the positioning program is the angle from the vertical** — PpRun: the rotation to north, east, up as written; the rotation keeps lengths, so the arccos argument is in [-1,1]; uniqueness of the angle by injectivity of cos on [0, pi].
* **C66 Troposphere correction and weights are the ones the comments name** — PpRun: the formula over the reals against the formula of the manual (kelvin, squared temperature, vapour pressure factor); explicit bounds with exp and rpow; the weights are constant 1 (_partial).
* **C67 An epoch is processed with exactly the usable satellites** — PpRun: the loop over satellites on top of the model of get_valid_msg (C63) and of stateNclock (C22-C28); induction over the satellites with the invariant of the message vector; rows specified by an inductive relation; more than 30 rows: undefined behaviour.
* **C68 The positioning program makes one filter update per usable epoch and ends at the end of the file** — PpRun: the epoch loop on top of read_next_epoch (C57, C58), C67 and the filter (C44); induction over the epochs (_partial: time step, exit code, no usable satellite, request).
* **C69 Every buffer of an observation reader is freed exactly once** — Life: histories of constructions, moves and destructions over a heap of buffers; invariant (objects hold different live buffers) for programs without moves, counting argument for programs with a move (_partial: the code is false for moves).
* **C70 The positioning program does its work from the command line on** — PpProg: main from argv on, composed of obsOpen, navOpen, atxOpen, the 32 ANTEX queries and ppMain; composition of C60, C56, C52, C37, C51 and C68 (_partial: exit code, request in the source).
* **C71 Results do not depend on whether the library is compiled with DEBUG** — Debug: the functions with an #ifdef DEBUG block that does more than print, with the block, and their callers; equality with the production model for well formed input, the possible differences for arbitrary bytes, witnesses for each (_partial: the property is false).
* **C72 A Bernese SATELLIT file is opened exactly when its lines are those of the format** — Bern: bernOpen = constructor and initialize on a stream; Spec/BernOpen says which line lists are SATELLIT files, independent of streams; iff by following every getline on both sides.
* **C73 Malformed SP3 records are reported, and nothing before them is lost** — Sp3: getNextPosition and getNextEpoch on lines with a first defect; Spec/Sp3Bad lists the defects in terms of columns (Spec/BadField); induction over the good records before the defect is that of C31.
* **C74 Issue of data and signal-in-space accuracy of a Galileo message are those of its record** — Orbit: galIodNav, galSisa on the frame that readNextRecord gives (C17).
* **C75 Unreadable numbers of a navigation record are reported** — Spec/NavBad (BadRecord: the lines up to the first one with a defect); Nav: orbitLines, readBlock up to that line; findLoop. Witnesses: an unreadable date ends the program, a line too short for its columns takes the numbers of the line before it.
* **C76 Broadcast orbits and clocks are accurate in double precision** — Fp (doubles, rounding to nearest, libm with bounded error); OrbitFp: kepler2state, sv_clock and stateNclock with a rounding after every operation; Spec/OrbitFp. Forward error analysis (Lemmas/FpErr): the loop contracts up to an ulp, the true anomaly up to a full turn, absolute errors of every intermediate quantity. Witness beyond 64 rad, where the limit 1e-14 is below the spacing of doubles.
* **C77 Malformed records of a SATELLIT file are reported** — Bern (same model as C34); Spec/BernBad: micro-wave lines with unreadable SVN, lines in force. Induction over the records passed before the malformed one (keeping track of what the array holds); witnesses for what is not noticed: blank channel, line ending before the channel columns, blank SVN followed by other numbers.
* **C78 Observation values and SP3 positions are accurate in double precision** — Model/ReadFp: sat_epoch_collect and get_next_position over doubles (Fp); Spec/ReadFp: AccurateValue, TwoRoundings, SaysInF. Induction over the parts of a combination with the running error bound ((1+u)^(k+2)-1)*sum of absolute terms; the comparison with the missing-value marker is decided correctly for values away from it; flag comparisons decided by monotony of rounding.
* **C79 GLONASS states and clocks are accurate in double precision** — Model/GloFp: glo_state_deriv, the loop, glo_ecef, glo_clock over doubles (Fp); Spec/GloFp. Rounding error of the field, Lipschitz constant of the field outside 12600 km (weights 1 for position, 1/500 for velocity), an a-priori region for 15 minutes of motion, error recursion e -> 1.13 e + 8e-8 per step, integrality of the loop time, monotony of rounding for the branches.
* **C80 Damaged records of an ANTEX file are reported and do no harm to the others** — Spec/AntexBad: a record is known by its first two lines and its last; AtxSays is an inductive specification of what the lines in between deserve. The matching loop over such records by induction (Props/AntexRaw), collect_pco line by line (Props/AntexDamage). An offset that is no number throws out of a noexcept function: the program is terminated (C80_bad_offset_terminates), hence partial.
* **C81 A truncated ANTEX file never yields offsets that are not in it** — The remaining text is a prefix of the lines of the record. getline on a cut line delivers its beginning into an array that keeps the end of the line before; the label columns of that line differ from the expected label, so a cut line passes only if its label is complete. Induction over the frequencies. Partial: cuts after the METH line (before it uninitialised memory is compared), antennas with serial number.
* **C82 Malformed lines of an observation file are reported and do no harm to the other epochs** — Spec/ObsBad lists the defects of header and data lines. strtol, strtod on a defective text fail (Lemmas/BadField), so resolve and the collection loop stop at the defect with the status of the defect, the stream behind the line. The good lines before it are read as in C57 (collectLoop_got). Whole files: induction over the pieces, the state between two calls being the stream position, the vector and a cleared errno.
* **C83 A truncated observation file yields its complete epochs and never reports a cut one as good** — Spec/ObsCut says what is seen of an epoch of which only a beginning is in the file. A proper beginning of the text of an epoch ends in the header line or in a data line (cut_cons, cut_lines); getline on it sets eofbit, so the state after the call is AtEnd (nothing left, eof or good), from which every call returns -1. The lines before are read as in C57; for the cut line, every requested field lies completely in it, and reads as in the whole line, or is missing (resolve_cut). Whole files: induction over the epochs.
* **C84 A truncated navigation file yields its complete records and never a record of which a line is missing** — Spec/NavCut: StartsWithLines, LastNumber, CutStatus. Any bytes: a successful record consumed exactly the lines that skipping it would consume (C16), and getline succeeds only on a line that is there (skipLines_inv). Prefixes: cut_split finds the m complete records and the beginning p of the next on the text alone; C17 for the complete ones (reads_then, induction over the records); the cut one by the line in which the file ends: first line, a middle line (the next getline fails), last line (the numbers read are those standing there, or, beyond its end, those left in the buffer by the line before). After the end: AtEnd, every call returns -1.
* **C85 A truncated SP3 file yields its complete epochs and never a cut one** — Spec/Sp3Cut: EpochStands (on the text alone). Any bytes: inversion of the loop of get_next_epoch (sp3Loop_inv, induction on its rounds) shows that status 0 or -1 is reached only over complete lines and a '*' or EOF. Prefixes: epoch_split finds the complete epochs, C31 delivers them, line_prefix / no_end show that no end of epoch stands in the rest. Header: what the constructor reads does not depend on what is appended to a file after whose header something stands (sp3Open_ext), so a prefix of a header leaves no good stream.
* **C86 The interpolator loads the first epochs of the file, one series per satellite** — Model/Interp: initialize() for an object with any slots, the value of the uninitialised variable j a parameter. Spec/Interp: Fresh (slots as the constructor is meant to leave them), Holds (times in order; distinct satellites, one slot each = filter of all records), Aligned. Invariant SlotInv over the records (induction), then over the epochs delivered by C31; false parts as theorems.
* **C87 The orbit table program lists the satellite's position and clock from the message in force** — Model/NavTab: msg_is_ok, the minute loop and main of test_navrnx.cpp, the table as a list of lines. Spec/NavTab: messagesOf, Expired, TabRun (an inductive relation between messages and lines), TableOf, Gapless. Induction over the loop with C18 (next message), C25/C26 (position and clock) and C37 (ANTEX query); false parts as theorems.
* **C88 A satellite query on a damaged ANTEX file depends only on the records that name the satellite** — Spec/AntexSatBad: SatNamed (what a TYPE / SERIAL NO line names), ValidLines and SpanAt (inductive: the interval a run of lines states), SatRaw (record, satellite, interval). The validity loop is proved to compute the interval by induction on ValidLines; the search by induction on the records. Records without frequencies make the loop run on into the next record (an interval is borrowed) or for ever (end of file): both proved.
* **C89 A truncated SATELLIT file answers from its complete records and invents nothing** — Spec/BernCut: Unterminated (what follows the last newline), SaysOther (what a cut line still says), BernHeader.needed. Header: iff for every text with an unterminated last line, following each getline (AtCut), then the cut prefix is matched line by line. Records: induction over the complete records up to the unterminated line, whose processing is then evaluated with the bytes of the previous line still in the array.
* **C90 A file whose header has no end is never opened** — Spec/HeadEnd: TextLine (the lines of a text, by its newlines), HeaderEnds, NotByChance (the array or a first line of 60 chars). Invariant of the readers: the stream stands at the beginning of a line of the text and the array does not show the label (a short line leaves the columns as they were); with the totality theorems of C52, C56 and C60 the only outcome left is the exception. Cuts: the lines of a beginning of a text are beginnings of its lines.
* **C91 The check programs report how many epochs or data blocks a file has** — Model/Checks: the mains with their counters, last status and printed values. SP3: induction over the epochs from C61_file (the call that delivers the last epoch also reports the end). Observations: induction with C57_exact and C58_eof; the map of requests that can be formed from C38_skip_missing. Navigation: induction over the records with C17_record and C55_read_eof.
* **C92 The listings of the navigation check programs** — Model/NavList: the two searches and the loop over the epochs as recursive functions; Spec/NavList: FirstAfter, LatestBefore, ListsNext, from the record list. Induction over the fuel of the loop, with the searches described by the split of the list at the message they stop at (C18 style), positions by stateNclock_kepler. Exit codes by induction over the loops.
* **C93 The listing of a GLONASS satellite covers a day** — Model/GloList: the search loops and the loop over the epochs, with the iteration counter as structural argument. Spec/GloList: Past, Near, FirstNotPast, ListsNear (a line for exactly those epochs of the grid at which the first message that is not past is near). Induction over the iterations; the position by C27, C28. The bound of the epochs by counting.
* **C94 The frequency channel listing answers every question from the file** — Model/BernProg: main with its two loops; the local variables prn and frq are passed from call to call. Spec/BernProg: BernTells (the first record in force, or none). Induction over the questions with C34, C49, C77, C89 for a lookup.
* **C95 An impossible calendar date in a file is an error, not the end of the program** — Model/Sp3Date: get_next_epoch with the library's constructor of the date as a parameter that may throw, and the loop of a caller. sp3NextEpoch_agrees ties it to Model/Sp3. Headers and observation epochs: the models of C61, C60, C57.
* **C96 An SP3 file can be read again and again** — Spec/Sp3Again: a caller running any list of next/rewind calls on the modelled stream (Model/Sp3Date, sp3Rewind of Model/Sp3Head), and the answers it should get (Answers). Induction over the history with the invariant StandsAt.
* **C97 Offsets an ANTEX query returns stand in the record of the antenna asked for** — Spec/AntexOffsets: what it is for a text to begin with a real number (RealBegins), and for consecutive lines to give frequencies and offsets (OffsetLines, RecordGives); no model function occurs in it. Soundness read off the returned value: inversion of the modelled loops (pcoLoop_text, matchLoop_text, satLoop_at).
* **C98 Whatever a SATELLIT lookup returns stands in the file** — Spec/BernSound: what a line says (InForceLine, BadNumberLine, IntOrZero) and what may be answered from a list of lines (BernAnswerOf), without the model; C98_determined: on success BernAnswerOf leaves no choice. Inversion of one line (bernLine_text), induction over the lines (bernLoop_text).
* **C99 Whatever read_next_record returns is what the lines of the record say** — Spec/NavSound: when a text begins with a number (NumberIn, NoNumberIn) and what may come of reading lines (RecordSays, RecordOutcome), without the model. Inversion: strtod on arbitrary text (Lemmas/RealText: strtod_text, DecBegins.unique), the numbers of a line (char2double_text), the lines of a record (orbitLines_text), the record. C99_determined: RecordOutcome is functional where no number is odd.
* **C100 Whatever get_next_epoch of the SP3 reader returns is what the lines of the epoch say** — Spec/Sp3Sound: when a text begins with a number and what may come of reading lines (HeadGives, HeadFails, PosGives, PosFails, EpochOutcome), without the model. Inversion: strtol and strtod on arbitrary text, the header (header_text), a position line (position_text), the lines by induction (sp3Loop_text). C100_determined: EpochOutcome is functional, flags apart, where no number is odd.
* **C101 Whatever read_next_epoch of the observation reader returns is what the lines of the epoch say** — Spec/ObsLines: what a field, a line and a list of lines give or why they are refused (FieldGives, FieldFails, LinesGive, LineFails, DataOutcome), without the model. Inversion of resolve (rawResolve_text), of an observable, of a line (satEpochCollect_text), of the lines by induction (collectLoop_text). C101_determined: DataOutcome is functional where no requested field is odd. C101_value: observables of one part.
* **C102 Whatever an opened SP3 file reports is what the lines of its header say** — Spec/Sp3HeadSound: Sp3HeaderGives ties every member to columns of the four lines concerned, provided the line reaches the column (beyond it the code reads stale bytes); LongBegins and NumberIn as in C100, NumberOrZero where the code does not look whether strtod converted anything. Inversion of the readers of the first two lines (sp3First_text, sp3Second_text) and of the middle part (sp3HeadMid_text) on top of the structure theorem of C61. C102_determined: the lines determine the members.
* **C103 A navigation file is opened exactly when its header says what it is** — Spec/NavHeadSound: NavHeadGives says what the object must rest on, without the model. Invariant of the loop over the header: the label columns of the buffer never show END OF HEADER unless the line just read has it (atxLabel_stale), hence the loop stops at the first labelled line or after 1000 lines (navSkip_exact); inversion of the first line. C103_opened, C103_opened_iff, C103_determined.
* **C104 An observation file is opened exactly when every header line says something, and the object repeats it** — Spec/ObsHeadSound: ObsEntry, Gives, BodyGives, ObsGiven say what the object must rest on. Inversion of every branch of the header loop (obsTypesLoop_text, three_exact, clock_exact, obsHeadLine_text), induction over the loop (obsHeadLoop_text), the converse for every entry that says something (obsHeadLine_complete, obsHeadLoop_complete), uniqueness by exclusive labels. C104_opened, C104_opened_iff, C104_determined.
* **C105 Whatever satellite information an ANTEX query returns stands in the file** — Spec/AntexInfo: SvnOn, CosparOn, BlankColumns. Inversion of resolve_satellite_antenna_line on a line of any text (resolve_info), and an induction over the search that keeps where the values left in the object stand (LeftBy, satLoop_info). C105_info, C105_own, C105_pco.
* **C106 An ANTEX file is opened exactly when its header says what it must, and the object stands behind it** — Spec/AntexHeadSound: AtxHeadGives. The skip loop is that of the navigation reader (atxSkip_nav), so navSkip_exact applies; the version text is cut at column 15. C106_opened, C106_opened_iff, C106_determined.
* **C107 A SATELLIT file is opened exactly when its header is there, and the object stands on the records** — Spec/BernHeadSound: BernHead, BernStands. Induction over the search for PART 2, with and without such a line (bernSkip_lines, bernSkip_none), then case by case over the lines that follow. C107_opened, C107_opened_iff, C107_determined, C107_headings_last.
* **C108 An observation epoch header is accepted for what it says and refused for the defect it shows, whatever the line looks like** — Spec/ObsHeadText: DateIn, HeaderGives, HeaderFails (line only, no buffer). Induction over the numbers of the date (epochInts_text) and case analysis of the rest (resolveEpoch_text); the specification excludes overlaps (HeaderGives.unique, HeaderFails.unique, HeaderGives.not_fails), which turns the classification into equivalences: C108_refused, C108_accepted, C108_complete.
* **C109 A call that reads an SP3 epoch comes back, is undefined, runs for ever or ends the process exactly when the lines of the epoch say so** — Spec/Sp3Fate: EpochFate, built on the meaning of lines of C100. Induction over the lines (sp3Loop_fate), case analysis of the header (header_fate) and of the end (sp3Loop_close) give one of the fates (epoch_fate); the fates exclude each other (C109_determined), which turns this into equivalences: C109_fate.
* **C110 A call that reads a navigation record comes back, is undefined or ends the process exactly when the lines of the record say so** — Spec/NavFate: RecordFate, built on the meaning of lines of C99. Totality of the fields and lines by induction (char2double_total_text, orbitLines_total_text, readBlock_fate), of the time of ephemeris by the exact domain of the conversions (castInt_fate, castLong_fate, toe_fate); the fates exclude each other (C110_determined), which gives the equivalences C110_fate.
* **C111 A call that reads an observation epoch comes back, is undefined or ends the process exactly when the lines and the size of the vector say so** — Spec/ObsFate: DataFate and ObsFate, built on the meaning of header lines (C108) and data lines (C101). Induction over the data lines with the number of elements left (collectLoop_fate); end of the file inside the epoch by collectLoop_ended; the fates exclude each other (C111_determined), which gives the equivalences C111_fate; C111_room is the sufficient condition.
* **C112 A search for a satellite in a navigation file of arbitrary records ends where and how the records say** — Spec/NavFind: BlockIs says what a record is, SearchFate how the search passes over the records, SearchDelivers what the caller sees. record_kind combines C99 and C110 into the exact result of reading one record; induction over the records (findLoop_blocks); C112_determined: no choice; C112_total and C112_search: the search does what SearchFate says.
* **C113 A search for the message in force in a navigation file of arbitrary records ends where and how the records say** — Spec/NavFindValid: VerdictOf says what a readable message of the satellite is worth at the epoch, from the text of its lines; ValidFate how the search passes over the records. accept_verdict: acceptValid gives that verdict (the numbers in the frame are those of the text, read_toe for the GLONASS time); induction over the records (findLoop_valid_blocks); C113_determined: no choice; C113_total and C113_search: the search does what ValidFate says.
* **C114 A navigation reader is a cursor over the records of its file, whatever calls are made on it** — Spec/NavCursor: CallGives is the cursor (a transition system over positions in the list of records), CursorRun its runs, navCalls the calls on the modelled reader, AnswerSeen what the caller sees. Refinement: AtPos relates a position to a state of the stream; call_done shows that every call of the reader is answered as the cursor allows and keeps the relation (payload size, errno, good stream), from C99, C110, C112, C113; induction over the series; C114_determined: the cursor has no choice.
* **C115 An SP3 file is read epoch by epoch up to the first line that cannot be read, whatever is in it** — Spec/Sp3Series: Sp3EpochSays is the answer of a call as a relation between the lines of the epoch and what the caller sees, Sp3FileSays the series of answers of a file. epoch_course: one call, from C100 and C109 with the date (dated_inv) and the end of the loop (loop_tail); C115_file: induction over the epochs, the stream stands at the next header and errno is unchanged after status 0; C115_determined: the answers are determined, flags apart; C115_answers: what the file says is what is seen.
* **C116 An observation file is read epoch by epoch up to the first line that cannot be read, whatever is in it** — Spec/ObsSeries: ObsFileSays is the series of answers as a relation between the lines of the file and what the caller sees, from what header lines (C108) and data lines (C101) give. collectLoop_course: the loop over the data lines, for any number announced and any lines, with the file as it goes on; headLine_course: the first line. C116_file: induction over the calls; after status 0 the stream stands behind the announced lines and errno is 0. C116_determined: the answers are determined, up to the values a refused line leaves in the element behind the satellites read. C116_answers: what the file says is what is seen. C116_text: every text consists of lines of which the last may have no newline.
* **C117 A caller who keeps reading an observation file after defects gets every epoch behind them, whatever the defects are** — Spec/ObsGoOn: ObsGoesOn is the series of answers to a caller that never stops, in the words of C116. C117_calls: induction over the calls from collectLoop_course and headLine_course (C116), resolveEpoch_errno (a refused header leaves errno at 0) and readNextEpoch_atEnd. C117_determined: by ObsStep, one call for a vector of a given number of elements, unique by C111 and the uniqueness of C101 and C108. C82 has more about the values for files of well formed pieces.

## Trusted base

* **Lean's kernel** (Lean 4.33.0) and Mathlib as installed. Every theorem named in MANIFEST.json is accepted by the
  kernel; no axiom is added, no proof is left open, nothing relies on compiled evaluation.
* **Axioms.** `#print axioms` on the theorems shows only subsets of `propext`, `Classical.choice`, `Quot.sound`
  (the three standard axioms; `Classical.choice` enters through Mathlib's reals, `omega`, `simp`, `by_cases`).
* **The model's faithfulness** to /repo: the definitions in `lean/Verif/Model/*.lean` were transcribed by reading; each
  cites file and lines. The C++ was not executed.
* **What the specification files say** (`lean/Verif/Spec/*.lean`): the description of well formed files, numerals,
  orbit formulas, filters. They use no function of the model except the value types.

### Reading the model

* `Res α` is the outcome of a C++ expression: `ok`, `throw` (exception), `ub` (undefined behaviour: out-of-range read or
  write, reading an indeterminate value, overflowing conversion), `terminate` (exception leaving a `noexcept` function), `diverge` (loop fuel
  exhausted: only used with "for every fuel" or "for some fuel" statements).  `Lemmas/Fuel.lean` proves (`fuel_findNext`, `fuel_findNextValid`, `fuel_getNextEpoch`, `fuel_pcoReceiver`,
  `fuel_pcoSatellite`, `fuel_satInfo`, `fuel_stateNclock`, `fuel_ppProgram`) that every other result is independent of the fuel, so the bound is not part of the
  model's meaning.
* `noexcept` functions turn `throw` into `terminate`.
* Local arrays such as `char line[85]` start with arbitrary bytes (`junk` parameters): a theorem quantified over `junk`
  holds whatever was on the stack; reading such bytes as data is visible in the statement (witness theorems).
* `errno` is an explicit argument where the code tests it without having cleared it before.

### Assumptions about the outside

* `std::ifstream` behaves as in `Model/Stream.lean` on a regular file: no device errors (badbit), default locale, text
  mode without newline translation, files opened successfully (failure to open is a separate branch only where the code tests it).
* `strtol`, `strtod`, `std::stoi/stod`, `strncmp`, `memcpy`, `memset` as in `Model/Num.lean`, `Model/Base.lean` (C locale;
  `strtod` with its whole input language — decimal, hexadecimal `0x…p…`, `inf`/`infinity`, `nan`/`nan(…)` — and `errno` = ERANGE
  on overflow and underflow; rounding of decimals to binary is not modelled; the infinities and NaN, which have no
  counterpart among the rationals, are represented by ±10^400, larger than any double: casts of them to integers are undefined in
  the model as in C++, and no theorem about delivered values lets them in, since those require numerals that fit).
* `double` is modelled by exact rationals (readers) or reals (orbits, filter), without rounding, except in C76, C78 and C79 (`Model/Fp.lean`, `Model/OrbitFp.lean`, `Model/ReadFp.lean`, `Model/GloFp.lean`): there
  every operation is rounded to a nearest double (any tie rule, no fused multiply-add, no extended precision; `sqrt` correctly rounded; sin, cos with error at most
  2^-53, atan2 at most 2^-51 — glibc claims less than one ulp); overflow does not occur because all values are bounded in the theorems. `Fp.ideal` shows that
  such an arithmetic exists. Arithmetic on infinities and NaN is outside the model. Where conversion `double → int` overflows the model says `ub`.
* ggdatetime (external library): `datetime` is (mjd, seconds of day); its text parser (`strptime_*`), calendar-to-mjd
  conversion are parameters of the model; theorems that need them state what is required of them.
* `char` is signed 8 bit where its numeric value is used; `int` 32 bit, `long` 64 bit.

### Modelled

satsys (letters, bands, frequencies, attributes) · gnssobs, gnssobsrv (codes, observables, linear combinations, mixed, equality)
· satellite (text) · nvarstr, rinex.hpp · antenna (receiver, satellite) · navrnx (header, record reader, skipping, both searches, rewind,
toe/toc, health, fit interval) · gpsnav/galnav/bdsnav/glonav (orbit, clock, URA, SISA, IOD) · sp3c (flags, header, epoch reader, interpolator's construction, filling and initialize())
· bern_utils (opening, channel lookup) · antex (opening, receiver and satellite search, PCO collection, validity interval)
· obsrnx (header, read map, epoch reader, vector and buffer sizes, rewind) · gauss_newton.hpp (extended Kalman filter) · test/pp_rnx.cpp (all of it, from the command line on, but printing; `car2ell` of ggeodesy is a parameter; `assert` is active, i.e. `NDEBUG` not defined) · test/test_navrnx.cpp (all but printing) · test/test_sp3.cpp, test/test_obsrnx.cpp (all but the listing of header members), test/test_navrnx_G.cpp, _E.cpp, _C.cpp (the condition `cur_dt<=cur_dt.add(1 day)` is taken as always true) test/test_bern_SATELLIT.cpp, and test/test_navrnx_R.cpp (all but printing, for the constants `utc2gps` and `pz902wgs` as they are in the file, false).
All in the production configuration (`DEBUG` not defined, as in `Makefile.am.production`).  `Model/Debug.lean` models the other configuration (`-DDEBUG`
without `NDEBUG`, as in `src/Makefile.am` and `test/Makefile.am`): every live `#ifdef DEBUG` block that does more than print, with `assert` active (a failing one is
`terminate`), in navrnx.cpp, navrnx.hpp and obsrnx.cpp.  C71 relates the two.

### Not modelled

Blocks under `#ifdef DEBUG` that only print (or stand in commented-out code), text written to std::cout/std::cerr, moves and destructors of all classes but `ObservationRnx`, `print_members`,
`AntennaPco::dummy_print`, code inside comments (inertial GLONASS algorithm, earlier versions of the GPS/Galileo/BeiDou orbit routines),
`navcmp.cpp` (not compiled), the programs in `test/` except where named in a property, `var/` (benchmarks), build files.
Eigen's numerical inversion and rounding in gauss_newton.hpp.

## Code and property disagree

Properties are stated as a user would expect them. Where the unchanged code violates one, the violation is a theorem (a
witness, or "for every ..." when the violation is systematic) and the remaining part is proved under the suffix `_partial`.

* **Navigation RINEX.** A line starting with 'M' makes both searches loop for ever, the iteration counter is never
  incremented (C20). After the last record of a file without final newline `tellg` gives -1, and restoring that
  position goes to the end of header. Byte 0xFF counts as end of file. Lines shorter than the columns read keep bytes of earlier lines
  (or of the uninitialised array). GPS fit interval 0 is never valid. A blank PRN reads the year as PRN. `find_next_valid` on
  SBAS/QZSS/IRNSS terminates the process; a record cut within its last line is accepted with a truncated number and numbers of the line before (C84); PRN -1 ("any") never matches (C47). An unreadable record of
  another satellite ends `find_next` (C112); a message that lies ahead of the epoch ends `find_next_valid` even if a later record would be in force (C113).
* **GLONASS listing program.** `test_navrnx_R` lists less than a day, uses messages marked unhealthy, and runs for ever when the file has no message of the satellite that is not past (C93).
* **Orbits.** `sv_clock` without given anomaly evaluates it at t-toc instead of t-toe (C26). GLONASS reference time is a week off at week rollover (C23);
  integration moves in whole 60 s steps, so it overshoots, and is frozen more than half a day away (C46); the state is overwritten although the
  status is -1. `gps_ura` treats the RINEX value in metres as an index. BeiDou geostationary satellites get no special treatment.
  Beyond 64 rad of mean anomaly the limit 1e-14 of the iteration is below the spacing of doubles: it can alternate for ever and status 1 is returned (C76).
* **Observables.** Equality is not symmetric with repeated parts (C04).
* **Fixed-width numbers.** A blank column takes the number of its neighbour (C09).
* **Antennas.** Missing radome not replaced for texts of 20 chars and more (C11); short serials never compare equal
  (C12); satellite antenna comparison is inverted (C14).
* **SP3.** Writing past the caller's vector (C32); predicted orbits never flagged (column tested for 'E', C33); the agency loses its last column (C61); a header whose seconds, second of week, interval or fraction of day is no number is opened with 0 in its place (C102); the second line of accuracies is never looked at (C61); no interpolator can be constructed: its vector is reserved, not resized (C62), and its initialize() reads an uninitialised variable, drops the last epoch and shifts the series of satellites that are missing in an epoch (C86); short lines take flags from stale bytes; a file that ends within an epoch makes the reader loop for ever (C48, C85), and one that ends right after its header is opened but gives only errors, also after rewind (C85);
  without EOF line, or with a line over 127 chars, the reader loops for ever (C48); a left-over errno == ERANGE makes the readers fail.
  After one call past the end of a file that ends in a newline, rewind() does not bring the file back: every later call returns 1 (C96).
* **Bernese SATELLIT.** Only the first 1000 records are searched (C34); a blank channel is channel 0, a short record gets the channel of the record before it, a blank SVN the next number (C77); a record cut by the end of the file is completed with the bytes of the previous one, so that an SVN not in the file can be answered (C89); a failed lookup at end of file makes all later ones fail (C49, C94)
  (C49).
* **ANTEX.** No antenna in the file: uninitialised status is read (C35); the last model match is used; SVN and COSPAR of an earlier
  satellite are kept when blank (C51); truncated record: infinite loop (C37); over-long line spoils the object (C36); bad numbers terminate the process (C53);
  status 10 without any match (C50); a satellite record without frequencies takes its interval of validity from the next record (C88);
  a record that has lost its frequencies is answered with status 0 and the offsets of the next record (C97).
* **Observation RINEX.** Loss-of-lock digit read as further decimals (C40); a value after a missing part is added to -999.99 (C39); number of
  types a multiple of 13 refused or the next line swallowed (C41); more than 80 satellites overflow (C42); malformed epoch header: out-of-range reads
  (C43); buffer too small with at most one type (C57); last line without newline gives -1 although the epoch was read (C58); a file ending between the two digits of a satellite number delivers another satellite (C83); header: names cut at the first blank,
  radome lost, unknown system letter or file ending after the types terminates (C60, C90); a clock line without a number counts as not applied (C104). Headers: what the uninitialised line array holds counts as the label of a short first line (C90). Event epochs (flag > 1) are not treated specially.
* **Dates.** A date that is not a day of the calendar ends the program when the library refuses it: SP3 header and epochs, observation epochs,
  navigation records, and observation headers unless the exception is `std::invalid_argument` (C95, C75). `Model/Sp3` (`getNextEpoch`) keeps the
  calendar components and leaves the refusal out; `Model/Sp3Date` has it, `sp3NextEpoch_agrees` relates the two.
* **Kalman filter.** Without weights no measurement noise is added: singular for five or more satellites (C44); the Jacobian is wrong for coef other than 1
  (C45). `test/pp_rnx.cpp` passes the second of day as time step (C68). `test/test_navrnx.cpp` overruns its array for GLONASS, needs the "optional" ANTEX file and uses messages that are not yet in force (C87). `test_obsrnx` and `test_navrnx_G/E/C/R` report one epoch or block too many, `test_sp3` exits with 0 on damaged files (C91). `test_navrnx_G/E/C` compute every line from the message that is still to come, never exit with 0 and hang when there are fewer than two messages (C92).
* **Positioning program.** The request mixes a GLONASS with a GPS code, so the program returns 100 for every file; a complete run ends with -1; an epoch without usable
  satellite aborts; a file without epochs reads an unassigned time (C68); more than 30 usable satellites write behind the arrays (C67); the wet delay is lost and the weights are 1 (C66);
  a satellite more than 0.2 rad below the horizon ends the program by an uncaught exception (C65).
* **DEBUG build.** An ephemeris time with a fraction of a second aborts; a file without final newline gives status 10 where the production build gives -1; more than
  half a week from the ephemeris no position (production computes one); half a week from the clock reference -1 although the position is written; an epoch with more
  lines than slots, or with an invalid date, aborts (C71).

## Mutation testing

`seeded/LOG.jsonl`: one line per edit of the model made in a scratch copy, with the theorems that stopped proving. Edits that survived led to the
theorems named under `theorems_tightened`; each was rebuilt afterwards and is killed.
