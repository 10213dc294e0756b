import json
P=[json.loads(l) for l in open('/verif/properties.jsonl')]
plan={
"C01":"SatSys: enum + two total functions, `Res` outcome for the throw; proved by case analysis over the enum and all chars.",
"C02":"SatSys: tables as association lists (std::map), lookup = `.at`; proof by case split on the finite table, all other ints by omega.",
"C03":"Obs: parser/formatter over char lists; round-trip theorems in both directions, error branches characterised as iff.",
"C04":"Obs: model of operator== (size test + membership). Symmetry is false of the code: negation by witness; equivalence/permutation proved for observables without repeated parts (_partial).",
"C05":"Obs: fold over parts in Res; sum spec by List.sum; iff for termination; permutation invariance.",
"C06":"Satellite: decimal printing of Int (std::to_string) modelled with Nat.toDigits; injectivity via toDigits injectivity.",
"C07":"Str: the three functions on (buffer, stop); independent spec with dropWhile/takeWhile on the considered prefix.",
"C08":"Str: in-place update of a buffer up to NUL; spec = map on prefix.",
"C09":"Str: strtod modelled concretely (decimal grammar); loop of __char2double__; independence is false in general (blank field): negation + proof for lines whose fields are right justified non-blank and which end in a delimiter (_partial).",
"C10":"Antenna: 41-byte buffer state machine, ops = ctor + set_serial list; invariant by induction over the ops list.",
"C11":"Antenna: false for >=20 char texts with blank radome: negation; proved for shorter texts / texts with radome (_partial).",
"C12":"Antenna: false for serials shorter than 20: negation; proved for serials of exactly >= 20 chars, and has_serial iff (_partial).",
"C13":"Antenna: strncmp model, relation theorems over API-reachable antennas with arbitrary garbage.",
"C14":"SatAntenna: strncmp returned as bool: the negation is proved (result is exactly inverted).",
"C15":"rinex.hpp: integer function; full statement by omega.",
"C16":"NavRnx: stream model (bytes, pos, eof/fail bits); consumption counted in lines; induction on lines.",
"C17":"NavRnx: payload writes as a trace; bounds by case analysis per system.",
"C18":"NavRnx: find_next loop over stream with fuel; refinement to List.find? on well-formed record lists, induction over the records.",
"C19":"NavRnx: same with acceptance predicate.",
"C20":"NavRnx: false ('M' record, 0 lines): divergence for every fuel; termination proved for files without such lines (_partial).",
"C21":"NavRnx: total functions; iff statements.",
"C22":"Time: (mjd, sec of day) integers/rationals; algebra.",
"C23":"Time: modular arithmetic; half-week claim is false: witness (_partial).",
"C24":"Kepler: loop over ℝ with Real.sin; residual bound by |sin a - sin b| ≤ |a-b|; convergence by geometric contraction.",
"C25":"Kepler: algebra with sin²+cos²=1.",
"C26":"Clock: algebra on the returned value.",
"C27":"GLONASS: loop over ℝ time with arbitrary derivative function; step count by Nat.ceil.",
"C28":"GLONASS: branch analysis with explicit state passing.",
"C29":"URA: real powers; strict monotonicity.",
"C30":"Sp3Flag: BitVec/Nat testBit; induction over ops.",
"C31":"Sp3: line-level reader with the stream model.",
"C32":"Sp3: negation (ub reachable) + proof under the guard (_partial).",
"C33":"Sp3: line buffer, columns; iff per flag; the orbit-prediction column deviates (witness).",
"C34":"Bern: line scanner; refinement to List.find?.",
"C35":"Antex: scanner over stream lines; refinement to an independent spec on the list of antenna records (find? for serial, last model match), induction over the records.",
"C36":"Antex: stream reposition at end of header; by definition of seekg on good streams; failbit caveat (_partial).",
"C37":"Antex: loop with fuel; interval iff; divergence witness (_partial).",
"C38":"ObsRnx: set_read_map as nested folds; forall/iff statements by induction.",
"C39":"ObsRnx: fold over the parts, exact for every well formed field (Spec/ObsExact); false if a missing part precedes a present one (witness); _partial otherwise.",
"C40":"ObsRnx: resolve; contamination witness; _partial for blank LLI.",
"C41":"ObsRnx: line consumption; false for multiples of 13 (witness), proved otherwise (_partial).",
"C42":"ObsRnx: sizes; invariant.",
"C43":"ObsRnx: column decoder.",
"C44":"Kalman: Mathlib matrices, PosSemidef; induction over updates.",
"C46":"GLONASS: false between the 60 s steps (all epochs of one step get one state) and beyond half a day; proved on the steps (_partial).",
"C48":"Sp3: fuelled loop; false without an EOF line or with an over-long line (divergence for every fuel), proved when an ending line follows (_partial).",
"C47":"NavRnx: false: proved that the search with PRN -1 never returns a record of a well formed file.",
"C49":"Bern: induction over the list of lookups; false when the records reach the end of the file (witness) (_partial).",
"C50":"Antex: same refinement with must_match_serial; the documented code 1 is false (10 without any match): witness (_partial).",
"C51":"Antex: characterised exactly; a blank SVN takes the text of an earlier satellite (witness) (_partial).",
"C52":"Antex: header loop over the stream; induction over header lines, arbitrary bytes by case analysis.",
"C53":"Antex: fuelled loops over arbitrary bytes; stod failures terminate the process (witness) (_partial).",
"C54":"Obs: iff by list membership.",
"C55":"NavRnx: induction over records with the C16 block theorem; end of file branch.",
"C56":"NavRnx: header loop over the stream, induction over header lines; arbitrary bytes by case analysis; stale-buffer invariant for short lines.",
"C57":"ObsRnx: induction over satellite lines with the exact C39/C40 line theorems, for every well formed line; the buffer is too small for files with one observation type (witness) (_partial).",
"C58":"ObsRnx: induction over epochs; end of file branch.",
"C59":"Kalman: Woodbury identity, completing the square.",
"C60":"ObsRnx: header loop over the stream, induction over header entries; arbitrary bytes by case analysis (no undefined behaviour when the first line has 60 chars); witnesses for the disagreements (_partial).",
"C61":"Sp3Head: header reader over the stream, induction over satellite, accuracy and comment lines; soundness by inversion of the reader; arbitrary bytes by case analysis; witnesses for the disagreements (_partial).",
"C62":"Sp3Head: the constructor of the interpolator; false of the code, the negation is proved for every opened file (_partial).",
"C63":"Pp: the vector of messages as a list, find_if with its side effect on status as a recursion, update_msg over find_next_valid and rewind; induction over the requests with the invariant that every cached message was read from the file, is healthy and no two are of the same satellite.",
"C64":"ObsText: printf %f as nearest integer of a million times the coefficient (ties to even) and its digits; induction over the terms, the number has no plus sign and is read back by the model of strtod.",
"C65":"PpRun: the rotation to north, east, up as written; the rotation keeps lengths, so the arccos argument is in [-1,1]; uniqueness of the angle by injectivity of cos on [0, pi].",
"C66":"PpRun: the formula over the reals against the formula of the manual (kelvin, squared temperature, vapour pressure factor); explicit bounds with exp and rpow; the weights are constant 1 (_partial).",
"C67":"PpRun: the loop over satellites on top of the model of get_valid_msg (C63) and of stateNclock (C22-C28); induction over the satellites with the invariant of the message vector; rows specified by an inductive relation; more than 30 rows: undefined behaviour.",
"C68":"PpRun: the epoch loop on top of read_next_epoch (C57, C58), C67 and the filter (C44); induction over the epochs (_partial: time step, exit code, no usable satellite, request).",
"C69":"Life: histories of constructions, moves and destructions over a heap of buffers; invariant (objects hold different live buffers) for programs without moves, counting argument for programs with a move (_partial: the code is false for moves).",
"C70":"PpProg: main from argv on, composed of obsOpen, navOpen, atxOpen, the 32 ANTEX queries and ppMain; composition of C60, C56, C52, C37, C51 and C68 (_partial: exit code, request in the source).",
"C71":"Debug: the functions with an #ifdef DEBUG block that does more than print, with the block, and their callers; equality with the production model for well formed input, the possible differences for arbitrary bytes, witnesses for each (_partial: the property is false).",
"C72":"Bern: bernOpen = constructor and initialize on a stream; Spec/BernOpen says which line lists are SATELLIT files, independent of streams; iff by following every getline on both sides.",
"C73":"Sp3: getNextPosition and getNextEpoch on lines with a first defect; Spec/Sp3Bad lists the defects in terms of columns (Spec/BadField); induction over the good records before the defect is that of C31.",
"C74":"Orbit: galIodNav, galSisa on the frame that readNextRecord gives (C17).",
"C75":"Spec/NavBad (BadRecord: the lines up to the first one with a defect); Nav: orbitLines, readBlock up to that line; findLoop. Witnesses: an unreadable date ends the program, a line too short for its columns takes the numbers of the line before it.",
"C76":"Fp (doubles, rounding to nearest, libm with bounded error); OrbitFp: kepler2state, sv_clock and stateNclock with a rounding after every operation; Spec/OrbitFp. Forward error analysis (Lemmas/FpErr): the loop contracts up to an ulp, the true anomaly up to a full turn, absolute errors of every intermediate quantity. Witness beyond 64 rad, where the limit 1e-14 is below the spacing of doubles.",
"C77":"Bern (same model as C34); Spec/BernBad: micro-wave lines with unreadable SVN, lines in force. Induction over the records passed before the malformed one (keeping track of what the array holds); witnesses for what is not noticed: blank channel, line ending before the channel columns, blank SVN followed by other numbers.",
"C78":"Model/ReadFp: sat_epoch_collect and get_next_position over doubles (Fp); Spec/ReadFp: AccurateValue, TwoRoundings, SaysInF. Induction over the parts of a combination with the running error bound ((1+u)^(k+2)-1)*sum of absolute terms; the comparison with the missing-value marker is decided correctly for values away from it; flag comparisons decided by monotony of rounding.",
"C79":"Model/GloFp: glo_state_deriv, the loop, glo_ecef, glo_clock over doubles (Fp); Spec/GloFp. Rounding error of the field, Lipschitz constant of the field outside 12600 km (weights 1 for position, 1/500 for velocity), an a-priori region for 15 minutes of motion, error recursion e -> 1.13 e + 8e-8 per step, integrality of the loop time, monotony of rounding for the branches.",
"C80":"Spec/AntexBad: a record is known by its first two lines and its last; AtxSays is an inductive specification of what the lines in between deserve. The matching loop over such records by induction (Props/AntexRaw), collect_pco line by line (Props/AntexDamage). An offset that is no number throws out of a noexcept function: the program is terminated (C80_bad_offset_terminates), hence partial.",
"C81":"The remaining text is a prefix of the lines of the record. getline on a cut line delivers its beginning into an array that keeps the end of the line before; the label columns of that line differ from the expected label, so a cut line passes only if its label is complete. Induction over the frequencies. Partial: cuts after the METH line (before it uninitialised memory is compared), antennas with serial number.",
"C82":"Spec/ObsBad lists the defects of header and data lines. strtol, strtod on a defective text fail (Lemmas/BadField), so resolve and the collection loop stop at the defect with the status of the defect, the stream behind the line. The good lines before it are read as in C57 (collectLoop_got). Whole files: induction over the pieces, the state between two calls being the stream position, the vector and a cleared errno.",
"C83":"Spec/ObsCut says what is seen of an epoch of which only a beginning is in the file. A proper beginning of the text of an epoch ends in the header line or in a data line (cut_cons, cut_lines); getline on it sets eofbit, so the state after the call is AtEnd (nothing left, eof or good), from which every call returns -1. The lines before are read as in C57; for the cut line, every requested field lies completely in it, and reads as in the whole line, or is missing (resolve_cut). Whole files: induction over the epochs.",
"C84":"Spec/NavCut: StartsWithLines, LastNumber, CutStatus. Any bytes: a successful record consumed exactly the lines that skipping it would consume (C16), and getline succeeds only on a line that is there (skipLines_inv). Prefixes: cut_split finds the m complete records and the beginning p of the next on the text alone; C17 for the complete ones (reads_then, induction over the records); the cut one by the line in which the file ends: first line, a middle line (the next getline fails), last line (the numbers read are those standing there, or, beyond its end, those left in the buffer by the line before). After the end: AtEnd, every call returns -1.",
"C85":"Spec/Sp3Cut: EpochStands (on the text alone). Any bytes: inversion of the loop of get_next_epoch (sp3Loop_inv, induction on its rounds) shows that status 0 or -1 is reached only over complete lines and a '*' or EOF. Prefixes: epoch_split finds the complete epochs, C31 delivers them, line_prefix / no_end show that no end of epoch stands in the rest. Header: what the constructor reads does not depend on what is appended to a file after whose header something stands (sp3Open_ext), so a prefix of a header leaves no good stream.",
"C86":"Model/Interp: initialize() for an object with any slots, the value of the uninitialised variable j a parameter. Spec/Interp: Fresh (slots as the constructor is meant to leave them), Holds (times in order; distinct satellites, one slot each = filter of all records), Aligned. Invariant SlotInv over the records (induction), then over the epochs delivered by C31; false parts as theorems.",
"C87":"Model/NavTab: msg_is_ok, the minute loop and main of test_navrnx.cpp, the table as a list of lines. Spec/NavTab: messagesOf, Expired, TabRun (an inductive relation between messages and lines), TableOf, Gapless. Induction over the loop with C18 (next message), C25/C26 (position and clock) and C37 (ANTEX query); false parts as theorems.",
"C88":"Spec/AntexSatBad: SatNamed (what a TYPE / SERIAL NO line names), ValidLines and SpanAt (inductive: the interval a run of lines states), SatRaw (record, satellite, interval). The validity loop is proved to compute the interval by induction on ValidLines; the search by induction on the records. Records without frequencies make the loop run on into the next record (an interval is borrowed) or for ever (end of file): both proved.",
"C89":'Spec/BernCut: Unterminated (what follows the last newline), SaysOther (what a cut line still says), BernHeader.needed. Header: iff for every text with an unterminated last line, following each getline (AtCut), then the cut prefix is matched line by line. Records: induction over the complete records up to the unterminated line, whose processing is then evaluated with the bytes of the previous line still in the array.',
"C90":'Spec/HeadEnd: TextLine (the lines of a text, by its newlines), HeaderEnds, NotByChance (the array or a first line of 60 chars). Invariant of the readers: the stream stands at the beginning of a line of the text and the array does not show the label (a short line leaves the columns as they were); with the totality theorems of C52, C56 and C60 the only outcome left is the exception. Cuts: the lines of a beginning of a text are beginnings of its lines.',
"C91":'Model/Checks: the mains with their counters, last status and printed values. SP3: induction over the epochs from C61_file (the call that delivers the last epoch also reports the end). Observations: induction with C57_exact and C58_eof; the map of requests that can be formed from C38_skip_missing. Navigation: induction over the records with C17_record and C55_read_eof.',
"C92":'Model/NavList: the two searches and the loop over the epochs as recursive functions; Spec/NavList: FirstAfter, LatestBefore, ListsNext, from the record list. Induction over the fuel of the loop, with the searches described by the split of the list at the message they stop at (C18 style), positions by stateNclock_kepler. Exit codes by induction over the loops.',
"C93":'Model/GloList: the search loops and the loop over the epochs, with the iteration counter as structural argument. Spec/GloList: Past, Near, FirstNotPast, ListsNear (a line for exactly those epochs of the grid at which the first message that is not past is near). Induction over the iterations; the position by C27, C28. The bound of the epochs by counting.',
"C94":'Model/BernProg: main with its two loops; the local variables prn and frq are passed from call to call. Spec/BernProg: BernTells (the first record in force, or none). Induction over the questions with C34, C49, C77, C89 for a lookup.',
"C95":"Model/Sp3Date: get_next_epoch with the library's constructor of the date as a parameter that may throw, and the loop of a caller. sp3NextEpoch_agrees ties it to Model/Sp3. Headers and observation epochs: the models of C61, C60, C57.",
"C96":'Spec/Sp3Again: a caller running any list of next/rewind calls on the modelled stream (Model/Sp3Date, sp3Rewind of Model/Sp3Head), and the answers it should get (Answers). Induction over the history with the invariant StandsAt.',
"C97":'Spec/AntexOffsets: what it is for a text to begin with a real number (RealBegins), and for consecutive lines to give frequencies and offsets (OffsetLines, RecordGives); no model function occurs in it. Soundness read off the returned value: inversion of the modelled loops (pcoLoop_text, matchLoop_text, satLoop_at).',
"C98":'Spec/BernSound: what a line says (InForceLine, BadNumberLine, IntOrZero) and what may be answered from a list of lines (BernAnswerOf), without the model; C98_determined: on success BernAnswerOf leaves no choice. Inversion of one line (bernLine_text), induction over the lines (bernLoop_text).',
"C99":'Spec/NavSound: when a text begins with a number (NumberIn, NoNumberIn) and what may come of reading lines (RecordSays, RecordOutcome), without the model. Inversion: strtod on arbitrary text (Lemmas/RealText: strtod_text, DecBegins.unique), the numbers of a line (char2double_text), the lines of a record (orbitLines_text), the record. C99_determined: RecordOutcome is functional where no number is odd.',
"C100":'Spec/Sp3Sound: when a text begins with a number and what may come of reading lines (HeadGives, HeadFails, PosGives, PosFails, EpochOutcome), without the model. Inversion: strtol and strtod on arbitrary text, the header (header_text), a position line (position_text), the lines by induction (sp3Loop_text). C100_determined: EpochOutcome is functional, flags apart, where no number is odd.',
"C101":'Spec/ObsLines: what a field, a line and a list of lines give or why they are refused (FieldGives, FieldFails, LinesGive, LineFails, DataOutcome), without the model. Inversion of resolve (rawResolve_text), of an observable, of a line (satEpochCollect_text), of the lines by induction (collectLoop_text). C101_determined: DataOutcome is functional where no requested field is odd. C101_value: observables of one part.',
"C102":'Spec/Sp3HeadSound: Sp3HeaderGives ties every member to columns of the four lines concerned, provided the line reaches the column (beyond it the code reads stale bytes); LongBegins and NumberIn as in C100, NumberOrZero where the code does not look whether strtod converted anything. Inversion of the readers of the first two lines (sp3First_text, sp3Second_text) and of the middle part (sp3HeadMid_text) on top of the structure theorem of C61. C102_determined: the lines determine the members.',
"C103":'Spec/NavHeadSound: NavHeadGives says what the object must rest on, without the model. Invariant of the loop over the header: the label columns of the buffer never show END OF HEADER unless the line just read has it (atxLabel_stale), hence the loop stops at the first labelled line or after 1000 lines (navSkip_exact); inversion of the first line. C103_opened, C103_opened_iff, C103_determined.',
"C104":'Spec/ObsHeadSound: ObsEntry, Gives, BodyGives, ObsGiven say what the object must rest on. Inversion of every branch of the header loop (obsTypesLoop_text, three_exact, clock_exact, obsHeadLine_text), induction over the loop (obsHeadLoop_text), the converse for every entry that says something (obsHeadLine_complete, obsHeadLoop_complete), uniqueness by exclusive labels. C104_opened, C104_opened_iff, C104_determined.',
"C105":'Spec/AntexInfo: SvnOn, CosparOn, BlankColumns. Inversion of resolve_satellite_antenna_line on a line of any text (resolve_info), and an induction over the search that keeps where the values left in the object stand (LeftBy, satLoop_info). C105_info, C105_own, C105_pco.',
"C106":'Spec/AntexHeadSound: AtxHeadGives. The skip loop is that of the navigation reader (atxSkip_nav), so navSkip_exact applies; the version text is cut at column 15. C106_opened, C106_opened_iff, C106_determined.',
"C107":'Spec/BernHeadSound: BernHead, BernStands. Induction over the search for PART 2, with and without such a line (bernSkip_lines, bernSkip_none), then case by case over the lines that follow. C107_opened, C107_opened_iff, C107_determined, C107_headings_last.',
"C108":'Spec/ObsHeadText: DateIn, HeaderGives, HeaderFails (line only, no buffer). Induction over the numbers of the date (epochInts_text) and case analysis of the rest (resolveEpoch_text); the specification excludes overlaps (HeaderGives.unique, HeaderFails.unique, HeaderGives.not_fails), which turns the classification into equivalences: C108_refused, C108_accepted, C108_complete.',
"C109":'Spec/Sp3Fate: EpochFate, built on the meaning of lines of C100. Induction over the lines (sp3Loop_fate), case analysis of the header (header_fate) and of the end (sp3Loop_close) give one of the fates (epoch_fate); the fates exclude each other (C109_determined), which turns this into equivalences: C109_fate.',
"C110":'Spec/NavFate: RecordFate, built on the meaning of lines of C99. Totality of the fields and lines by induction (char2double_total_text, orbitLines_total_text, readBlock_fate), of the time of ephemeris by the exact domain of the conversions (castInt_fate, castLong_fate, toe_fate); the fates exclude each other (C110_determined), which gives the equivalences C110_fate.',
"C111":'Spec/ObsFate: DataFate and ObsFate, built on the meaning of header lines (C108) and data lines (C101). Induction over the data lines with the number of elements left (collectLoop_fate); end of the file inside the epoch by collectLoop_ended; the fates exclude each other (C111_determined), which gives the equivalences C111_fate; C111_room is the sufficient condition.',
"C112":'Spec/NavFind: BlockIs says what a record is, SearchFate how the search passes over the records, SearchDelivers what the caller sees. record_kind combines C99 and C110 into the exact result of reading one record; induction over the records (findLoop_blocks); C112_determined: no choice; C112_total and C112_search: the search does what SearchFate says.',
"C113":'Spec/NavFindValid: VerdictOf says what a readable message of the satellite is worth at the epoch, from the text of its lines; ValidFate how the search passes over the records. accept_verdict: acceptValid gives that verdict (the numbers in the frame are those of the text, read_toe for the GLONASS time); induction over the records (findLoop_valid_blocks); C113_determined: no choice; C113_total and C113_search: the search does what ValidFate says.',
"C114":'Spec/NavCursor: CallGives is the cursor (a transition system over positions in the list of records), CursorRun its runs, navCalls the calls on the modelled reader, AnswerSeen what the caller sees. Refinement: AtPos relates a position to a state of the stream; call_done shows that every call of the reader is answered as the cursor allows and keeps the relation (payload size, errno, good stream), from C99, C110, C112, C113; induction over the series; C114_determined: the cursor has no choice.',
"C115":'Spec/Sp3Series: Sp3EpochSays is the answer of a call as a relation between the lines of the epoch and what the caller sees, Sp3FileSays the series of answers of a file. epoch_course: one call, from C100 and C109 with the date (dated_inv) and the end of the loop (loop_tail); C115_file: induction over the epochs, the stream stands at the next header and errno is unchanged after status 0; C115_determined: the answers are determined, flags apart; C115_answers: what the file says is what is seen.',
"C116":'Spec/ObsSeries: ObsFileSays is the series of answers as a relation between the lines of the file and what the caller sees, from what header lines (C108) and data lines (C101) give. collectLoop_course: the loop over the data lines, for any number announced and any lines, with the file as it goes on; headLine_course: the first line. C116_file: induction over the calls; after status 0 the stream stands behind the announced lines and errno is 0. C116_determined: the answers are determined, up to the values a refused line leaves in the element behind the satellites read. C116_answers: what the file says is what is seen. C116_text: every text consists of lines of which the last may have no newline.',
"C117":'Spec/ObsGoOn: ObsGoesOn is the series of answers to a caller that never stops, in the words of C116. C117_calls: induction over the calls from collectLoop_course and headLine_course (C116), resolveEpoch_errno (a refused header leaves errno at 0) and readNextEpoch_atEnd. C117_determined: by ObsStep, one call for a vector of a given number of elements, unique by C111 and the uniqueness of C101 and C108. C82 has more about the values for files of well formed pieces.',
"C45":"Kalman: HasDerivAt of sqrt of sum of squares.",
}
out=["# DESIGN\n","Plan written before the proofs (updated as the model grows; see the end for the trusted base).\n","## Plan per property\n"]
for q in P: out.append(f"* **{q['id']} {q['title']}** — {plan[q['id']]}")
open('/verif/DESIGN.md','w').write("\n".join(out)+"\n"+open('/verif/tools/design_tail.md').read())
