{"id": "C01", "title": "Satellite-system letters round-trip", "statement": "satsys_to_char and char_to_satsys are mutually inverse: converting any satellite system to its letter and back yields the same system, two systems never share a letter, and char_to_satsys throws std::runtime_error on exactly those chars that are not the letter of some system.", "quantifier": "every SATELLITE_SYSTEM value and every char value", "why_tests_cant": "the rejecting half ranges over every char; a test samples a few letters", "anchors": ["src/satsys.cpp: satsys_to_char, char_to_satsys"]}
{"id": "C02", "title": "Band-to-frequency lookup is total exactly on the tabulated bands", "statement": "For every system that offers it, band2frequency(b) returns the nominal carrier frequency tabulated for band b, throws std::out_of_range for every other int b, and the set of bands with a frequency equals the set of bands with a list of valid attributes; every attribute list admits the wildcard '?'.", "quantifier": "every satellite system and every int band", "why_tests_cant": "the throwing half ranges over all ints", "anchors": ["src/satsys.cpp: frequency_map, valid_atributes", "src/satsys.hpp: band2frequency"]}
{"id": "C03", "title": "Observation codes round-trip through their three-character text", "statement": "Constructing an ObservationCode from text and formatting it gives back the first three characters of the text whenever the text is a valid RINEX code (valid type letter, digit band, non-blank attribute); conversely formatting and re-parsing a code whose type is not 'any', whose band is one digit and whose attribute is non-blank, non-NUL yields an equal code. Trailing characters are ignored; a missing or blank attribute becomes '?'; texts shorter than two chars or with an unknown type letter throw.", "quantifier": "every C string and every ObservationCode", "why_tests_cant": "the parser accepts arbitrary strings of arbitrary length", "anchors": ["src/gnssobs.cpp: ObservationCode::ObservationCode(const char*), ObservationCode::to_string, char_to_observabletype, observabletype_to_char"]}
{"id": "C04", "title": "Equality of observables is an equivalence relation", "statement": "GnssObservable::operator== is reflexive, symmetric and transitive, and two observables are equal exactly when they are the same collection of weighted raw observables up to order.", "quantifier": "all pairs and triples of observables with any number of parts", "why_tests_cant": "requires all lists of parts of any length including repeated parts", "anchors": ["src/gnssobsrv.cpp: GnssObservable::operator=="]}
{"id": "C05", "title": "Frequency of a linear combination is the weighted sum of its parts", "statement": "GnssObservable::frequency() equals the sum over parts of coefficient times nominal frequency (GLONASS and mixed parts contributing 0); it returns normally exactly when every other part's band is tabulated, and otherwise terminates the program because the lookup exception leaves a noexcept function. Adding a part adds its term; the result does not depend on the order of the parts.", "quantifier": "every observable, any number of parts, any coefficients and bands", "why_tests_cant": "unbounded number of parts, and the abnormal exit depends on any one of them", "anchors": ["src/gnssobsrv.hpp: GnssObservable::frequency, add", "src/gnssobsrv.cpp: __ObsPart::frequency"]}
{"id": "C06", "title": "Satellite identifiers format injectively", "statement": "Satellite::to_string(true) of satellites with non-negative PRN is the system letter followed by at least two decimal digits of the PRN, and two such satellites have the same text only if they have the same system and PRN.", "quantifier": "every pair of satellites with PRN >= 0", "why_tests_cant": "ranges over all PRN integers", "anchors": ["src/satellite.cpp: Satellite::to_string"]}
{"id": "C07", "title": "Right-trim and left-trim remove exactly the blanks they promise", "statement": "ltrim returns the input (cut at stop) without its leading blanks and reports how many were removed; rtrim with the end-search policy returns it without its trailing blanks; the default rtrim cuts at the first blank (so it also loses any text after an interior blank); string_is_empty is true exactly when every considered char is a blank. None of them reads beyond the terminator or beyond stop.", "quantifier": "every C string and every stop index", "why_tests_cant": "arbitrary length strings and stop positions (including 0, beyond the end and the default)", "anchors": ["src/nvarstr.cpp: StrSearchPolicyEnd::rtrim, StrSearchPolicyStart::rtrim, ltrim, string_is_empty"]}
{"id": "C08", "title": "Fortran exponents are normalised in place without changing anything else", "statement": "__for2cpp__ replaces every 'D' and 'd' by 'E', leaves every other char and the length unchanged, touches nothing after the terminator, and is idempotent.", "quantifier": "every buffer holding a C string", "why_tests_cant": "arbitrary string contents and lengths, and bytes after the terminator", "anchors": ["src/nvarstr.cpp: __for2cpp__"]}
{"id": "C09", "title": "Fixed-width numeric fields are decoded independently", "statement": "Decoding a line of N fixed-width fields of M chars with __char2double__ gives in slot i the number written in field i, whatever the other fields hold, and reports failure if some field is blank.", "quantifier": "every line, every number of fields N and width M", "why_tests_cant": "the result depends on adjacent fields only for specific byte patterns (blank fields, full-width fields, digits touching)", "anchors": ["src/nvarstr.hpp: __char2double__"]}
{"id": "C10", "title": "Receiver antenna records stay well formed under every sequence of operations", "statement": "After construction and any sequence of set_serial_nr calls, the text behind __underlying_char__() is NUL terminated inside its 41 bytes, its first 20 chars are the blank-padded model and radome given at construction and never change, and no operation writes outside the record.", "quantifier": "every constructor argument and every sequence of serial-number updates, and any initial memory contents", "why_tests_cant": "unbounded histories and arbitrary uninitialised memory", "anchors": ["src/antenna.cpp: ReceiverAntenna"]}
{"id": "C11", "title": "A missing radome reads as NONE", "statement": "An antenna text whose radome columns are absent or blank is stored with radome 'NONE', and a text with a radome keeps it.", "quantifier": "every antenna text", "why_tests_cant": "depends on the length and blank pattern of arbitrary strings", "anchors": ["src/antenna.cpp: ReceiverAntenna::ReceiverAntenna, copy_from_cstr, set_none_radome"]}
{"id": "C12", "title": "Setting a serial number makes comparison with it succeed", "statement": "After set_serial_nr(s), compare_serial(s) is true, and compare_serial(s') is true only for serials s' that denote the same serial; has_serial() is true exactly when s has a non-blank char among its first 20.", "quantifier": "every antenna and every serial string", "why_tests_cant": "ranges over all strings of all lengths", "anchors": ["src/antenna.cpp: set_serial_nr, compare_serial, has_serial"]}
{"id": "C13", "title": "Antenna identity is model + radome + serial", "statement": "is_same is symmetric and transitive, implies equal model, radome and serial, and is false as soon as one antenna has no serial; compare_model is an equivalence relation that ignores the serial; neither depends on uninitialised bytes.", "quantifier": "all pairs and triples of antennas reachable through the API", "why_tests_cant": "all strings, and all uninitialised memory contents", "anchors": ["src/antenna.cpp: is_same, compare_model"]}
{"id": "C14", "title": "Satellite antenna comparison says whether the types are equal", "statement": "SatelliteAntenna::is_same(c) is true exactly when c holds the same antenna type (first 20 chars) as the instance.", "quantifier": "every satellite antenna and every C string", "why_tests_cant": "ranges over all strings", "anchors": ["src/antenna.cpp: SatelliteAntenna::is_same, copy_from_cstr"]}
{"id": "C15", "title": "Two-digit years expand to the RINEX window", "statement": "four2two_digit_year maps 80..99 to 1980..1999 and 0..79 to 2000..2079, is injective on two-digit years and preserves the year modulo 100.", "quantifier": "every two-digit year", "why_tests_cant": "a complete statement covers the whole window and its boundary", "anchors": ["src/rinex.hpp: four2two_digit_year"]}
{"id": "C16", "title": "Skipping a navigation record consumes exactly the lines reading it would", "statement": "For every satellite system, NavigationRnx::ignore_next_block advances the stream over exactly the lines that read_next_record consumes for a record of that system, so skipping and reading leave the stream at the same record boundary.", "quantifier": "every navigation file position whose next record is complete, every system", "why_tests_cant": "must hold at every record of every file", "anchors": ["src/navrnx.cpp: NavigationRnx::ignore_next_block, read_next_record, NavDataFrame::set_from_rnx3, __lines_per_satsys_v3__"]}
{"id": "C17", "title": "Reading a navigation record stays inside its 31-element payload", "statement": "set_from_rnx3 stores the k-th number of the j-th orbit line at payload index 3+4(j-1)+k, never outside the 31 elements, and on success every such element that the system's record defines was taken from the file.", "quantifier": "every file content, every satellite system", "why_tests_cant": "array bounds must hold on all inputs", "anchors": ["src/navrnx.cpp: NavDataFrame::set_from_rnx3"]}
{"id": "C18", "title": "find_next returns the first record of the requested satellite", "statement": "NavigationRnx::find_next(sys, prn) skips exactly the records before the first one matching the system (and the PRN, unless it is -1), returns it, leaves the stream right after it, and reports end of file when there is none.", "quantifier": "every navigation file (any number of records) and every request", "why_tests_cant": "arbitrary number and order of records", "anchors": ["src/navrnx.cpp: NavigationRnx::find_next"]}
{"id": "C19", "title": "find_next_valid returns the first healthy message valid at the requested time", "statement": "find_next_valid(t, sys, prn) returns the first record (from the current position) of that satellite which is healthy and whose validity interval (half open; starting at the reference time) contains t, never an unhealthy or out-of-date one, and gives up only at end of file or when a record's time of clock is later than t plus four hours.", "quantifier": "every sequence of records and every requested time", "why_tests_cant": "arbitrary record sequences and times at interval boundaries", "anchors": ["src/navrnx.hpp: NavigationRnx::find_next_valid"]}
{"id": "C20", "title": "Searching a navigation file always terminates", "statement": "Every call of find_next / find_next_valid / read_next_record returns, whatever bytes the file holds.", "quantifier": "every file content and every stream position", "why_tests_cant": "non-termination cannot be observed by a finite test and needs specific malformed bytes", "anchors": ["src/navrnx.cpp: find_next, ignore_next_block", "src/navrnx.hpp: find_next_valid"]}
{"id": "C21", "title": "Validity and health rules per system", "statement": "A navigation message is reported healthy exactly when its health word is zero (index 24 for GPS/Galileo/BeiDou, 6 for GLONASS) and its validity length is 900 s (each side) for GLONASS, 14400 s for Galileo and BeiDou and data[28] hours for GPS; asking for either for any other system ends the program when it happens inside a noexcept search.", "quantifier": "every navigation message", "why_tests_cant": "must hold for every payload and every system", "anchors": ["src/navrnx.hpp: sv_health, fit_interval", "src/gpsnav.cpp: gps_fit_interval"]}
{"id": "C22", "title": "Times measured from a reference epoch are exact across day boundaries", "statement": "The seconds pair used for orbit/clock evaluation satisfies t_sec - ref_sec = t - ref exactly, for epochs on any pair of days, and 0 <= ref_sec < 86400.", "quantifier": "every pair of epochs", "why_tests_cant": "all day differences and signs", "anchors": ["src/navrnx.cpp / navrnx.hpp: ref2toe, ref2toc"]}
{"id": "C23", "title": "GLONASS reference time lands in the record's week", "statement": "The GLONASS time of ephemeris derived from the message-frame time and the time of clock denotes the given second of week in the week of the time of clock, and it is within half a week of the time of clock.", "quantifier": "every time of clock and every message frame time", "why_tests_cant": "week roll-over only shows for particular dates", "anchors": ["src/glonav.cpp: glo_toe2date"]}
{"id": "C24", "title": "Kepler's equation is solved to the promised tolerance or the failure is reported", "statement": "When the orbit computation reports success, the eccentric anomaly used satisfies |E - e sin E - M| <= |e| * 1e-14; the iteration is abandoned after at most 1001 steps and then a non-zero status is returned; for 0 <= e <= 0.95 it always succeeds.", "quantifier": "every mean anomaly and every eccentricity", "why_tests_cant": "all real inputs; the worst case number of iterations depends on e", "anchors": ["src/navrnx.cpp: NavDataFrame::kepler2state"]}
{"id": "C25", "title": "The computed satellite position lies at the orbit radius", "statement": "The ECEF position returned by the Kepler propagation has Euclidean norm equal to the corrected orbit radius, for any argument of latitude, inclination and node: the two rotations preserve length.", "quantifier": "every set of orbital elements and every time", "why_tests_cant": "all real inputs", "anchors": ["src/navrnx.cpp: NavDataFrame::kepler2state"]}
{"id": "C26", "title": "Satellite clock correction is the broadcast polynomial plus relativity", "statement": "On success sv_clock yields a0 + a1 dt + a2 dt^2 + F e sqrt(A) sin(E) with dt measured from the time of clock.", "quantifier": "every message and every time", "why_tests_cant": "all real inputs", "anchors": ["src/navrnx.cpp: NavDataFrame::sv_clock"]}
{"id": "C27", "title": "GLONASS integration terminates, in bounded steps, at the right time", "statement": "For |t - toe| <= 900 s the Runge-Kutta loop stops after ceil(|t-toe|/60) steps, never reports the iteration-limit status, and the last integration time differs from t by less than 60 s, being equal to it whenever t - toe is a multiple of 60 s.", "quantifier": "every pair of times within the validity window", "why_tests_cant": "all real time differences", "anchors": ["src/glonav.cpp: NavDataFrame::glo_ecef"]}
{"id": "C28", "title": "GLONASS requests outside the validity window are flagged", "statement": "If |t - toe| > 900 s stateNclock of a GLONASS frame returns -1 and leaves the caller's clock untouched; otherwise it returns 0 and the clock is a0 + a1 (t - toe).", "quantifier": "every message, every time", "why_tests_cant": "all real time differences", "anchors": ["src/glonav.cpp: glo_ecef, glo_stateNclock"]}
{"id": "C29", "title": "GPS user range accuracy grows with the URA index", "statement": "gps_ura returns the documented meters for each index and is strictly increasing in the index for 0..15.", "quantifier": "every URA index", "why_tests_cant": "a complete statement covers all indexes and the boundary between both formulas", "anchors": ["src/gpsnav.cpp: gps_ura"]}
{"id": "C30", "title": "SP3 flags behave as a set of independent bits", "statement": "After any sequence of set/clear/reset operations, is_set(e) is true exactly when the last operation that concerned e was set(e); setting one event never changes another.", "quantifier": "every sequence of flag operations", "why_tests_cant": "unbounded histories", "anchors": ["src/sp3c.hpp: Sp3Flag"]}
{"id": "C31", "title": "An SP3 epoch block is delivered record by record", "statement": "get_next_epoch returns, for every P record of the epoch in file order, the decoded satellite, position and clock, reports their number, and stops exactly at the next epoch header (which it leaves unread) or at the EOF line.", "quantifier": "every well-formed SP3 epoch with any number of records", "why_tests_cant": "arbitrary number of records and surrounding lines", "anchors": ["src/sp3c.cpp: Sp3c::get_next_epoch"]}
{"id": "C32", "title": "The SP3 reader never writes beyond the caller's vector", "statement": "get_next_epoch never stores more records than the vector passed in can hold.", "quantifier": "every file content and every vector size", "why_tests_cant": "memory safety for all inputs", "anchors": ["src/sp3c.cpp: Sp3c::get_next_epoch"]}
{"id": "C33", "title": "SP3 position records decode to metres with the documented flags", "statement": "get_next_position scales the kilometre columns to metres, marks a position bad when it is given as zero, a clock bad when it is given as 999999 microseconds or more, and sets each event/prediction flag exactly when its column says so.", "quantifier": "every position line", "why_tests_cant": "all byte patterns of a line", "anchors": ["src/sp3c.cpp: Sp3c::get_next_position"]}
{"id": "C34", "title": "GLONASS channel lookup selects the record in force", "statement": "BernSatellit::get_frequency_channel returns the channel of the first micro-wave record of the satellite whose validity interval [start, stop) contains the epoch (an empty stop means open-ended), and reports failure when no record does.", "quantifier": "every satellite file and every epoch", "why_tests_cant": "arbitrary number of records, interval boundaries", "anchors": ["src/bern_utils.cpp: BernSatellit::get_frequency_channel"]}
{"id": "C35", "title": "Receiver phase-centre query uses the closest antenna match", "statement": "get_antenna_pco for a receiver antenna returns the phase centre offsets of the first record whose model, radome and serial equal the antenna's; if there is none, those of a record of the same model and radome without serial (the last such record of the file); if there is none either, it returns a non-zero status and an empty list.", "quantifier": "every well formed ANTEX file (any number of antennas >= 1, any frequencies and grids) and every receiver antenna", "why_tests_cant": "arbitrary number and order of antenna blocks", "anchors": ["src/antex.cpp: Antex::get_antenna_pco, find_closest_antenna_match, collect_pco"]}
{"id": "C36", "title": "ANTEX queries do not depend on earlier queries", "statement": "The answer to an ANTEX query depends only on the file and the query, not on the queries made before on the same object.", "quantifier": "every finite history of queries", "why_tests_cant": "unbounded histories", "anchors": ["src/antex.cpp: Antex::find_antenna..., get_antenna_pco"]}
{"id": "C37", "title": "ANTEX validity intervals are closed and open-ended when UNTIL is missing", "statement": "The validity test of a satellite antenna block accepts epoch t exactly when VALID FROM <= t and (t <= VALID UNTIL or there is no VALID UNTIL), and it always terminates.", "quantifier": "every antenna block and epoch", "why_tests_cant": "non-termination and interval boundaries", "anchors": ["src/antex.cpp: Antex::check_time_interval (satellite antenna search)"]}
{"id": "C38", "title": "Requested observables map one-to-one onto header columns", "statement": "set_read_map returns, for every requested observable, the columns of its raw parts: each index is the first header column of its system with exactly that code, with the coefficient of the part, in the order requested; if skip_missing is false and some part is missing, nothing is returned; with skip_missing true exactly the satisfiable observables survive, in order.", "quantifier": "every header and every request map", "why_tests_cant": "arbitrary headers, requests and sizes", "anchors": ["src/obsrnx.cpp: ObservationRnx::set_read_map, obs_getter"]}
{"id": "C39", "title": "Collected observable values are the requested linear combinations", "statement": "For each satellite line the value collected for an observable is the sum of coefficient times field value over its parts if all parts are present, and the missing-value marker otherwise.", "quantifier": "every data line and every column map", "why_tests_cant": "arbitrary lines and presence patterns", "anchors": ["src/obsrnx.cpp: sat_epoch_collect, RawRnxObs_::resolve"]}
{"id": "C40", "title": "Observation fields are decoded into value, LLI and SSI", "statement": "A 16-char observation field yields the number in its 14 value columns, and the LLI and SSI digits (or blank markers) of the last two columns, independent of each other.", "quantifier": "every 16-char field", "why_tests_cant": "all byte patterns of a field", "anchors": ["src/obsrnx.cpp: RawRnxObs_::resolve"]}
{"id": "C41", "title": "Header observation-type lists are read completely and not beyond", "statement": "For a 'SYS / # / OBS TYPES' entry of n codes the reader consumes exactly ceil(n/13) lines and returns the n codes in order.", "quantifier": "every system and every n", "why_tests_cant": "every n, in particular multiples of 13", "anchors": ["src/obsrnx.cpp: ObservationRnx::__resolve_obstypes_304__"]}
{"id": "C42", "title": "Epoch reading sizes are safe", "statement": "initialize_epoch_vector builds a vector in which every satellite slot can hold every requested observable of any system, all marked missing; reading an epoch never writes outside it as long as the epoch lists at most as many satellites as slots.", "quantifier": "every request map and every epoch", "why_tests_cant": "memory safety for all inputs", "anchors": ["src/obsrnx.cpp: initialize_epoch_vector, collect_epoch"]}
{"id": "C43", "title": "Epoch headers are decoded column by column", "statement": "An epoch header line yields exactly the date, seconds, epoch flag, satellite count and (optional) receiver clock offset in its columns, and malformed ones are reported by a non-zero status.", "quantifier": "every epoch header line", "why_tests_cant": "all byte patterns", "anchors": ["src/obsrnx.cpp: __resolve_epoch_304__"]}
{"id": "C44", "title": "The Kalman covariance stays symmetric positive semi-definite", "statement": "After any sequence of updates with measurement variances that are not negative the filter covariance is symmetric and positive semi-definite (exact arithmetic), and a measurement update never increases it.", "quantifier": "every sequence of updates of any length with any number of satellites", "why_tests_cant": "unbounded update histories over all real inputs", "anchors": ["src/gauss_newton.hpp: Kalman"]}
{"id": "C45", "title": "The observation partials are the derivatives of the modelled range", "statement": "The rows of the design matrix are the partial derivatives of the predicted range with respect to the receiver coordinates and clock.", "quantifier": "every receiver/satellite geometry with non-zero distance", "why_tests_cant": "all real inputs", "anchors": ["src/gauss_newton.hpp: Kalman update"]}
{"id": "C46", "title": "The GLONASS state is that of the requested epoch", "statement": "The GLONASS state vector returned for epoch t is the numerically integrated state at t itself.", "quantifier": "every message, every time", "why_tests_cant": "all real time differences", "anchors": ["src/glonav.cpp: NavDataFrame::glo_ecef"]}
{"id": "C47", "title": "A search for any satellite finds one", "statement": "find_next_valid with PRN -1 (documented as: any satellite of the requested system) returns the first valid message of that system, whatever its PRN.", "quantifier": "every navigation file and epoch", "why_tests_cant": "all file contents", "anchors": ["src/navrnx.hpp: NavigationRnx::find_next_valid"]}
{"id": "C48", "title": "Reading an SP3 epoch always returns", "statement": "get_next_epoch returns after finitely many steps, with a status that tells an epoch, the end of the file or an error.", "quantifier": "every file content", "why_tests_cant": "no test can wait for ever; all file contents", "anchors": ["src/sp3c.cpp: Sp3c::get_next_epoch"]}
{"id": "C49", "title": "Satellite lookups do not depend on earlier lookups", "statement": "The answer of BernSatellit::get_frequency_channel depends only on the file and the arguments, not on the lookups made before on the same object.", "quantifier": "every sequence of lookups on one object", "why_tests_cant": "all histories of any length", "anchors": ["src/bern_utils.cpp: BernSatellit::get_frequency_channel"]}
{"id": "C50", "title": "must_match_serial makes only exact serial matches count", "statement": "With must_match_serial set, get_antenna_pco returns offsets only of a record whose serial equals the antenna's, and reports the documented status otherwise: 10 when only the model matched, 1 when nothing matched.", "quantifier": "every well formed ANTEX file and receiver antenna", "why_tests_cant": "arbitrary number and order of antenna blocks", "anchors": ["src/antex.hpp, src/antex.cpp: Antex::get_antenna_pco"]}
{"id": "C51", "title": "Satellite antenna information is that of its own record", "statement": "The SVN and COSPAR identifiers returned for a satellite antenna are those of the record that was found, not of any other record of the file.", "quantifier": "every well formed ANTEX file, satellite and epoch", "why_tests_cant": "depends on the records read before", "anchors": ["src/antex.cpp: Antex::find_satellite_antenna, parse_antenna_satellite"]}
{"id": "C52", "title": "Opening an ANTEX file", "statement": "The constructor accepts every well formed ANTEX header and reports its version, system and PCV type; for any other content it either gives an object or throws std::runtime_error, and never loops or has undefined behaviour.", "quantifier": "every header with any number of comment lines; every file content", "why_tests_cant": "all byte sequences", "anchors": ["src/antex.cpp: Antex::Antex, Antex::read_header"]}
{"id": "C53", "title": "A receiver query on any ANTEX file ends", "statement": "get_antenna_pco for a receiver antenna returns a status after finitely many steps on any file content, without undefined behaviour or termination of the process.", "quantifier": "every file content", "why_tests_cant": "all byte sequences", "anchors": ["src/antex.cpp: Antex::get_antenna_pco"]}
{"id": "C54", "title": "Mixed-system observables are recognised", "statement": "is_of_mixed_satsys is true exactly when two raw parts of the observable belong to different satellite systems, whatever their order and whichever way the observable was built up with add.", "quantifier": "every observable, any number of parts", "why_tests_cant": "arbitrary lists of parts", "anchors": ["src/gnssobsrv.hpp: GnssObservable::is_of_mixed_satsys, GnssObservable::add"]}
{"id": "C55", "title": "A navigation file can be read from beginning to end, any number of times", "statement": "Repeated read_next_record calls on a well formed navigation file return the records in file order, each with status 0, then -1 for ever after without touching the frame; end of file leaves the object usable: rewind and read again gives the same records. peak_satsys tells the system of the next record without consuming it.", "quantifier": "every well formed navigation file and every number of calls", "why_tests_cant": "unbounded call sequences", "anchors": ["src/navrnx.cpp: NavigationRnx::read_next_record, peak_satsys, ignore_next_block; src/navrnx.hpp: rewind"]}
{"id": "C56", "title": "Opening a navigation file", "statement": "The NavigationRnx constructor accepts every well formed navigation header, reports its version and system and leaves the object at the first record; a file that is not a navigation file or has no END OF HEADER line is refused with std::runtime_error; any other content gives an object or std::runtime_error, never undefined behaviour, an endless loop or termination.", "quantifier": "every header with any number (< 1000) of header lines; every file content", "why_tests_cant": "all byte sequences", "anchors": ["src/navrnx.cpp: NavigationRnx::NavigationRnx, NavigationRnx::read_header"]}
{"id": "C57", "title": "Reading an epoch returns exactly its requested satellites", "statement": "read_next_epoch on a well formed epoch block returns one entry, in file order, for each satellite of the block whose system was requested, with the requested values in request order, skips the others, sets the epoch's time and flag, and leaves the stream after the block; the line buffer is large enough for the file's observation types.", "quantifier": "every well formed epoch block with any number of satellites up to 80, every read map", "why_tests_cant": "arbitrary number and order of satellites and observables", "anchors": ["src/obsrnx.cpp: ObservationRnx::read_next_epoch, collect_epoch"]}
{"id": "C58", "title": "Observation epochs are read once each, in order, then end of file", "statement": "Repeated read_next_epoch calls on a well formed observation file return the epochs in file order with status 0, each once, and then a negative status for ever after.", "quantifier": "every well formed file with any number of epochs, any number of calls", "why_tests_cant": "unbounded call sequences", "anchors": ["src/obsrnx.cpp: ObservationRnx::read_next_epoch"]}
{"id": "C59", "title": "The position estimate is the weighted least-squares solution", "statement": "After Kalman::update (default coefficient 1, positive measurement variances) the state is the unique minimum of the sum of squares of the distance to the predicted state (position kept, clock drifted, predicted covariance) and of the residuals of the linearised pseudoranges over their variances; the covariance is the inverse of the summed information; observations that agree with the prediction leave the predicted state unchanged.", "quantifier": "every history of updates, any number of satellites, all real inputs", "why_tests_cant": "all real inputs and histories", "anchors": ["src/gauss_newton.hpp: Kalman::update"]}
{"id": "C60", "title": "Opening an observation file reports what its header says", "statement": "For a well formed RINEX 3 observation header, the constructor of ObservationRnx succeeds and the object reports version, satellite system, marker, receiver, antenna, approximate position, eccentricities, clock flag, time of first observation and the observation types of every system exactly as written (the last one of repeated entries), the stream stands behind the header and rewind() returns there. For any other content it throws std::runtime_error.", "quantifier": "every header with any number of entries in any order, every content of the rest of the file; every byte sequence for the error part", "why_tests_cant": "all header contents and orders", "anchors": ["src/obsrnx.cpp: ObservationRnx::ObservationRnx, read_header, __resolve_obstypes_304__", "src/obsrnx.hpp: rewind"]}
{"id": "C61", "title": "Opening an SP3 file reports what its header says", "statement": "For a well formed SP3-c/d header whose three forms of the start epoch agree, the constructor of Sp3c succeeds and the object reports version, start epoch, interval, number of epochs and of satellites, coordinate system, orbit type, agency and time system as written; the stream stands behind the header, rewind() returns there, and a vector from allocate_epoch_vector() holds every epoch of the file. A file without the structure of an SP3 header is refused with std::runtime_error; no content leads to undefined behaviour.", "quantifier": "every header with any number of satellite, accuracy and comment lines, every file content", "why_tests_cant": "all header contents; all byte sequences", "anchors": ["src/sp3c.cpp: Sp3c::Sp3c, Sp3c::read_header, Sp3c::rewind", "src/sp3c.hpp: allocate_epoch_vector"]}
{"id": "C62", "title": "An interpolator can be built from any opened SP3 file", "statement": "Constructing a LagrangeSp3Interpolator from an Sp3c object opened without error succeeds, with one slot per satellite and a window of the requested width.", "quantifier": "every opened file, every window width", "why_tests_cant": "every file content", "anchors": ["src/sp3c.hpp: LagrangeSp3Interpolator::LagrangeSp3Interpolator"]}
{"id": "C63", "title": "Messages used for positioning are of the satellite, healthy and in force", "statement": "In the positioning program, whatever satellites and epochs were asked for before, get_valid_msg returns status 0 with a message of the requested satellite that stands in the navigation file, is healthy and covers the epoch, or status -1 and the end iterator; in a file in chronological order it succeeds exactly when such a message exists. The navigation file is left where it was, and the vector has at most one message per satellite.", "quantifier": "every navigation file whose GPS, GLONASS, Galileo and BeiDou records are well formed (soundness of status 0: any bytes), every sequence of requests (satellite, epoch) of any length", "why_tests_cant": "unbounded histories of requests and cache contents", "anchors": ["test/pp_rnx.cpp: get_valid_msg, check_nav_msg, update_msg"]}
{"id": "C64", "title": "The text of an observable shows its terms", "statement": "GnssObservable::to_string() is defined for every observable made by the constructors and add(), and is the list of its terms in order, each written as system letter, ::, observation code, *, and the coefficient rounded to six decimals, joined by +. Two observables with the same text have the same terms, up to one unit of the sixth decimal in the coefficients; when the coefficients have at most six decimals the text determines the observable.", "quantifier": "every observable with any number of terms, bands 0-9 and rational coefficients", "why_tests_cant": "all coefficients and term lists; injectivity is over all pairs", "anchors": ["src/gnssobsrv.cpp: GnssObservable::to_string, __ObsPart::to_string, GnssRawObservable::to_string"]}
{"id": "C65", "title": "The zenith angle of the positioning program is the angle from the vertical", "statement": "For every receiver position, every latitude and longitude given to it and every other satellite position, sv_zen_angle and compute_zenith_angles work with the angle between 0 and 180 degrees whose cosine is the projection of the line of sight on the local vertical divided by its length; a satellite is used exactly when this angle is below 80 degrees (elevation above 10), and the program is terminated by an uncaught exception exactly when it is more than 0.2 rad below the horizon.", "quantifier": "every receiver position, latitude, longitude and satellite position (reals)", "why_tests_cant": "all real positions", "anchors": ["test/pp_rnx.cpp: sv_zen_angle, compute_zenith_angles"]}
{"id": "C66", "title": "Troposphere correction and weights are the ones the comments name", "statement": "Saastamoinen::correction(z) is the delay of the Saastamoinen formula with the standard atmosphere of the cited manual (18 degrees Celsius, 1013.25 hPa, 50 % humidity at height 0) and weighting_fun gives cos(z) squared.", "quantifier": "every height and every zenith angle", "why_tests_cant": "all real heights and angles", "anchors": ["test/pp_rnx.cpp: Saastamoinen, weighting_fun"]}
{"id": "C67", "title": "An epoch is processed with exactly the usable satellites", "statement": "In the positioning program the arrays passed on for an epoch hold, in the order of the observation file, one row for exactly the satellites with a value of the observable, a healthy message in force at the epoch in the navigation file and elevation above 10 degrees; the row is the value, the position and the clock correction that message gives for the epoch; whatever satellites and epochs were processed before.", "quantifier": "every list of satellites of an epoch, every navigation file in chronological order, every history of epochs before", "why_tests_cant": "unbounded histories, all files", "anchors": ["test/pp_rnx.cpp: main (loop over the satellites), get_valid_msg, sv_zen_angle", "src/navrnx.hpp: stateNclock"]}
{"id": "C68", "title": "The positioning program makes one filter update per usable epoch and ends at the end of the file", "statement": "For every observation file and navigation file the program updates the filter once, in file order, for every epoch of more than four satellites, with the rows of that epoch corrected for the troposphere and with the time elapsed since the update before, ends at the end of the observation file with exit code 0, and the covariance of the filter stays symmetric and positive definite.", "quantifier": "every observation file with any number of epochs, every navigation file", "why_tests_cant": "unbounded executions over all files", "anchors": ["test/pp_rnx.cpp: main"]}
{"id": "C69", "title": "Every buffer of an observation reader is freed exactly once", "statement": "In every program that constructs observation readers (ObservationRnx), fails to construct them, moves them to new or existing readers, and destroys every one of them, the line buffer of each reader is freed exactly once: no leak and no double free.", "quantifier": "every history of constructions, failed constructions, move constructions, move assignments and destructions, of any length", "why_tests_cant": "all histories; a double free may go unnoticed by a test", "anchors": ["src/obsrnx.hpp: ObservationRnx (move constructor, move assignment)", "src/obsrnx.cpp: ObservationRnx::ObservationRnx, ObservationRnx::~ObservationRnx"]}
{"id": "C70", "title": "The positioning program does its work from the command line on", "statement": "Run with the names of an observation, a navigation and optionally an ANTEX file, the program lists exactly the GLONASS slots 1 to 32 that have a record in force at the time of first observation (antenna, SVN and COSPAR id of that record), processes every epoch of the observation file and returns 0. With fewer names it returns 1. A file that cannot be opened stops it with an error.", "quantifier": "every command line, every observation, navigation and ANTEX file", "why_tests_cant": "all files and command lines", "anchors": ["test/pp_rnx.cpp: main"]}
{"id": "C71", "title": "Results do not depend on whether the library is compiled with DEBUG", "statement": "Compiled with DEBUG (the default Makefiles) or without (Makefile.am.production), the library gives the same results for the same calls: the same records found in a navigation file, the same positions and clock corrections, the same epochs of an observation file.", "quantifier": "every navigation and observation file, every call and argument", "why_tests_cant": "all files; the tests are compiled in one configuration only", "anchors": ["src/Makefile.am", "src/Makefile.am.production", "src/navrnx.cpp: set_from_rnx3, read_next_record, ignore_next_block, peak_satsys, find_next", "src/navrnx.hpp: glo_toe2date, kepler2state, sv_clock, find_next_valid", "src/obsrnx.cpp: __resolve_epoch_304__, sat_epoch_collect, collect_epoch, read_next_epoch"]}
{"id": "C72", "title": "A Bernese SATELLIT file is opened exactly when its lines are those of the format", "statement": "Constructing the reader for a satellite information file (BernSatellit) succeeds exactly when the first line starts with the title of the format, one of the next 999 lines announces PART 2 (on-board sensors), and the second and third lines after that one are the column titles of that part; every other text file is refused with an exception of type runtime_error.", "quantifier": "every text file with lines of at most 255 characters", "why_tests_cant": "all files", "anchors": ["src/bern_utils.cpp: BernSatellit::BernSatellit, BernSatellit::initialize"]}
{"id": "C73", "title": "Malformed SP3 records are reported, and nothing before them is lost", "statement": "When an epoch of an SP3 file has a position record with an unknown satellite system, or a satellite number, coordinate or clock that is no number or does not fit, get_next_epoch returns 20 plus the number of the first such defect (3 system, 4 number, 5 to 8 coordinates and clock) after delivering the records before it, and leaves the caller's number of satellites alone; a line that is no epoch header is reported by a code telling its first defect, and the caller's time and records are left alone.", "quantifier": "every epoch with any number of good records before the defect, every malformed line, every content after it", "why_tests_cant": "all malformed lines and all places for them", "anchors": ["src/sp3c.cpp: get_next_epoch, get_next_position", "src/sp3c.hpp: Sp3c"]}
{"id": "C74", "title": "Issue of data and signal-in-space accuracy of a Galileo message are those of its record", "statement": "After a Galileo record is read, gal_iod_nav gives the first number of broadcast orbit 1 of that record and gal_sisa the first number of broadcast orbit 6.", "quantifier": "every well formed Galileo record, whatever follows it", "why_tests_cant": "all records", "anchors": ["src/galnav.cpp: gal_iod_nav, gal_sisa", "src/navrnx.cpp: NavDataFrame::set_from_rnx3"]}
{"id": "C75", "title": "Unreadable numbers of a navigation record are reported", "statement": "When a record of a navigation file has a number that cannot be read (its columns hold no number, or one too large for a double), a satellite number that is missing or zero, a date that cannot be read, or not all of its lines, read_next_record returns an error status telling the line to blame (2 satellite number, 3 first line, 5 missing line, 6 line between, 7 missing last line, 8 last line); find_next and find_next_valid return that status too instead of passing over the record, and the stream can be used afterwards. A record reported as read has all of its numbers.", "quantifier": "every record of every system, every place and kind of defect, every content before and after it", "why_tests_cant": "all malformed records and all places for the defect", "anchors": ["src/navrnx.cpp: NavDataFrame::set_from_rnx3, NavigationRnx::read_next_record, find_next", "src/navrnx.hpp: find_next_valid"]}
{"id": "C76", "title": "Broadcast orbits and clocks are accurate in double precision", "statement": "With every operation rounded to double precision and a mathematical library accurate to a unit in the last place, stateNclock of a GPS, Galileo or BeiDou message whose elements lie in the ranges of the interface documents succeeds, and its position is within a tenth of a millimetre of the formulas of the interface document evaluated exactly at the exact solution of Kepler's equation, its clock within 5e-16 s of the polynomial plus relativity, evaluated exactly at the solution of Kepler's equation for the time from the clock reference (see C26 for the choice of that time); the other numbers of the caller's array are untouched. Differences of epochs at whole seconds are exact.", "quantifier": "every message with elements in range, every epoch within half a week of its references, every way of rounding to nearest and every such mathematical library", "why_tests_cant": "all messages, epochs and roundings", "anchors": ["src/navrnx.hpp: stateNclock, ref2toe, ref2toc, kepler2state, sv_clock", "src/satsys.hpp: satellite_system_traits"]}
{"id": "C77", "title": "Malformed records of a SATELLIT file are reported", "statement": "When a lookup of the channel of a satellite (BernSatellit::get_frequency_channel) comes, after records not in force, to a micro-wave record whose SVN columns hold no integer or one that does not fit, it returns 2 and leaves the outputs alone; when the record in force has a PRN or channel that does not fit, it returns 3; in both cases errno is cleared and the object can be used further. An answer with status 0 gives the PRN and channel written in the record.", "quantifier": "every block of records, every place of the malformed record among the first thousand, every satellite and epoch asked for", "why_tests_cant": "all malformed records and all places for them", "anchors": ["src/bern_utils.cpp: BernSatellit::get_frequency_channel"]}
{"id": "C78", "title": "Observation values and SP3 positions are accurate in double precision", "statement": "With every operation rounded to double precision, the value read_next_epoch delivers for a raw observable is the double nearest to the decimal in the file, and for a linear combination of n observables it is the exact combination up to a relative error (with respect to the sum of the absolute values of its terms) of (1+2^-53)^(n+2)-1; a missing last part gives the double nearest to the missing-value marker. An SP3 position is delivered in metres up to two roundings (25 nanometres within 100 000 km), its clock is the double nearest to the decimal, and the absent-position and absent-clock flags agree with the decimals of the file for numbers of six decimals.", "quantifier": "every data line and every set of requested observables and coefficients, every position line, every way of rounding to nearest", "why_tests_cant": "all values, coefficients and roundings", "anchors": ["src/obsrnx.cpp: ObservationRnx::sat_epoch_collect, RawRnxObs__::resolve", "src/sp3c.cpp: get_next_position"]}
{"id": "C79", "title": "GLONASS states and clocks are accurate in double precision", "statement": "With every operation rounded to double precision, a GLONASS record with an orbit radius of at least 25000 km, velocities up to 4 km/s, lunisolar accelerations up to 1e-7 km/s2 and clock coefficients in their ranges, evaluated within 15 minutes of its time of ephemeris, gives status 0; position and velocity differ by at most a hundredth of a millimetre and 2e-8 m/s from the exactly computed fourth order Runge-Kutta steps of the equations of motion (at epochs of another day than the ephemeris, unless the elapsed time is within 0.1 ns of a whole number of minutes without being one), and the clock differs by at most 2e-18 s from the polynomial of the record.", "quantifier": "every record in range, every epoch in the window, every way of rounding to nearest", "why_tests_cant": "all records, epochs and roundings", "anchors": ["src/navrnx.hpp: stateNclock, glo_stateNclock, ref2toe", "src/glonav.cpp: glo_ecef, glo_state_deriv, glo_clock"]}
{"id": "C80", "title": "Damaged records of an ANTEX file are reported and do no harm to the others", "statement": "In an ANTEX file whose records start with START OF ANTENNA and TYPE / SERIAL NO and end with END OF ANTENNA but may have anything in between, the answer of get_antenna_pco for a receiver antenna depends only on the record the antenna is matched to: when the announced frequencies are well formed their offsets and 0 are returned; when a line of the head is missing or replaced, the number of frequencies is unreadable, a frequency has no name or no offsets line, or there are fewer frequencies than announced, the status is nonzero (1 to 4 the lines of the head, 5 or 11 no next frequency, 6 no name, 7 no offsets) and exactly the offsets before the defect are returned; the object can be queried again.", "quantifier": "every file of any number of records, damaged in any way between their first two lines and their last; every receiver antenna", "why_tests_cant": "all files, all kinds and places of damage", "anchors": ["src/antex.cpp: Antex::get_antenna_pco, Antex::find_closest_antenna_match, Antex::collect_pco"]}
{"id": "C81", "title": "A truncated ANTEX file never yields offsets that are not in it", "statement": "When an ANTEX file ends early, inside the record a receiver antenna is matched to (also in the middle of a line), get_antenna_pco returns; the offsets it returns are those of the first frequencies of that record, and the status is 0 only if all frequencies were returned.", "quantifier": "every file and every point at which it may end", "why_tests_cant": "all crash points of the program that wrote the file", "anchors": ["src/antex.cpp: Antex::get_antenna_pco, Antex::find_closest_antenna_match, Antex::collect_pco"]}
{"id": "C82", "title": "Malformed lines of an observation file are reported and do no harm to the other epochs", "statement": "A client that keeps calling read_next_epoch on an observation file in which some lines are malformed gets one answer per piece of the file, in order. A line in place of an epoch header that is none (no '>', too short, unreadable date, seconds, number of satellites or clock out of range) gives 21..25, no satellites and an untouched vector; an epoch with a data line of an unknown system, or of a requested system with an unreadable satellite number or requested value, gives 31 and the satellites before that line; every other epoch is delivered as if the malformed ones were not in the file; then -1 for ever.", "quantifier": "every file made of any number of good epochs, malformed headers, stray lines and broken epochs, every request", "why_tests_cant": "all files, all defects and all places of them", "anchors": ["src/obsrnx.cpp: ObservationRnx::read_next_epoch, ObservationRnx::collect_epoch, ObservationRnx::sat_epoch_collect", "src/obsrnx.hpp: RawRnxObs__::resolve"]}
{"id": "C83", "title": "A truncated observation file yields its complete epochs and never reports a cut one as good", "statement": "When an observation file ends early, at any character of it, a client that keeps calling read_next_epoch gets every complete epoch with status 0 exactly as from the whole file, then for the epoch in which the file ends a status other than 0 (-1, 21, 25 or 31), then -1 for ever. With that status the epoch announced is the one of the header line up to the receiver clock; the satellites counted are the first ones of the epoch, with the values of the whole file except that some values of the last of them may be missing; a value is never cut short.", "quantifier": "every observation file of any number of epochs and every point at which it may end, every request", "why_tests_cant": "all crash points of the program that wrote the file, all files", "anchors": ["src/obsrnx.cpp: ObservationRnx::read_next_epoch, ObservationRnx::collect_epoch, ObservationRnx::sat_epoch_collect", "src/obsrnx.hpp: RawRnxObs__::resolve"]}
{"id": "C84", "title": "A truncated navigation file yields its complete records and never a record of which a line is missing", "statement": "When a navigation file ends early, at any character of it, a client that keeps calling read_next_record gets every complete record with status 0 exactly as from the whole file; for the record in which the file ends the status is not 0 unless the file ends within the last line of that record; then -1 for ever. Whatever bytes a file holds, a record is delivered (by read_next_record, find_next and find_next_valid) only if all its lines are in the file, and ignore_next_block reports success only if the lines it skipped are there. A record cut within its last line is not delivered with other numbers than the file had.", "quantifier": "every navigation file of any number of records of any systems, every point at which it may end; every byte sequence", "why_tests_cant": "all crash points of the program that wrote the file, all files", "anchors": ["src/navrnx.cpp: NavigationRnx::read_next_record, NavigationRnx::find_next, NavigationRnx::find_next_valid, NavigationRnx::ignore_next_block", "src/navdataframe.cpp: NavDataFrame::set_from_rnx3"]}
{"id": "C85", "title": "A truncated SP3 file yields its complete epochs and never a cut one", "statement": "When an SP3 file ends early, at any character of it, a client that keeps calling get_next_epoch gets every complete epoch with status 0 exactly as from the whole file; for the epoch in which the file ends the call returns, with a status that is neither 0 nor -1. A file that ends in the header is refused by the constructor, or its object reports an error on every call, also after rewind. Whatever bytes a file holds, an epoch is reported (0 or -1) only if its header line, its records and the line that ends it are in the file, and then the number of records returned is the number of position lines that are there.", "quantifier": "every SP3 file of any number of epochs, every point at which it may end; every byte sequence", "why_tests_cant": "all crash points of the program that wrote the file, all files", "anchors": ["src/sp3c.cpp: Sp3c::get_next_epoch, Sp3c::get_next_position, Sp3c::read_header, Sp3c::rewind"]}
{"id": "C86", "title": "The interpolator loads the first epochs of the file, one series per satellite", "statement": "LagrangeSp3Interpolator::initialize() rewinds the file and returns 0 with the first K + 1 epochs loaded (all of them when the file has no more): the times in file order, and for every satellite of these epochs one slot with its records, the n-th record of a slot belonging to the n-th time. Calling it again loads the same again.", "quantifier": "every file of any number of epochs and satellites, satellites missing in any epochs, every window, every state of the stream", "why_tests_cant": "all files and windows; an uninitialised local variable that happens to be 0 in a test", "anchors": ["src/sp3c.hpp: LagrangeSp3Interpolator::initialize"]}
{"id": "C87", "title": "The orbit table program lists the satellite's position and clock from the message in force", "statement": "test_navrnx NAV SAT [ANTEX] writes, for the satellite named on the command line, one line per minute, from the time of clock of its first message in the navigation file for a day or until its messages have expired; every line shows the position and clock correction that a message of that satellite in force at the epoch of the line broadcasts. Messages of an unhealthy satellite are not used. The exit code is 0; 10 without any line when the file has no message of the satellite; 5 when an ANTEX file is given and does not have the satellite at that time; 1 when the satellite cannot be read.", "quantifier": "every navigation file of any number of records, every satellite of every system, with and without ANTEX file", "why_tests_cant": "all files, any number of messages with any times, healths and fit intervals; memory errors that a test run may survive", "anchors": ["test/test_navrnx.cpp: main, msg_is_ok, get_next_msg", "src/navrnx.cpp: NavigationRnx::find_next", "src/navdataframe.hpp: NavDataFrame::stateNclock", "src/antex.cpp: Antex::get_satellite_info"]}
{"id": "C88", "title": "A satellite query on a damaged ANTEX file depends only on the records that name the satellite", "statement": "For an ANTEX file whose records begin and end as they should but may be damaged inside, get_satellite_info and get_antenna_pco for a satellite and epoch use the first record that names the satellite and states an interval of validity containing the epoch; records that name no satellite, or state no interval (no method line, no begin, a date that cannot be read, no frequencies), are passed over, and what the records of other satellites hold does not matter. If there is no such record the status is 10. Every query returns, and the object can be queried again.", "quantifier": "every file of any number of records with arbitrary lines inside, every satellite and epoch", "why_tests_cant": "all placements and kinds of damage, in files of any length; a query that does not return cannot be observed", "anchors": ["src/antex.cpp: find_satellite_antenna, check_time_interval, resolve_satellite_antenna_line, get_satellite_info, get_antenna_pco"]}
{"id": "C89", "title": "A truncated SATELLIT file answers from its complete records and invents nothing", "statement": "When a Bernese SATELLIT file ends early, at any character of it: if the header is cut the constructor throws std::runtime_error, unless everything it checks is there; otherwise a lookup whose record is complete in what is left answers as for the whole file, and a lookup for which no record of the file is in force never reports success.", "quantifier": "every SATELLIT file of any number of records, every point at which it may end, every satellite and epoch", "why_tests_cant": "all crash points of the program that wrote the file, all files; the array that keeps the bytes of the previous line", "anchors": ["src/bern_utils.cpp: BernSatellit::BernSatellit, BernSatellit::initialize, BernSatellit::get_frequency_channel"]}
{"id": "C90", "title": "A file whose header has no end is never opened", "statement": "A navigation, observation or ANTEX file without a line that has END OF HEADER from its 61st column on - whatever its bytes, for example because it was cut anywhere before the last character of that label - is never opened: the constructor throws std::runtime_error.", "quantifier": "every sequence of bytes without an END OF HEADER line, in particular every cut of every well formed header; every content of the uninitialised line array", "why_tests_cant": "arbitrary byte sequences and all crash points of the program that wrote the file; the uninitialised array", "anchors": ["src/navrnx.cpp: NavigationRnx::read_header", "src/antex.cpp: Antex::read_header", "src/obsrnx.cpp: ObservationRnx::read_header"]}
{"id": "C91", "title": "The check programs report how many epochs or data blocks a file has", "statement": "Run on a well formed file, test_sp3, test_obsrnx and test_navrnx_G/_E/_C/_R read it to its end, report end of file as the last status and, as the number of epochs (data blocks) read, the number the file has; test_obsrnx prints one line for every epoch with data of E12, with its second of day and the observables requested that the header lists.", "quantifier": "every well formed SP3, RINEX observation and RINEX navigation file, of any length; every content of uninitialised memory; every satellite number", "why_tests_cant": "files of every length; all the layouts the readers accept; the observables that a header happens to list", "anchors": ["test/test_sp3.cpp: main", "test/test_obsrnx.cpp: main", "test/test_navrnx_G.cpp: main", "test/test_navrnx_E.cpp: main", "test/test_navrnx_C.cpp: main", "test/test_navrnx_R.cpp: main"]}
{"id": "C92", "title": "The listings of the navigation check programs", "statement": "test_navrnx_G, _E and _C list position and clock of a satellite once a minute, each line computed from the message in force at its epoch (the last one whose time of clock has come), from the first message to the last; then the program ends with success.", "quantifier": "every well formed navigation file, any number of messages of the satellite, any other records between them; every satellite number", "why_tests_cant": "all sequences of messages, with gaps of every length; the loop has no bound of its own", "anchors": ["test/test_navrnx_G.cpp: main", "test/test_navrnx_E.cpp: main", "test/test_navrnx_C.cpp: main"]}
{"id": "C93", "title": "The listing of a GLONASS satellite covers a day", "statement": "test_navrnx_R lists position and clock of a GLONASS satellite once a minute over the day that follows its first message: a line for every epoch less than 15 minutes away from a healthy message, none for the others, computed from that message; then it ends with success.", "quantifier": "every well formed navigation file, any number of GLONASS messages with any times of ephemeris, any other records between them; every satellite number", "why_tests_cant": "all sequences of messages and gaps; the iteration counter is shared by epochs and messages", "anchors": ["test/test_navrnx_R.cpp: main, read_next_glo_frame"]}
{"id": "C94", "title": "The frequency channel listing answers every question from the file", "statement": "test_bern_SATELLIT, which asks one BernSatellit object for the channels of twelve satellites at two epochs, prints for every question, in order, the PRN and channel of the first record in force, says not matched exactly when the file has no record in force, ends with exit code 0 on a well formed file and with 2 at the first question that meets a damaged record.", "quantifier": "every well formed SATELLIT file with at most a thousand records, every file with a damaged record after well formed ones; every content of uninitialised memory", "why_tests_cant": "the answers must not depend on the questions asked before; all numbers of records, all epochs of validity", "anchors": ["test/test_bern_SATELLIT.cpp: main", "src/bern_utils.cpp: get_frequency_channel, initialize"]}
{"id": "C95", "title": "An impossible calendar date in a file is an error, not the end of the program", "statement": "Where a file gives a date that is not a day of the calendar (so that the date library refuses it), the reader reports an error through its status or exception; a file whose dates are all accepted is delivered with the library's dates.", "quantifier": "every SP3 file (header and every epoch, any number of epochs before it), observation file (header and epochs) and navigation file whose date columns are well formed numbers the date library refuses; every content of uninitialised memory", "why_tests_cant": "the date may stand in any record of a file of any length; what the library accepts is open", "anchors": ["src/sp3c.cpp: get_next_epoch, read_header", "src/obsrnx.cpp: __resolve_epoch_304__, read_header", "src/navrnx.cpp: read_next_record"]}
{"id": "C96", "title": "An SP3 file can be read again and again", "statement": "On one open SP3 file, whatever calls to get_next_epoch and rewind() are made in whatever order: a call delivers the epoch the caller stands before (0, and -1 for the last one), behind the last epoch the status is 1, and after rewind() the next call delivers the first epoch.", "quantifier": "every well formed SP3 file with any number of epochs and satellites, with or without a newline behind EOF; every finite history of get_next_epoch and rewind() calls; every content of uninitialised memory", "why_tests_cant": "histories are unbounded, and the state that matters (the stream's flags) is not observable; the failure needs one call past the end before a rewind", "anchors": ["src/sp3c.cpp: rewind, get_next_epoch", "src/sp3c.hpp: rewind"]}
{"id": "C97", "title": "Offsets an ANTEX query returns stand in the record of the antenna asked for", "statement": "Whatever get_antenna_pco returns, for a receiver antenna or for a satellite and an epoch: the offsets it delivers are numbers that stand in the file, under their frequency, in the order of the file and in the record of the antenna (satellite) asked for; never more than that record announces, and status 0 only with exactly the announced number.", "quantifier": "every ANTEX file, well formed or not, whose lines behind the header have 60 to 511 characters (any characters); every antenna, satellite and epoch asked for; every content of uninitialised memory; every strptime", "why_tests_cant": "the files are arbitrary text: a damaged record may be damaged in any of unboundedly many ways, and the answer must never contain a number that is not there", "anchors": ["src/antex.cpp: get_antenna_pco, collect_pco, find_closest_antenna_match, find_satellite_antenna"]}
{"id": "C98", "title": "Whatever a SATELLIT lookup returns stands in the file", "statement": "A lookup of the GLONASS channel of a satellite at an epoch answers from the lines of the file alone, whatever stands on them: PRN and channel (status 0) are the numbers at the beginning and at column 193 of the first line that is a micro-wave record of the satellite in force at the epoch; -1, with the caller's variables untouched, only if no such line is among the first thousand; 2 only if a micro-wave record before it has no readable satellite number; 3 only if the PRN or channel there exceeds a long.", "quantifier": "every SATELLIT file whose record lines have 194 to 255 characters (any characters, any number of lines), with any of the three ways of ending; every satellite and epoch; every content of uninitialised memory; every strptime that reads a C string", "why_tests_cant": "the lines are arbitrary text, and the answer must be right for the first matching line however damaged the others are", "anchors": ["src/bern_utils.cpp: BernSatellit::get_frequency_channel"]}
{"id": "C99", "title": "Whatever read_next_record returns is what the lines of the record say", "statement": "For a navigation record of arbitrary lines: status 0 only if the satellite number and every number of the record could be read, and then the frame holds the system, satellite, date and numbers that stand on the lines, each at its payload index and in its unit, the rest of the payload being untouched; status 2, 3, 6 or 8 only if the satellite number (2) or a number on the first (3), a middle (6) or the last line (8) is none, everything before it being readable; exactly the lines looked at are consumed. Apart from hexadecimal numbers, infinities and NaN the lines leave no choice.", "quantifier": "every satellite system, every list of as many lines as a record has, of any characters (at most 127 each, reaching the columns of their numbers), every frame and stream before, every content of uninitialised memory, every date reader", "why_tests_cant": "the lines are arbitrary text; that nothing is made up and nothing readable is refused must hold for every one of them", "anchors": ["src/navrnx.cpp: NavigationRnx::read_next_record, NavDataFrame::set_from_rnx3", "src/nvarstr.hpp: __char2double__", "src/nvarstr.cpp: __for2cpp__"]}
{"id": "C100", "title": "Whatever get_next_epoch of the SP3 reader returns is what the lines of the epoch say", "statement": "For an epoch of arbitrary lines: the status is that of a complete epoch only if the header line and every position line could be read, and then the epoch is the date of the header (seconds cut to microseconds), the first slots of the vector hold one record per position line in file order with the system, satellite, coordinates (in metres) and clock that stand on the line and the events its columns signal, the other slots are untouched and the number of satellites is the number of position lines; any other status names the first defect of the first line that has one (header: 2, 5-9, 11; position line: 23-28), everything before it being readable and stored; exactly the lines looked at are consumed. Apart from hexadecimal numbers, infinities and NaN the lines leave no choice.", "quantifier": "every header line of at least 20 characters, every list of further lines of any characters (at most 127 each, position lines reaching their last number), every vector, epoch and counter before, every stream position, every content of uninitialised memory, a last epoch or not", "why_tests_cant": "the lines are arbitrary text; that nothing is made up and nothing readable is refused must hold for every one of them", "anchors": ["src/sp3c.cpp: Sp3c::get_next_epoch, Sp3c::get_next_position", "src/sp3c.hpp: Sp3Flag"]}
{"id": "C101", "title": "Whatever read_next_epoch of the observation reader returns is what the lines of the epoch say", "statement": "For an epoch of arbitrary lines: status 21-25 only with nothing touched and one line consumed; otherwise the header line says what the call reports (C43), and of the data lines it announces: status 0 only if every line begins with a known system and every line of a requested system has a satellite number and no unreadable requested field, and then the first slots of the vector hold one entry per line of a requested system, in file order, with system, satellite and for every requested observable the combination of what stands in its fields (a field that is absent, cut, blank or shows the missing-value marker gives the marker), the other slots being untouched; status 31 only if some line is not so, everything before it being stored and the slots after it untouched; exactly the lines looked at are consumed. Apart from hexadecimal numbers, infinities and NaN the lines leave no choice.", "quantifier": "every header line and list of data lines of any characters that fit the buffer, every request, every vector with room for its values, every stream position, every content of the buffer and of uninitialised memory, every calendar", "why_tests_cant": "the lines are arbitrary text; that nothing is made up and nothing readable is refused must hold for every one of them", "anchors": ["src/obsrnx.cpp: ObservationRnx::read_next_epoch, collect_epoch, sat_epoch_collect, RawRnxObs__::resolve, __resolve_epoch_304__"]}
{"id": "C102", "title": "Whatever an opened SP3 file reports is what the lines of its header say", "statement": "When a file of arbitrary lines is opened as an SP3 file, its version, number of epochs, number of satellites, coordinate system, orbit type, agency, time system, start epoch and interval are what stands in the columns of the header lines that the format gives to them, the start epoch agrees with week, second of week, day and fraction of the second line, and a column that cannot be read makes the open fail. Apart from hexadecimal numbers, infinities and NaN the lines leave no choice for any member.", "quantifier": "every list of lines of any characters that fit the buffer, every content of the uninitialised line buffer, every value of errno at entry, every date library", "why_tests_cant": "the lines are arbitrary text; that no member of the object is made up must hold for every one of them", "anchors": ["src/sp3c.cpp: Sp3c::Sp3c, Sp3c::read_header", "src/sp3c.hpp: Sp3c"]}
{"id": "C103", "title": "A navigation file is opened exactly when its header says what it is", "statement": "A file of arbitrary lines whose first line reaches the label columns is opened exactly when that line begins with a number, has N in column 20 and the letter of a satellite system in column 40, and one of the following 1000 lines is labelled END OF HEADER; the object then has this version and system and its stream stands, good, on the first line after that label. Otherwise std::runtime_error is thrown. The lines leave no choice for version, system and position.", "quantifier": "every list of lines of any characters that fit the header buffer, short and empty lines included, every content of the uninitialised line buffer", "why_tests_cant": "the lines are arbitrary text, and short lines leave the bytes of earlier lines in the buffer where the label is looked for: that no such leftover ends the header must hold for every history of lines", "anchors": ["src/navrnx.cpp: NavigationRnx::NavigationRnx, NavigationRnx::read_header"]}
{"id": "C104", "title": "An observation file is opened exactly when every header line says something, and the object repeats it", "statement": "Take any header lines that reach their label. If the file is opened, the object's version and system are those of the first line; the lines between the second one and END OF HEADER are entries, each complete, and the object reports of every kind what the last entry of that kind says: first words of the name columns, the numbers at columns 0, 14 and 28, the clock flag, the date, and per system exactly as many codes as its line announces, each standing in its columns, no system twice; the stream stands on what follows the header. If version and numbers are plain decimal ones the file is opened exactly when such a reading exists, and there is at most one.", "quantifier": "every list of header lines of 60 to 84 characters of any content up to the first END OF HEADER, any text behind it, every content of uninitialised memory, every date parser", "why_tests_cant": "the lines are arbitrary text; lists of observation types spread over several lines and are recognised by labels and counts, so every combination of lines, counts and malformed numbers would have to be tried", "anchors": ["src/obsrnx.cpp: ObservationRnx::ObservationRnx, ObservationRnx::read_header, ObservationRnx::__resolve_obstypes_304__"]}
{"id": "C105", "title": "Whatever satellite information an ANTEX query returns stands in the file", "statement": "Take any file whose lines behind the header have 60 to 511 characters. If get_satellite_info answers (status 0), or get_antenna_pco assigns the satellite, then the file has a record that names the satellite asked for and gives an interval of validity that holds the epoch; the antenna reported is the text of columns 0-19 of the TYPE line of that record; SVN and COSPAR id are those in columns 40-49 and 50-57 of that line if it has any; if it has none, they are those of a TYPE line before it in the file, or what they were when the search began (SVN -1).", "quantifier": "every list of lines of 60 to 511 characters of any content, every satellite, system and epoch, every content of uninitialised memory, every date parser", "why_tests_cant": "the lines are arbitrary text: the record found, the blank columns and the values carried over from records before it can combine in unboundedly many ways", "anchors": ["src/antex.cpp: Antex::find_satellite_antenna, resolve_satellite_antenna_line, Antex::get_satellite_info, Antex::get_antenna_pco"]}
{"id": "C106", "title": "An ANTEX file is opened exactly when its header says what it must, and the object stands behind it", "statement": "Take any header lines. If the file is opened, columns 0-14 of its first line hold the version (1.3 or 1.4 up to 0.001), column 20 the system that the object reports, the second line begins with A, and the position the object keeps is that behind the first END OF HEADER line, which is one of the 1000 lines after the second. If the version is a plain decimal number the file is opened exactly when these lines are there; otherwise a runtime_error is thrown. There is at most one such reading.", "quantifier": "every list of lines of at most 84 characters of any content (the first of at least 60, the first two not labelled END OF HEADER), every content of uninitialised memory", "why_tests_cant": "the lines are arbitrary text, short lines leave parts of earlier ones in the buffer that is searched for the label", "anchors": ["src/antex.cpp: Antex::Antex, Antex::read_header, Antex::reset_to_file"]}
{"id": "C107", "title": "A SATELLIT file is opened exactly when its header is there, and the object stands on the records", "statement": "Take any lines. The constructor succeeds exactly when the first line begins with the name of the format, one of the 999 lines after it begins with PART 2: ON-BOARD SENSORS, and the second and third line after the first of these begin with the two headings; otherwise a runtime_error is thrown. The object then looks up records behind the line that follows the headings. There is at most one such reading.", "quantifier": "every list of lines of at most 255 characters of any content, every content of uninitialised memory", "why_tests_cant": "the lines are arbitrary text, the header has no fixed length, and the search is limited", "anchors": ["src/bern_utils.cpp: BernSatellit::BernSatellit, BernSatellit::initialize"]}
{"id": "C108", "title": "An observation epoch header is accepted for what it says and refused for the defect it shows, whatever the line looks like", "statement": "read_next_epoch on any line in place of an epoch header: the call reports 21 exactly when the line does not begin with > or has fewer than 35 columns, 22 exactly when one of the five numbers of date and time is none, 23 when the seconds are none, 24 when the number of satellites is beyond a long and 25 when the clock offset is beyond a double, each only when everything before it is readable, and then exactly this line is consumed and nothing else touched; it reports an epoch exactly when the line has none of these defects, and then date, flag, number of satellites and clock offset are those of the line; a date at which the calendar function throws ends the process. These cases exclude each other and there is no other one.", "quantifier": "every line of any content that fits the buffer, whose date numbers end in front of the flag column and whose seconds and clock offset are no hexadecimal numbers, infinities or NaN; every content of the buffer before, every calendar function", "why_tests_cant": "the line is arbitrary text, numbers are found by scanning rather than by columns, and what stands behind the line in the buffer is left over from earlier lines", "anchors": ["src/obsrnx.cpp: ObsRnx::read_next_epoch, __resolve_epoch_304__"]}
{"id": "C109", "title": "A call that reads an SP3 epoch comes back, is undefined, runs for ever or ends the process exactly when the lines of the epoch say so", "statement": "get_next_epoch on an epoch of any lines: the call returns exactly when the header line has a defect, or a position line has one and those before it are readable and have room in the vector, or all position lines are readable and have room and the epoch is closed by the star of another one or a line EOF; it is undefined exactly when the seconds of the header in microseconds are beyond a long, or a readable position line finds the vector full; it never comes back exactly when all lines are readable and have room but the file ends with them; it ends the process exactly when the header is readable but its date is one the calendar throws at. These cases exclude each other, there is no other one, and no exception leaves the call.", "quantifier": "every header line of at least 20 columns and every list of lines that fit the buffer, whose position lines reach their last number, with no hexadecimal number, infinity or NaN in a place of a number; every size of the vector, every content of the buffer, every number of steps, every calendar that takes a date or throws", "why_tests_cant": "non-termination cannot be observed by a test, and undefined behaviour need not show; the lines are arbitrary text", "anchors": ["src/sp3c.cpp: Sp3c::get_next_epoch, Sp3c::get_next_position"]}
{"id": "C110", "title": "A call that reads a navigation record comes back, is undefined or ends the process exactly when the lines of the record say so", "statement": "read_next_record on a record of any lines: the call ends the process exactly when the calendar throws at the date of the first line, whatever else is in the record; it is undefined exactly when the date is taken, satellite number and every number can be read, and the week is beyond an int or the second of week beyond a long (GPS, Galileo, BeiDou: week of line 6 and second of line 4; GLONASS: second of line 1); in every other case it returns. These cases exclude each other, the call never runs for ever and no exception leaves it.", "quantifier": "every list of as many lines as the system has, of any content that fits the buffer and reaches the columns of its numbers, with no hexadecimal number, infinity or NaN in a place of a number; every content of the buffer and of the frame, every calendar that takes a date or throws", "why_tests_cant": "the lines are arbitrary text, and undefined behaviour need not show in a test", "anchors": ["src/navrnx.cpp: NavigationRnx::read_next_record, NavDataFrame::set_from_rnx3", "src/navrnx.hpp: toe2date"]}
{"id": "C111", "title": "A call that reads an observation epoch comes back, is undefined or ends the process exactly when the lines and the size of the vector say so", "statement": "read_next_epoch on an epoch of any header line and data lines: the call ends the process exactly when the header is one up to its date and the calendar throws at it; it is undefined exactly when the header is accepted and a line that begins with the letter of a requested system, every line before being readable, finds no element of the caller's vector left; in every other case it returns, also when the file has fewer lines than the header says. These cases exclude each other, the call never runs for ever and no exception leaves it. With as many elements as there are lines it is never undefined.", "quantifier": "every header line and every list of data lines that fit the buffer, with no hexadecimal number, infinity or NaN in a place of a number, every request, every vector whose elements have a value for each observable asked for, of any size, every content of the buffer, every calendar that takes a date or throws", "why_tests_cant": "the lines are arbitrary text, and undefined behaviour need not show in a test", "anchors": ["src/obsrnx.cpp: ObservationRnx::read_next_epoch, collect_epoch, sat_epoch_collect, __resolve_epoch_304__, initialize_epoch_vector"]}
{"id": "C112", "title": "A search for a satellite in a navigation file of arbitrary records ends where and how the records say", "statement": "find_next on a file whose records have any lines: it ends at the first record of the system that is either unreadable, whatever its satellite, or of the satellite asked for. An unreadable record is reported with the status of its first defect (2, 3, 6 or 8), the stream behind the line with the defect; a record of the satellite is delivered with status 0, its content in the frame and the stream behind its last line; when there is neither, -1 is reported at the end of the file. The process ends at a date the calendar refuses, and the behaviour is undefined at a time of ephemeris that cannot be made - also in records of other satellites of the system. What is in records of other systems does not matter. The position returned is the one before the search.", "quantifier": "every list of records with as many lines as their system has, those of the system asked for reaching the columns of their numbers and without hexadecimal numbers, infinities or NaN; every system, satellite number (or -1), frame and left-over buffer content, every calendar that takes a date or throws", "why_tests_cant": "the number of records and their text are unbounded", "anchors": ["src/navrnx.cpp: NavigationRnx::find_next, read_next_record, ignore_next_block, peak_satsys"]}
{"id": "C113", "title": "A search for the message in force in a navigation file of arbitrary records ends where and how the records say", "statement": "find_next_valid on a file whose records have any lines: records of other systems do not matter; records of other satellites of the system, and messages of the satellite that are unhealthy or not in force at the epoch asked for, are passed over; the first message of the satellite that is healthy and in force is delivered with status 0. Health is the fourth number of line 1 (GLONASS) or the second of line 6; a GLONASS message is in force 15 minutes around the second of week of line 0, a GPS message from its date on for the hours of line 7, a Galileo or BeiDou message for 4 hours from its date on. A message of the satellite dated more than 4 hours after the epoch ends the search with -1, as does the end of the file; an unreadable record of the system ends it with the status of its first defect. The process ends at a date the calendar refuses and at a message of the satellite in a system without rules; the behaviour is undefined at a time of ephemeris that cannot be made and at a health or number of hours outside the range of int.", "quantifier": "every list of records with as many lines as their system has, those of the system asked for reaching the columns of their numbers and without hexadecimal numbers, infinities or NaN; every system, satellite number, epoch, frame and left-over buffer content, every calendar that takes a date or throws", "why_tests_cant": "the number of records, their text and the epoch are unbounded", "anchors": ["src/navrnx.cpp: NavigationRnx::read_next_record, ignore_next_block", "src/navrnx.hpp: NavigationRnx::find_next_valid, NavDataFrame::sv_health, fit_interval"]}
{"id": "C114", "title": "A navigation reader is a cursor over the records of its file, whatever calls are made on it", "statement": "Any series of read_next_record, ignore_next_block, peak_satsys, find_next, find_next_valid and rewind, on an opened file whose records have any lines, answers like a cursor over the list of records: reading delivers the record at the cursor, or reports the status of its first defect, or -1 at the end; skipping moves over one record whatever is in it; peeking tells its system and does not move; a search goes from the cursor as its records say (C112, C113); a call leaves the cursor behind the record it ended at, and rewind() puts it in front of the first record from anywhere, also from within a record that was refused. No answer depends on anything else that was called before. A call that does not come back (a date the calendar refuses, a time of ephemeris that cannot be made) is the last. Calls other than rewind() made within a refused record are not covered.", "quantifier": "every series of calls of any length with every argument; every list of records with as many lines as their system has, reaching the columns of their numbers and without hexadecimal numbers, infinities or NaN; every frame and left-over buffer content, every calendar that takes a date or throws", "why_tests_cant": "the series of calls, the number of records and their text are unbounded", "anchors": ["src/navrnx.cpp: NavigationRnx::read_next_record, ignore_next_block, peak_satsys, find_next, rewind", "src/navrnx.hpp: NavigationRnx::find_next_valid"]}
{"id": "C115", "title": "An SP3 file is read epoch by epoch up to the first line that cannot be read, whatever is in it", "statement": "A caller that calls get_next_epoch while the status is 0, on a file whose epochs have any lines: every epoch in front of the first defective one is delivered with status 0, its date, its records in the vector in the order of the lines, and their number; the last epoch before the line EOF is delivered with status -1. The first defect ends the series with the status of the defect, the records of the epoch in front of it in the vector and the number of satellites of the epoch before. The series also ends where the behaviour is undefined (a record for which the vector has no element, seconds beyond a long), where the process ends (a date the calendar refuses), and where the call does not come back (no line EOF behind the last epoch). No call takes anything from another epoch.", "quantifier": "every list of epochs: header lines of at least 20 chars beginning with a star, further lines of any content that fit the buffer, position lines reaching their last number; every vector, caller's variables, left-over buffer content and calendar; exact for lines without hexadecimal numbers, infinities or NaN", "why_tests_cant": "the number of epochs and lines and their text are unbounded", "anchors": ["src/sp3c.cpp: Sp3c::get_next_epoch, get_next_position", "test/test_sp3.cpp"]}
{"id": "C116", "title": "An observation file is read epoch by epoch up to the first line that cannot be read, whatever is in it", "statement": "A caller that calls read_next_epoch with the same vector while the status is 0, on a file with any lines: every epoch in front of the first defect is delivered with status 0, its header, the number of satellites of the requested systems and their values in the order of the lines, elements behind them unchanged; behind the last epoch the status is -1 (an epoch whose last line has no newline is delivered with -1 itself). The first defect ends the series: a refused header (21..25, no satellite, vector unchanged), a refused data line or a file that ends within an epoch (31, the satellites of the lines in front in the vector and their number), undefined behaviour for a satellite for which the vector has no element, the end of the process for a date the calendar refuses. The next call begins behind the number of lines the header announces, whatever they are. No call takes anything from another epoch.", "quantifier": "every file whose lines fit the buffer, with or without a final newline; every vector with room for the observables, left-over buffer content and calendar; the date of lines that begin with > within its columns, and seconds and clock that are no hexadecimal numbers, infinities or NaN; determined for requested fields without these", "why_tests_cant": "the number of epochs and lines and their text are unbounded", "anchors": ["src/obsrnx.cpp: ObservationRnx::read_next_epoch, collect_epoch", "test/test_obsrnx.cpp"]}
{"id": "C117", "title": "A caller who keeps reading an observation file after defects gets every epoch behind them, whatever the defects are", "statement": "A caller that calls read_next_epoch any number of times, whatever the status, on a file with any lines: a refused header (21..25) costs its own line, a refused data line (31) the lines up to it, an epoch within which the file ends the rest of the file; the next call begins behind these lines as if the file began there, with the vector as it was left. At the end of the file every further call gives -1. Status, header and number of satellites of every answer are determined by the lines and the number of elements of the vector, not by what earlier calls left in the vector, the line buffer or errno. The series ends only with undefined behaviour (no element for a satellite) or the end of the process (a date the calendar refuses).", "quantifier": "every file whose lines fit the buffer, with or without a final newline; every number of calls, vector with room for the observables, left-over buffer content and calendar; the date of lines that begin with > within its columns, and seconds and clock that are no hexadecimal numbers, infinities or NaN; determined for requested fields without these", "why_tests_cant": "the number of calls, defects, epochs and lines and their text are unbounded", "anchors": ["src/obsrnx.cpp: ObservationRnx::read_next_epoch, collect_epoch, __resolve_epoch_304__", "test/test_obsrnx.cpp"]}
