
## Trusted base

* **Lean's kernel** (Lean 4.33.0) and Mathlib as installed. Every theorem named in MANIFEST.json is accepted by the
  kernel; no axiom is added, no proof is left open, nothing relies on compiled evaluation.
* **Axioms.** `#print axioms` on the theorems shows only subsets of `propext`, `Classical.choice`, `Quot.sound`
  (the three standard axioms; `Classical.choice` enters through Mathlib's reals, `omega`, `simp`, `by_cases`).
* **The model's faithfulness** to /repo: the definitions in `lean/Verif/Model/*.lean` were transcribed by reading; each
  cites file and lines. The C++ was not executed.
* **What the specification files say** (`lean/Verif/Spec/*.lean`): the description of well formed files, numerals,
  orbit formulas, filters. They use no function of the model except the value types.

### Reading the model

* `Res α` is the outcome of a C++ expression: `ok`, `throw` (exception), `ub` (undefined behaviour: out-of-range read or
  write, reading an indeterminate value, overflowing conversion), `terminate` (exception leaving a `noexcept` function), `diverge` (loop fuel
  exhausted: only used with "for every fuel" or "for some fuel" statements).  `Lemmas/Fuel.lean` proves (`fuel_findNext`, `fuel_findNextValid`, `fuel_getNextEpoch`, `fuel_pcoReceiver`,
  `fuel_pcoSatellite`, `fuel_satInfo`, `fuel_stateNclock`, `fuel_ppProgram`) that every other result is independent of the fuel, so the bound is not part of the
  model's meaning.
* `noexcept` functions turn `throw` into `terminate`.
* Local arrays such as `char line[85]` start with arbitrary bytes (`junk` parameters): a theorem quantified over `junk`
  holds whatever was on the stack; reading such bytes as data is visible in the statement (witness theorems).
* `errno` is an explicit argument where the code tests it without having cleared it before.

### Assumptions about the outside

* `std::ifstream` behaves as in `Model/Stream.lean` on a regular file: no device errors (badbit), default locale, text
  mode without newline translation, files opened successfully (failure to open is a separate branch only where the code tests it).
* `strtol`, `strtod`, `std::stoi/stod`, `strncmp`, `memcpy`, `memset` as in `Model/Num.lean`, `Model/Base.lean` (C locale;
  `strtod` with its whole input language — decimal, hexadecimal `0x…p…`, `inf`/`infinity`, `nan`/`nan(…)` — and `errno` = ERANGE
  on overflow and underflow; rounding of decimals to binary is not modelled; the infinities and NaN, which have no
  counterpart among the rationals, are represented by ±10^400, larger than any double: casts of them to integers are undefined in
  the model as in C++, and no theorem about delivered values lets them in, since those require numerals that fit).
* `double` is modelled by exact rationals (readers) or reals (orbits, filter), without rounding, except in C76, C78 and C79 (`Model/Fp.lean`, `Model/OrbitFp.lean`, `Model/ReadFp.lean`, `Model/GloFp.lean`): there
  every operation is rounded to a nearest double (any tie rule, no fused multiply-add, no extended precision; `sqrt` correctly rounded; sin, cos with error at most
  2^-53, atan2 at most 2^-51 — glibc claims less than one ulp); overflow does not occur because all values are bounded in the theorems. `Fp.ideal` shows that
  such an arithmetic exists. Arithmetic on infinities and NaN is outside the model. Where conversion `double → int` overflows the model says `ub`.
* ggdatetime (external library): `datetime` is (mjd, seconds of day); its text parser (`strptime_*`), calendar-to-mjd
  conversion are parameters of the model; theorems that need them state what is required of them.
* `char` is signed 8 bit where its numeric value is used; `int` 32 bit, `long` 64 bit.

### Modelled

satsys (letters, bands, frequencies, attributes) · gnssobs, gnssobsrv (codes, observables, linear combinations, mixed, equality)
· satellite (text) · nvarstr, rinex.hpp · antenna (receiver, satellite) · navrnx (header, record reader, skipping, both searches, rewind,
toe/toc, health, fit interval) · gpsnav/galnav/bdsnav/glonav (orbit, clock, URA, SISA, IOD) · sp3c (flags, header, epoch reader, interpolator's construction, filling and initialize())
· bern_utils (opening, channel lookup) · antex (opening, receiver and satellite search, PCO collection, validity interval)
· obsrnx (header, read map, epoch reader, vector and buffer sizes, rewind) · gauss_newton.hpp (extended Kalman filter) · test/pp_rnx.cpp (all of it, from the command line on, but printing; `car2ell` of ggeodesy is a parameter; `assert` is active, i.e. `NDEBUG` not defined) · test/test_navrnx.cpp (all but printing) · test/test_sp3.cpp, test/test_obsrnx.cpp (all but the listing of header members), test/test_navrnx_G.cpp, _E.cpp, _C.cpp (the condition `cur_dt<=cur_dt.add(1 day)` is taken as always true) test/test_bern_SATELLIT.cpp, and test/test_navrnx_R.cpp (all but printing, for the constants `utc2gps` and `pz902wgs` as they are in the file, false).
All in the production configuration (`DEBUG` not defined, as in `Makefile.am.production`).  `Model/Debug.lean` models the other configuration (`-DDEBUG`
without `NDEBUG`, as in `src/Makefile.am` and `test/Makefile.am`): every live `#ifdef DEBUG` block that does more than print, with `assert` active (a failing one is
`terminate`), in navrnx.cpp, navrnx.hpp and obsrnx.cpp.  C71 relates the two.

### Not modelled

Blocks under `#ifdef DEBUG` that only print (or stand in commented-out code), text written to std::cout/std::cerr, moves and destructors of all classes but `ObservationRnx`, `print_members`,
`AntennaPco::dummy_print`, code inside comments (inertial GLONASS algorithm, earlier versions of the GPS/Galileo/BeiDou orbit routines),
`navcmp.cpp` (not compiled), the programs in `test/` except where named in a property, `var/` (benchmarks), build files.
Eigen's numerical inversion and rounding in gauss_newton.hpp.

## Code and property disagree

Properties are stated as a user would expect them. Where the unchanged code violates one, the violation is a theorem (a
witness, or "for every ..." when the violation is systematic) and the remaining part is proved under the suffix `_partial`.

* **Navigation RINEX.** A line starting with 'M' makes both searches loop for ever, the iteration counter is never
  incremented (C20). After the last record of a file without final newline `tellg` gives -1, and restoring that
  position goes to the end of header. Byte 0xFF counts as end of file. Lines shorter than the columns read keep bytes of earlier lines
  (or of the uninitialised array). GPS fit interval 0 is never valid. A blank PRN reads the year as PRN. `find_next_valid` on
  SBAS/QZSS/IRNSS terminates the process; a record cut within its last line is accepted with a truncated number and numbers of the line before (C84); PRN -1 ("any") never matches (C47). An unreadable record of
  another satellite ends `find_next` (C112); a message that lies ahead of the epoch ends `find_next_valid` even if a later record would be in force (C113).
* **GLONASS listing program.** `test_navrnx_R` lists less than a day, uses messages marked unhealthy, and runs for ever when the file has no message of the satellite that is not past (C93).
* **Orbits.** `sv_clock` without given anomaly evaluates it at t-toc instead of t-toe (C26). GLONASS reference time is a week off at week rollover (C23);
  integration moves in whole 60 s steps, so it overshoots, and is frozen more than half a day away (C46); the state is overwritten although the
  status is -1. `gps_ura` treats the RINEX value in metres as an index. BeiDou geostationary satellites get no special treatment.
  Beyond 64 rad of mean anomaly the limit 1e-14 of the iteration is below the spacing of doubles: it can alternate for ever and status 1 is returned (C76).
* **Observables.** Equality is not symmetric with repeated parts (C04).
* **Fixed-width numbers.** A blank column takes the number of its neighbour (C09).
* **Antennas.** Missing radome not replaced for texts of 20 chars and more (C11); short serials never compare equal
  (C12); satellite antenna comparison is inverted (C14).
* **SP3.** Writing past the caller's vector (C32); predicted orbits never flagged (column tested for 'E', C33); the agency loses its last column (C61); a header whose seconds, second of week, interval or fraction of day is no number is opened with 0 in its place (C102); the second line of accuracies is never looked at (C61); no interpolator can be constructed: its vector is reserved, not resized (C62), and its initialize() reads an uninitialised variable, drops the last epoch and shifts the series of satellites that are missing in an epoch (C86); short lines take flags from stale bytes; a file that ends within an epoch makes the reader loop for ever (C48, C85), and one that ends right after its header is opened but gives only errors, also after rewind (C85);
  without EOF line, or with a line over 127 chars, the reader loops for ever (C48); a left-over errno == ERANGE makes the readers fail.
  After one call past the end of a file that ends in a newline, rewind() does not bring the file back: every later call returns 1 (C96).
* **Bernese SATELLIT.** Only the first 1000 records are searched (C34); a blank channel is channel 0, a short record gets the channel of the record before it, a blank SVN the next number (C77); a record cut by the end of the file is completed with the bytes of the previous one, so that an SVN not in the file can be answered (C89); a failed lookup at end of file makes all later ones fail (C49, C94)
  (C49).
* **ANTEX.** No antenna in the file: uninitialised status is read (C35); the last model match is used; SVN and COSPAR of an earlier
  satellite are kept when blank (C51); truncated record: infinite loop (C37); over-long line spoils the object (C36); bad numbers terminate the process (C53);
  status 10 without any match (C50); a satellite record without frequencies takes its interval of validity from the next record (C88);
  a record that has lost its frequencies is answered with status 0 and the offsets of the next record (C97).
* **Observation RINEX.** Loss-of-lock digit read as further decimals (C40); a value after a missing part is added to -999.99 (C39); number of
  types a multiple of 13 refused or the next line swallowed (C41); more than 80 satellites overflow (C42); malformed epoch header: out-of-range reads
  (C43); buffer too small with at most one type (C57); last line without newline gives -1 although the epoch was read (C58); a file ending between the two digits of a satellite number delivers another satellite (C83); header: names cut at the first blank,
  radome lost, unknown system letter or file ending after the types terminates (C60, C90); a clock line without a number counts as not applied (C104). Headers: what the uninitialised line array holds counts as the label of a short first line (C90). Event epochs (flag > 1) are not treated specially.
* **Dates.** A date that is not a day of the calendar ends the program when the library refuses it: SP3 header and epochs, observation epochs,
  navigation records, and observation headers unless the exception is `std::invalid_argument` (C95, C75). `Model/Sp3` (`getNextEpoch`) keeps the
  calendar components and leaves the refusal out; `Model/Sp3Date` has it, `sp3NextEpoch_agrees` relates the two.
* **Kalman filter.** Without weights no measurement noise is added: singular for five or more satellites (C44); the Jacobian is wrong for coef other than 1
  (C45). `test/pp_rnx.cpp` passes the second of day as time step (C68). `test/test_navrnx.cpp` overruns its array for GLONASS, needs the "optional" ANTEX file and uses messages that are not yet in force (C87). `test_obsrnx` and `test_navrnx_G/E/C/R` report one epoch or block too many, `test_sp3` exits with 0 on damaged files (C91). `test_navrnx_G/E/C` compute every line from the message that is still to come, never exit with 0 and hang when there are fewer than two messages (C92).
* **Positioning program.** The request mixes a GLONASS with a GPS code, so the program returns 100 for every file; a complete run ends with -1; an epoch without usable
  satellite aborts; a file without epochs reads an unassigned time (C68); more than 30 usable satellites write behind the arrays (C67); the wet delay is lost and the weights are 1 (C66);
  a satellite more than 0.2 rad below the horizon ends the program by an uncaught exception (C65).
* **DEBUG build.** An ephemeris time with a fraction of a second aborts; a file without final newline gives status 10 where the production build gives -1; more than
  half a week from the ephemeris no position (production computes one); half a week from the clock reference -1 although the position is written; an epoch with more
  lines than slots, or with an invalid date, aborts (C71).

## Mutation testing

`seeded/LOG.jsonl`: one line per edit of the model made in a scratch copy, with the theorems that stopped proving. Edits that survived led to the
theorems named under `theorems_tightened`; each was rebuilt afterwards and is killed.
