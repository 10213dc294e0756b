import Verif.Model.Sp3
/-!
# Model of the constructor of `Sp3c`, `rewind`, `allocate_epoch_vector` and of the constructor of
`LagrangeSp3Interpolator` (`src/sp3c.cpp:29-228`, `src/sp3c.hpp:81-147`)

The file could be opened (`is_open()` is true).  The date arithmetic of the external library
ggdatetime is a parameter (`Sp3Lib`), and with it the comparisons of doubles that validate the start
epoch.  Doubles are otherwise exact rationals.
-/
namespace Ggnss

/-- `MAX_HEADER_CHARS` — sp3c.cpp:14. -/
def SP3_HEADER_CHARS : Nat := 85

/-- `ngpt::datetime<microseconds>`: day and microsecond of day. -/
structure MicroTime where
  mjd : Int
  micros : Int
  deriving DecidableEq, Repr

/-- What the header reader uses of ggdatetime.
`date`: the constructor from calendar components (may throw on an impossible date).
`sameWeek d w s`: `as_gps_wsow` of `d` gives the week `w` and, as a double, the second of week `s`.
`sameMjd d m f`: `as_mjd` of `d` equals, as a double, `m + f`. -/
structure Sp3Lib where
  date : Sp3Epoch → Res MicroTime
  sameWeek : MicroTime → Int → Rat → Bool
  sameMjd : MicroTime → Int → Rat → Bool

/-- An `Sp3c` object: the members set by the header, `__end_of_head` (`none` is `pos_type(-1)`) and the
stream. -/
structure Sp3File where
  version : Char
  start : MicroTime
  numEpochs : Int
  numSats : Int
  crdSys : List Char
  orbType : List Char
  agency : List Char
  timeSys : List Char
  interval : Int
  endOfHead : Option Nat
  strm : Stream

/-- `std::string(line + off, n)`: `n` bytes, whatever they are. -/
def bytesAt (line : List Char) (off n : Nat) : Res (List Char) :=
  if off + n ≤ line.length then .ok ((line.drop off).take n) else .ub

/-- `int x = strtol(line + off, ..); if (!x || errno == ERANGE) return ..;`: `none` is the return.
`errno0`: `errno` is ERANGE on entry. -/
def sp3Nonzero (errno0 : Bool) (line : List Char) (off : Nat) : Res (Option Int) := do
  let p ← strtolA (line.drop off)
  if toInt32 (strtolVal p) = 0 ∨ (strtolErr p || errno0) = true then pure none
  else pure (some (toInt32 (strtolVal p)))

/-- `int x = strtol(line + off, &str_end, 10); if (errno == ERANGE || str_end == line + off) return ..;` -/
def sp3Conv (errno0 : Bool) (line : List Char) (off : Nat) : Res (Option Int) := do
  let p ← strtolA (line.drop off)
  if (strtolErr p || errno0) = true ∨ p = none then pure none
  else pure (some (toInt32 (strtolVal p)))

/-- `strtod(line + off, &str_end)` without any check: 0 when nothing is convertible; and whether `errno`
was set to ERANGE. -/
def sp3Double (line : List Char) (off : Nat) : Res (Rat × Bool) := do
  match ← strtodA (line.drop off) with
  | none => pure (0, false)
  | some v => pure (v.1, v.2.2)

/-- What the first header line gives. -/
structure Sp3First where
  version : Char
  start : MicroTime
  numEpochs : Int
  crdSys : List Char
  orbType : List Char
  agency : List Char

/-- sp3c.cpp:91-109: after the five integers of the date. -/
def sp3FirstEnd (L : Sp3Lib) (errno0 : Bool) (line : List Char) (v : Char) (year month dom hour minute : Int) :
    Res (Int ⊕ Sp3First) := do
  let sec ← sp3Double line 20
  match ← sp3Nonzero (errno0 || sec.2) line 32 with
  | none => pure (.inl 16)
  | some n => do
    let crd ← bytesAt line 46 5
    let orb ← bytesAt line 52 3
    let age ← bytesAt line 56 3
    let us ← castLong (sec.1 * 1000000)
    let d ← L.date ⟨year, month, dom, hour, minute, us⟩
    pure (.inr ⟨v, d, n, crd, orb, age⟩)

/-- The first line: sp3c.cpp:66-109; `inl`: the status returned. -/
def sp3First (L : Sp3Lib) (errno0 : Bool) (line : List Char) : Res (Int ⊕ Sp3First) := do
  let c ← getAt line 0
  if c ≠ '#' then pure (.inl 10)
  else
    let v ← getAt line 1
    if v ≠ 'c' ∧ v ≠ 'd' then pure (.inl 10)
    else
      match ← sp3Nonzero errno0 line 3 with
      | none => pure (.inl 11)
      | some year =>
        match ← sp3Nonzero errno0 line 8 with
        | none => pure (.inl 12)
        | some month =>
          match ← sp3Nonzero errno0 line 11 with
          | none => pure (.inl 13)
          | some dom =>
            match ← sp3Conv errno0 line 14 with
            | none => pure (.inl 14)
            | some hour =>
              match ← sp3Conv errno0 line 17 with
              | none => pure (.inl 15)
              | some minute => sp3FirstEnd L errno0 line v year month dom hour minute

/-- `*line == a && line[1] == b`. -/
def sp3Starts (line : List Char) (a b : Char) : Res Bool := do
  let c0 ← getAt line 0
  let c1 ← getAt line 1
  pure (c0 = a && c1 = b)

/-- The second line: sp3c.cpp:114-142: `inl` the status returned, `inr` the interval
(microseconds) and whether `errno` is ERANGE. -/
def sp3Second (L : Sp3Lib) (errno0 : Bool) (line : List Char) (start : MicroTime) : Res (Int ⊕ (Int × Bool)) := do
  if !(← sp3Starts line '#' '#') then pure (.inl 20)
  else
    match ← sp3Nonzero errno0 line 3 with
    | none => pure (.inl 21)
    | some gwk => do
      let sow ← sp3Double line 8
      if !L.sameWeek start gwk sow.1 then pure (.inl 22)
      else
        let sec ← sp3Double line 24
        let us ← castLong (sec.1 * 1000000)
        match ← sp3Nonzero (errno0 || sow.2 || sec.2) line 39 with
        | none => pure (.inl 23)
        | some mjd => do
          let f ← sp3Double line 45
          if !L.sameMjd start mjd f.1 then pure (.inl 24) else pure (.inr (us, errno0 || sow.2 || sec.2 || f.2))

/-- The loop of sp3c.cpp:158-160; `left` is `999 - dummy_it`.  `none`: the limit was reached. -/
def sp3SatLines : (left : Nat) → (buf : List Char) → Stream → Res (Option (Nat × List Char × Stream))
  | 0, _, _ => .ok none
  | left + 1, buf, s => do
      let e ← strncmpEq 2 buf (cArr c!"+ ")
      if e then
        let g := s.getline SP3_HEADER_CHARS
        sp3SatLines left (fillLine buf g.1) g.2
      else pure (some (left, buf, s))

/-- The loop of sp3c.cpp:173-178. -/
def sp3AccLines : (left : Nat) → (buf : List Char) → Stream → Res (Option (Nat × List Char × Stream))
  | 0, _, _ => .ok none
  | left + 1, buf, s => do
      let e ← strncmpEq 2 buf (cArr c!"++")
      if e then
        let g := s.getline SP3_HEADER_CHARS
        let p := g.2.peek
        if p.1 ≠ some '+' then pure (some (left, fillLine buf g.1, p.2))
        else sp3AccLines left (fillLine buf g.1) p.2
      else pure (some (left, buf, s))

/-- One line that must start with `a b`: sp3c.cpp:186-193, 197-209. -/
def sp3Expect (a b : Char) (buf : List Char) (s : Stream) : Res (Bool × List Char × Stream) := do
  let g := s.getline SP3_HEADER_CHARS
  let buf := fillLine buf g.1
  pure (← sp3Starts buf a b, buf, g.2)

/-- The comment lines: sp3c.cpp:213-221; `c` is what `peek()` returned, `room` is `1000 - dummy_it`. -/
def sp3Comments : (room : Nat) → (c : Option Char) → (buf : List Char) → Stream → Res (Int ⊕ Stream)
  | room, c, buf, s =>
    if c ≠ some '/' then .ok (.inr s)
    else do
      let g := s.getline SP3_HEADER_CHARS
      let buf := fillLine buf g.1
      if (← getAt buf 1) ≠ '*' then pure (.inl 80)
      else
        let p := g.2.peek
        match room with
        | 0 => pure (.inl 81)
        | room + 1 => sp3Comments room p.1 buf p.2

/-- sp3c.cpp:197-209 and 213-224, from the '%f' lines on: status or (end of header, stream). -/
def sp3HeadTail (left : Nat) (buf : List Char) (s : Stream) : Res (Int ⊕ (Option Nat × Stream)) := do
  let a ← sp3Expect '%' 'f' buf s
  if !a.1 then pure (.inl 60)
  else
    let a ← sp3Expect '%' 'f' a.2.1 a.2.2
    if !a.1 then pure (.inl 60)
    else
      let a ← sp3Expect '%' 'i' a.2.1 a.2.2
      if !a.1 then pure (.inl 70)
      else
        let a ← sp3Expect '%' 'i' a.2.1 a.2.2
        if !a.1 then pure (.inl 70)
        else
          let p := a.2.2.peek
          match ← sp3Comments (left + 1) p.1 a.2.1 p.2 with
          | .inl e => pure (.inl e)
          | .inr s => pure (.inr s.tellg)

/-- sp3c.cpp:150-193: from the first satellite line on: status or (number of satellites, time system,
end of header, stream). -/
def sp3HeadMid (errno0 : Bool) (buf : List Char) (s : Stream) : Res (Int ⊕ (Int × List Char × Option Nat × Stream)) := do
  let a ← sp3Expect '+' ' ' buf s
  if !a.1 then pure (.inl 30)
  else
    match ← sp3Nonzero errno0 a.2.1 3 with
    | none => pure (.inl 31)
    | some ns =>
      match ← sp3SatLines 999 a.2.1 a.2.2 with
      | none => pure (.inl 32)
      | some a => do
        if !(← sp3Starts a.2.1 '+' '+') then pure (.inl 40)
        else
          match ← sp3AccLines a.1 a.2.1 a.2.2 with
          | none => pure (.inl 41)
          | some a => do
            let b ← sp3Expect '%' 'c' a.2.1 a.2.2
            if !b.1 then pure (.inl 50)
            else
              let ts ← bytesAt b.2.1 9 3
              let b ← sp3Expect '%' 'c' b.2.1 b.2.2
              if !b.1 then pure (.inl 51)
              else
                match ← sp3HeadTail a.1 b.2.1 b.2.2 with
                | .inl e => pure (.inl e)
                | .inr t => pure (.inr (ns, ts, t.1, t.2))

/-- `Sp3c::read_header` — sp3c.cpp:52-228.  `junk` is the indeterminate content of the array `line`. -/
def sp3ReadHeader (L : Sp3Lib) (errno0 : Bool) (junk : List Char) (s : Stream) : Res (Int ⊕ Sp3File) :=
  Res.noexcept (do
    let g := (s.seekg 0).getline SP3_HEADER_CHARS
    let buf := fillLine junk g.1
    match ← sp3First L errno0 buf with
    | .inl e => pure (.inl e)
    | .inr h => do
      let g := g.2.getline SP3_HEADER_CHARS
      let buf := fillLine buf g.1
      match ← sp3Second L errno0 buf h.start with
      | .inl e => pure (.inl e)
      | .inr itv =>
        match ← sp3HeadMid itv.2 buf g.2 with
        | .inl e => pure (.inl e)
        | .inr m =>
          pure (.inr ⟨h.version, h.start, h.numEpochs, m.1, h.crdSys, h.orbType, h.agency, m.2.1, itv.1, m.2.2.1, m.2.2.2⟩))

/-- `Sp3c::Sp3c(const char*)` for a file with these bytes — sp3c.cpp:29-40. -/
def sp3Open (L : Sp3Lib) (errno0 : Bool) (junk : List Char) (content : List Char) : Res Sp3File := do
  match ← sp3ReadHeader L errno0 junk ⟨content, 0, false, false⟩ with
  | .inl _ => .throw .runtime_error
  | .inr f => pure f

/-- `Sp3c::rewind` — sp3c.cpp:40-47; `pos = none` is the default argument `-1`.  Seeking to
`pos_type(-1)` fails. -/
def sp3Rewind (endOfHead : Option Nat) (s : Stream) : Option Nat → Stream
  | some p => s.seekg p
  | none =>
    match endOfHead with
    | some e => s.seekg e
    | none => { s with eof := false, fail := true }

/-- `Sp3c::allocate_epoch_vector` — sp3c.hpp:87-89 (`noexcept`): a negative count, converted to an
unsigned size, is refused by `std::vector` with an exception. -/
def sp3Allocate (numSats : Int) : Res (List Sp3Rec) :=
  if numSats < 0 then .terminate else .ok (List.replicate numSats.toNat {})

/-- The loop of the constructor of the interpolator — sp3c.hpp:141-145: `svec_[i] = ..` on a vector
that was only reserved, so that its size is 0. -/
def lagrangeFill (size : Nat) : (n i : Nat) → Res Unit
  | 0, _ => .ok ()
  | n + 1, i => if i < size then lagrangeFill size n (i + 1) else .ub

/-- `LagrangeSp3Interpolator<SEC>::LagrangeSp3Interpolator` — sp3c.hpp:136-147 (`noexcept`):
the value of `K`.  Dividing by an interval 0 is undefined; reserving a negative number of elements throws. -/
def lagrangeNew (sec : Int) (f : Sp3File) : Res Int :=
  Res.noexcept (
    if f.interval = 0 then .ub
    else if f.numSats < 0 then .throw .out_of_range
    else do
      lagrangeFill 0 f.numSats.toNat 0
      pure (toInt32 ((2 * sec * 1000000).tdiv f.interval + 1)))

end Ggnss
