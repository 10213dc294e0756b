import Verif.Model.Nav
/-!
# Model of the constructor of `NavigationRnx` (`src/navrnx.cpp:188-248`)

The file could be opened (`is_open()` is true).
-/
namespace Ggnss

/-- `MAX_HEADER_CHARS` — navrnx.cpp:15. -/
def NAV_HEADER_CHARS : Nat := 85

/-- The loop of navrnx.cpp:231-236; `left` is `MAX_HEADER_LINES - dummy_it`: remaining count, stream.
With `left = 0` the comparison is not made (`&&`). -/
def navSkipHeader : (left : Nat) → (buf : List Char) → Stream → Res (Nat × Stream)
  | 0, _, s => .ok (0, s)
  | left + 1, buf, s => do
      let e ← strncmpEq 13 (buf.drop 60) (cArr c!"END OF HEADER")
      if e then pure (left + 1, s)
      else
        let g := s.getline NAV_HEADER_CHARS
        navSkipHeader left (fillLine buf g.1) g.2

/-- A `NavigationRnx` object: `__version` (a `float` in the code, the exact number read here),
`__satsys`, `__end_of_head` (`none` is `pos_type(-1)`) and the stream. -/
structure NavFile where
  version : Rat
  sys : SatSys
  endOfHead : Option Nat
  strm : Stream

/-- `NavigationRnx::read_header` — navrnx.cpp:205-248: status and object.  `junk` is the indeterminate
content of the array `line`. -/
def navReadHeader (junk : List Char) (s : Stream) : Res (Int × NavFile) :=
  Res.noexcept (do
    let s := s.seekg 0
    let g := s.getline NAV_HEADER_CHARS
    let buf := fillLine junk g.1
    match ← strtodA buf with
    | none => pure (10, ⟨0, .mixed, some 0, g.2⟩)
    | some v => do
      if (← getAt buf 20) ≠ 'N' then pure (11, ⟨v.1, .mixed, some 0, g.2⟩)
      else
        match charToSatsys (← getAt buf 40) with
        | .ok sys => do
          let g := g.2.getline NAV_HEADER_CHARS
          let r ← navSkipHeader 1000 (fillLine buf g.1) g.2
          if r.1 = 0 then pure (20, ⟨v.1, sys, some 0, r.2⟩)
          else pure (0, ⟨v.1, sys, r.2.tellg.1, r.2.tellg.2⟩)
        | _ => pure (12, ⟨v.1, .mixed, some 0, g.2⟩))

/-- `NavigationRnx::NavigationRnx(const char*)` for a file with these bytes — navrnx.cpp:188-199. -/
def navOpen (junk : List Char) (content : List Char) : Res NavFile := do
  let r ← navReadHeader junk ⟨content, 0, false, false⟩
  if r.1 ≠ 0 then .throw .runtime_error else pure r.2

end Ggnss
