import Verif.Model.Bern
/-!
# Model of `test/test_bern_SATELLIT.cpp`: a list of lookups on one object
-/
namespace Ggnss

/-- A line of output — test_bern_SATELLIT.cpp:33-37 and 46-50: satellite, epoch, and PRN and channel or "not matched". -/
structure BernShown where
  svn : Int
  eph : DateTime
  found : Option (Int × Int)
  deriving DecidableEq

/-- The loops over the satellites — test_bern_SATELLIT.cpp:26-38 and 39-51, one after the other: exit code and lines.  `frq` and
`prn` are the local variables of `main` (not initialised), `junk` the indeterminate array of the `n`-th call. -/
def bernShow (strptime : List Char → Res DateTime) (junk : Nat → List Char) (part2 : Nat) :
    (n : Nat) → List (Int × DateTime) → (frq prn : Int) → Stream → Int → Res (Int × List BernShown)
  | _, [], _, _, _, _ => .ok (0, [])
  | n, q :: qs, frq, prn, s, errno => do
      let o ← getFrequencyChannel strptime (junk n) part2 q.1 q.2 frq prn s errno
      if 0 < o.status then pure (2, [])
      else do
        let r ← bernShow strptime junk part2 (n + 1) qs o.ifrqn o.prn o.strm o.errno
        pure (r.1, ⟨q.1, q.2, if o.status < 0 then none else some (o.prn, o.ifrqn)⟩ :: r.2)

/-- The satellites — test_bern_SATELLIT.cpp:18. -/
def bernSvns : List Int := [714, 769, 784, 856, 801, 733, 701, 802, 776, 723, 853, 734]

/-- The epochs 3 November 2016 and 20 January 2020, 12:59:03 — test_bern_SATELLIT.cpp:20-23 (as Modified Julian Days and seconds). -/
def bernEpochs : List DateTime := [⟨57695, 46743⟩, ⟨58868, 46743⟩]

/-- The lookups of the program — test_bern_SATELLIT.cpp:26, 39. -/
def bernAsked : List (Int × DateTime) := bernEpochs.flatMap fun d => bernSvns.map fun v => (v, d)

/-- What does not change while the program runs: files, date library, indeterminate memory. -/
structure BernWorld where
  files : List Char → Option (List Char)
  strptime : List Char → Res DateTime
  junk0 : List Char
  junk : Nat → List Char
  frq0 : Int
  prn0 : Int

/-- `main` — test_bern_SATELLIT.cpp:9-53: exit code and lines.  The constructor throws when the file cannot be opened
(bern_utils.cpp:19-27); nobody catches.  When `__part2` is -1 the stream has failed and `seekg` does nothing, whatever its argument. -/
def bernMain (W : BernWorld) (argv : List (List Char)) : Res (Int × List BernShown) :=
  Res.noexcept (
    match argv with
    | [_, a1] =>
        match W.files a1 with
        | none => .throw .runtime_error
        | some content => do
          let f ← bernOpen W.junk0 content
          bernShow W.strptime W.junk (f.part2.getD 0) 0 bernAsked W.frq0 W.prn0 f.strm 0
    | _ => .ok (1, []))

end Ggnss
