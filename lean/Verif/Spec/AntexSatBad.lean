import Verif.Spec.AntexBad
/-!
# Specification: what damaged records of an ANTEX file say about satellites
-/
namespace Ggnss

/-- The satellite a `TYPE / SERIAL NO` line names (system and number); `none`: it cannot be made out. -/
inductive SatNamed (l : List Char) : Option (SatSys × Nat) → Prop
  /-- no system letter in column 20 -/
  | noSystem : (∀ sys, l[20]? ≠ some (satsysToChar sys)) → SatNamed l none
  /-- no number in columns 21-25 -/
  | noNumber (sys : SatSys) : l[20]? = some (satsysToChar sys) → NoInt ((l.drop 21).take 5) → SatNamed l none
  /-- columns 40-49 are neither blank nor begin with the same system letter -/
  | otherSvn (sys : SatSys) (n : Nat) : l[20]? = some (satsysToChar sys) → NatAt ((l.drop 21).take 5) 0 n → ¬ BlankCols l 40 50 →
      l[40]? ≠ l[20]? → SatNamed l none
  /-- they do, but no number follows -/
  | noSvn (sys : SatSys) (n : Nat) : l[20]? = some (satsysToChar sys) → NatAt ((l.drop 21).take 5) 0 n → l[40]? = l[20]? →
      NoInt ((l.drop 41).take 5) → SatNamed l none
  /-- everything is as it should be -/
  | sat (i : AtxSatId) : SatIdAt l (some i) → SatNamed l (some (i.sys, i.prn))

/-- The interval of validity that a run of lines states, reading from its first line on, when the begin
`fr` and the end `un` have been seen before (`none`: not seen).  The run ends as soon as both are known, at
`START OF FREQUENCY`, or at a date that cannot be read.  The result `none`: there is no begin, or such a date. -/
inductive ValidLines (strptime : List Char → Res DateTime) :
    Option DateTime → Option DateTime → List (List Char) → Option (DateTime × Option DateTime) → Prop
  | both (d e) : ValidLines strptime (some d) (some e) [] (some (d, some e))
  | freq (fr un l) : (fr = none ∨ un = none) → GridLine l → HasLabel l c!"START OF FREQUENCY" →
      ValidLines strptime fr un [l] (fr.map fun d => (d, un))
  | from_ (fr un d l ls r) : (fr = none ∨ un = none) → GridLine l → HasLabel l c!"VALID FROM" → DateAt strptime l 0 d →
      ValidLines strptime (some d) un ls r → ValidLines strptime fr un (l :: ls) r
  | until_ (fr un d l ls r) : (fr = none ∨ un = none) → GridLine l → HasLabel l c!"VALID UNTIL" → DateAt strptime l 0 d →
      ValidLines strptime fr (some d) ls r → ValidLines strptime fr un (l :: ls) r
  | bad (fr un l) : (fr = none ∨ un = none) → GridLine l → HasLabel l c!"VALID FROM" ∨ HasLabel l c!"VALID UNTIL" →
      (∀ tail, ∃ e, strptime (l ++ NUL :: tail) = .throw e) → ValidLines strptime fr un [l] none
  | other (fr un l ls r) : (fr = none ∨ un = none) → GridLine l → ¬ HasLabel l c!"VALID FROM" → ¬ HasLabel l c!"VALID UNTIL" →
      ¬ HasLabel l c!"START OF FREQUENCY" → ValidLines strptime fr un ls r → ValidLines strptime fr un (l :: ls) r

/-- The interval of validity that the lines between `TYPE / SERIAL NO` and `END OF ANTENNA` state. -/
inductive SpanAt (strptime : List Char → Res DateTime) : List (List Char) → Option (DateTime × Option DateTime) → Prop
  /-- the first is not `METH / BY / # / DATE` -/
  | noMethod (l E) : ¬ HasLabel l c!"METH / BY / # / DATE" → SpanAt strptime (l :: E) none
  | method (m D E r) : HasLabel m c!"METH / BY / # / DATE" → ValidLines strptime none none D r → SpanAt strptime (m :: (D ++ E)) r

/-- A record and what it says: satellite and interval of validity. -/
structure SatRaw where
  raw : AtxRaw
  name : Option (SatSys × Nat)
  span : Option (DateTime × Option DateTime)

/-- The record is about the satellite. -/
def SatRaw.About (prn : Int) (ss : SatSys) (r : SatRaw) : Prop := ∃ n : Nat, r.name = some (ss, n) ∧ (n : Int) = prn

/-- The record is about the satellite and valid at `eph`. -/
def SatRaw.For (prn : Int) (ss : SatSys) (eph : DateTime) (r : SatRaw) : Prop :=
  r.About prn ss ∧ ∃ d u, r.span = some (d, u) ∧ d.total ≤ eph.total ∧ ∀ e, u = some e → eph.total ≤ e.total

/-- Well-formed as far as a query for satellite `prn` of system `ss` is concerned: nothing is asked of the
inner lines of the records of other satellites (beyond `AtxRaw.WF`). -/
structure SatRaw.WF (strptime : List Char → Res DateTime) (prn : Int) (ss : SatSys) (r : SatRaw) : Prop where
  raw : r.raw.WF
  name : SatNamed r.raw.type r.name
  span : r.About prn ss → SpanAt strptime r.raw.inner r.span

/-- Index `i` is the first record with `P`. -/
def FirstSat (rs : List SatRaw) (P : SatRaw → Prop) (i : Nat) (r : SatRaw) : Prop :=
  rs[i]? = some r ∧ P r ∧ ∀ j < i, ∀ q, rs[j]? = some q → ¬ P q

end Ggnss
