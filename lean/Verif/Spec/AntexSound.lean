import Verif.Spec.AntexSatBad
import Verif.Spec.NumText
/-!
# Specification for C37: what a file must contain when a satellite was found in it
-/
namespace Ggnss

/-- The interval of validity (begin, end if any) that the lines give, when `fr` and `un` were given by lines before them: each
`VALID FROM` and `VALID UNTIL` line gives the date the library reads from it; the lines end as soon as both are known, or with
`START OF FREQUENCY`. -/
inductive ValidRun (strptime : List Char → Res DateTime) :
    Option DateTime → Option DateTime → List (List Char) → DateTime → Option DateTime → Prop
  | both (d e) : ValidRun strptime (some d) (some e) [] d (some e)
  | freq (d l) : HasLabel l c!"START OF FREQUENCY" → ValidRun strptime (some d) none [l] d none
  | from_ (fr un l ls d b u) : HasLabel l c!"VALID FROM" → (∃ tail, strptime (l ++ NUL :: tail) = .ok b) →
      ValidRun strptime (some b) un ls d u → ValidRun strptime fr un (l :: ls) d u
  | until_ (fr un l ls d b u) : HasLabel l c!"VALID UNTIL" → (∃ tail, strptime (l ++ NUL :: tail) = .ok b) →
      ValidRun strptime fr (some b) ls d u → ValidRun strptime fr un (l :: ls) d u
  | other (fr un l ls d u) : ¬ HasLabel l c!"VALID FROM" → ¬ HasLabel l c!"VALID UNTIL" → ¬ HasLabel l c!"START OF FREQUENCY" →
      ValidRun strptime fr un ls d u → ValidRun strptime fr un (l :: ls) d u

/-- Among the lines `ls` there is a record of satellite `prn` of system `ss` that says it is valid from `d` until `u`: the lines
`START OF ANTENNA`, `TYPE / SERIAL NO` naming the satellite, `METH / BY / # / DATE`, one after the other, and then those of the
interval. -/
def SatSeen (strptime : List Char → Res DateTime) (ls : List (List Char)) (ss : SatSys) (prn : Int) (d : DateTime) (u : Option DateTime) : Prop :=
  ∃ pre start type meth D post, ls = pre ++ start :: type :: meth :: (D ++ post) ∧ HasLabel start c!"START OF ANTENNA" ∧
    HasLabel type c!"TYPE / SERIAL NO" ∧ type[20]? = some (satsysToChar ss) ∧ IntBegins ((type.drop 21).take 5) prn ∧
    HasLabel meth c!"METH / BY / # / DATE" ∧ ValidRun strptime none none D d u

end Ggnss
