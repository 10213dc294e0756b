import Verif.Spec.AntexSound
/-!
# Specification for C105: where the information about a satellite stands
-/
namespace Ggnss

/-- The columns `i`, …, `i + n - 1` of a line are blank. -/
def BlankColumns (l : List Char) (i n : Nat) : Prop := ∀ c ∈ (l.drop i).take n, c = ' '

instance (l : List Char) (i n : Nat) : Decidable (BlankColumns l i n) := inferInstanceAs (Decidable (∀ c ∈ _, _))

/-- A `TYPE / SERIAL NO` line gives the SVN `v`: in its columns 40-49, after the letter of the system that also stands in column 20. -/
structure SvnOn (l : List Char) (v : Int) : Prop where
  label : HasLabel l c!"TYPE / SERIAL NO"
  there : ¬ BlankColumns l 40 10
  letter : l[40]? = l[20]?
  number : IntBegins ((l.drop 41).take 5) v

/-- A `TYPE / SERIAL NO` line gives the COSPAR id `id`: the columns 50-57. -/
structure CosparOn (l id : List Char) : Prop where
  label : HasLabel l c!"TYPE / SERIAL NO"
  there : ¬ BlankColumns l 50 10
  text : id = (l.drop 50).take 8

end Ggnss
