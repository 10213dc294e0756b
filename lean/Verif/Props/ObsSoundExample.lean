import Verif.Props.ObsSound
import Verif.Props.ObsExample
/-!
# A header that C43_sound speaks about
-/
namespace Ggnss.ObsEx

example (tail : List Char) : HeaderStands mjdOf head.line (head.line ++ NUL :: tail) ⟨58484, (0 : Nat) * 3600 + (30 : Nat) * 60 + 0, 0, 3, none⟩ :=
  C43_sound (by decide) (C43_header head_says (mjd := 58484) rfl tail)

end Ggnss.ObsEx
