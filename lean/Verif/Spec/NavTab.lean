import Verif.Spec.PpRun
/-!
# Specification: the table of positions and clocks of one satellite

Only the description of navigation records and of what they broadcast is used.
-/
namespace Ggnss
open NavItem

/-- A line of the table: epoch (milliseconds since MJD 0), position, clock correction. -/
abbrev TabRow := Int × (Fin 3 → ℝ) × ℝ

/-- The validity of the message has begun and ended at `t` (the first condition matters for negative fit intervals only). -/
def NavItem.Expired (r : NavItem) (t : Int) : Prop :=
  1000 * r.toc.total ≤ t ∧ ∃ fit, r.FitIs fit ∧ 1000 * (r.toc.total + fit) ≤ t

/-- The messages of satellite `prn` of system `sys`, in file order. -/
def messagesOf (sys : SatSys) (prn : Int) (rs : List NavItem) : List NavItem := rs.filter fun r => r.sys = sys ∧ r.prn = prn

/-- `q` is the first of the messages whose validity has not ended at `t`. -/
def FirstAlive (ms : List NavItem) (t : Int) (q : NavItem) : Prop :=
  ∃ a b, ms = a ++ q :: b ∧ (∀ x ∈ a, x.Expired t) ∧ ¬ q.Expired t

/-- The table of a satellite whose messages are `ms`, once a minute from `t0` on: every line shows what the first message that has not
expired broadcasts for the epoch of the line; the table ends at `stop`, or earlier when all messages have expired. -/
structure TableOf (ms : List NavItem) (t0 stop : Int) (lines : List TabRow) : Prop where
  line : ∀ (k : Nat) (l : TabRow), lines[k]? = some l → l.1 = t0 + 60000 * k ∧ l.1 < stop ∧
    ∃ q, FirstAlive ms l.1 q ∧ KeplerSays q l.1 l.2.1 l.2.2
  complete : t0 + 60000 * lines.length < stop → ∀ q ∈ ms, q.Expired (t0 + 60000 * lines.length)

/-- Every message comes into force before the one in front of it expires. -/
def Gapless (ms : List NavItem) : Prop :=
  ∀ pre a b post, ms = pre ++ a :: b :: post → ∀ fit, a.FitIs fit → b.toc.total ≤ a.toc.total + fit

/-- The text of a satellite on the command line: system letter and number. -/
structure SatArg (a : List Char) (sys : SatSys) (prn : Int) : Prop where
  text : ∃ ds, a = satsysToChar sys :: ds ∧ allDigits ds ∧ ds ≠ [] ∧ (Nat.ofDigitChars 10 ds 0 : Int) = prn
  range : 0 < prn ∧ prn < 2147483648

/-- What happens from message `q` on, with the messages `ms` behind it and the next line due at `t`: an expired message is replaced by
the next one, an unhealthy one too, and then the table goes on at the time of clock of that message. -/
inductive TabRun (stop : Int) : NavItem → List NavItem → Int → List TabRow → Prop
  | full {q ms t} : stop ≤ t → TabRun stop q ms t []
  | line {q ms t p c ls} : t < stop → q.HealthIs 0 → ¬ q.Expired t → KeplerSays q t p c → TabRun stop q ms (t + 60000) ls →
      TabRun stop q ms t ((t, p, c) :: ls)
  | expired {q q' ms t ls} : t < stop → q.HealthIs 0 → q.Expired t → TabRun stop q' ms t ls → TabRun stop q (q' :: ms) t ls
  | sick {q q' ms t ls} : t < stop → ¬ q.HealthIs 0 → TabRun stop q' ms (1000 * q'.toc.total) ls → TabRun stop q (q' :: ms) t ls
  | last {q t} : t < stop → ¬ q.HealthIs 0 ∨ q.Expired t → TabRun stop q [] t []

end Ggnss
