import Verif.Props.Bern
import Verif.Lemmas.Term
/-!
# C34: SATELLIT files with arbitrary content

Whatever the file contains, opening it ends with an object or with `std::runtime_error`, and a lookup
ends with a status (or with what the date reader throws), without undefined behaviour.
-/
namespace Ggnss

theorem bernSkip_total : ∀ (left : Nat) (buf : List Char) (s : Stream), NUL ∈ buf →
    ∃ k b s', bernSkip left buf s = .ok (k, b, s') := by
  intro left
  induction left with
  | zero =>
    intro buf s h
    unfold bernSkip
    obtain ⟨e, he⟩ := strncmpEq_nul bernPart2.length (nul_cArr bernPart2) h
    rw [he]
    exact ⟨0, buf, s, rfl⟩
  | succ left ih =>
    intro buf s h
    unfold bernSkip
    obtain ⟨e, he⟩ := strncmpEq_nul bernPart2.length (nul_cArr bernPart2) h
    rw [he, Res.bind_ok]
    split
    · exact ⟨_, _, _, rfl⟩
    · exact ih _ _ (nul_fill _ _)

/-- **C34** (opening, any file): the constructor ends with an object or with `std::runtime_error`. -/
theorem C34_open_any_partial (junk content : List Char) :
    (∃ f, bernOpen junk content = .ok f) ∨ bernOpen junk content = .throw .runtime_error := by
  have key : ∃ r, bernInitialize junk ⟨content, 0, false, false⟩ = .ok r := by
    unfold bernInitialize
    generalize (⟨content, 0, false, false⟩ : Stream).seekg 0 = s
    simp only
    obtain ⟨e, he⟩ := strncmpEq_nul bernLine1.length (nul_cArr bernLine1) (nul_fill junk (s.getline MAX_SATELLIT_CHARS).1)
    rw [he, Res.bind_ok]
    split
    · exact ⟨_, rfl⟩
    · obtain ⟨k, b, s', hk⟩ := bernSkip_total 1000 _ (s.getline MAX_SATELLIT_CHARS).2 (nul_fill junk (s.getline MAX_SATELLIT_CHARS).1)
      rw [hk, Res.bind_ok]
      split
      · exact ⟨_, rfl⟩
      · simp only
        obtain ⟨e, he⟩ := strncmpEq_nul bernHead1.length (nul_cArr bernHead1) (nul_fill (fillLine b (s'.getline MAX_SATELLIT_CHARS).1) ((s'.getline MAX_SATELLIT_CHARS).2.getline MAX_SATELLIT_CHARS).1)
        rw [he, Res.bind_ok]
        split
        · exact ⟨_, rfl⟩
        · obtain ⟨e, he⟩ := strncmpEq_nul bernHead2.length (nul_cArr bernHead2) (nul_fill (fillLine (fillLine b (s'.getline MAX_SATELLIT_CHARS).1) ((s'.getline MAX_SATELLIT_CHARS).2.getline MAX_SATELLIT_CHARS).1) (((s'.getline MAX_SATELLIT_CHARS).2.getline MAX_SATELLIT_CHARS).2.getline MAX_SATELLIT_CHARS).1)
          rw [he, Res.bind_ok]
          split
          · exact ⟨_, rfl⟩
          · exact ⟨_, rfl⟩
  obtain ⟨r, hr⟩ := key
  unfold bernOpen
  rw [hr, Res.bind_ok]
  split
  · exact Or.inr rfl
  · exact Or.inl ⟨_, rfl⟩

/-- An outcome a caller of `get_frequency_channel` can handle: a result or an exception. -/
def Handled {α : Type} (x : Res α) : Prop := (∃ a, x = .ok a) ∨ ∃ e, x = .throw e

theorem Handled.bind {α β : Type} {x : Res α} {f : α → Res β} (hx : Handled x) (hf : ∀ a, Handled (f a)) :
    Handled (x >>= f) := by
  rcases hx with ⟨a, rfl⟩ | ⟨e, rfl⟩
  · exact hf a
  · exact Or.inr ⟨e, rfl⟩

theorem Handled.ok {α : Type} (a : α) : Handled (Res.ok a) := Or.inl ⟨a, rfl⟩

theorem bernStop_any {strptime : List Char → Res DateTime} (hst : ∀ t, NUL ∈ t → Handled (strptime t))
    {buf : List Char} (h : TermN 255 buf) :
    ∀ (n i : Nat), i + n ≤ 82 → Handled (bernStop strptime buf n i) := by
  intro n
  induction n with
  | zero => intro i _; exact Handled.ok _
  | succ n ih =>
    intro i hi
    unfold bernStop
    obtain ⟨c, hc⟩ := h.getAt (k := i) (by omega)
    rw [hc, Res.bind_ok]
    split
    · exact (hst _ (h.nul (by omega))).bind fun _ => Handled.ok _
    · exact ih (i + 1) (by omega)

theorem bernLine_any {strptime : List Char → Res DateTime} (hst : ∀ t, NUL ∈ t → Handled (strptime t))
    {buf : List Char} (h : TermN 255 buf) (svn : Int) (eph : DateTime) (ifrqn prn errno : Int) :
    Handled (bernLine strptime svn eph ifrqn prn buf errno) := by
  unfold bernLine
  obtain ⟨c5, h5⟩ := h.getAt (k := 5) (by omega)
  obtain ⟨c6, h6⟩ := h.getAt (k := 6) (by omega)
  have h0 : strtolA buf = .ok (strtol buf) := h.strtolA (k := 0) (by omega)
  simp only [h5, h6, Res.bind_ok, h.strtolA (k := 28) (by omega), h0, h.strtolA (k := 193) (by omega)]
  split
  · generalize (if strtolErr (strtol (buf.drop 28)) = true then ERANGE else errno) = errno2
    split
    · exact Handled.ok _
    · split
      · refine (hst _ (h.nul (by omega))).bind fun start => ?_
        refine (bernStop_any hst h 20 62 (by omega)).bind fun stop => ?_
        split
        · generalize (if strtolErr (strtol (buf.drop 193)) = true then ERANGE else _) = errno3
          split
          · exact Handled.ok _
          · exact Handled.ok _
        · exact Handled.ok _
      · exact Handled.ok _
  · exact Handled.ok _

theorem bernLoop_any {strptime : List Char → Res DateTime} (hst : ∀ t, NUL ∈ t → Handled (strptime t))
    (svn : Int) (eph : DateTime) (ifrqn prn : Int) :
    ∀ (lim : Nat) (buf : List Char) (s : Stream) (errno : Int), TermN 255 buf →
    Handled (bernLoop strptime svn eph ifrqn prn lim buf s errno) := by
  intro lim
  induction lim with
  | zero => intro buf s errno _; exact Handled.ok _
  | succ lim ih =>
    intro buf s errno h
    unfold bernLoop
    refine (bernLine_any hst h svn eph ifrqn prn errno).bind fun r => ?_
    cases r with
    | inr x => exact Handled.ok _
    | inl e =>
      simp only
      obtain ⟨str, hs⟩ := cstrOf_nul (nul_fill buf (s.getline MAX_SATELLIT_CHARS).1)
      obtain ⟨p3, hp⟩ := strncmpEq_nul 6 (nul_cArr c!"PART 3") (nul_fill buf (s.getline MAX_SATELLIT_CHARS).1)
      rw [hs, Res.bind_ok, hp, Res.bind_ok]
      split
      · exact Handled.ok _
      · exact ih _ _ _ (h.fill s)

/-- **C34** (lookup, any file): when the indeterminate array ends in a terminator, a lookup in any
file returns a status or the exception of the date reader; it reads only its own array and
terminates.  (Without that byte `strtol` could run past the array on a short line.) -/
theorem C34_lookup_any_partial {strptime : List Char → Res DateTime} (hst : ∀ t, NUL ∈ t → Handled (strptime t))
    (junk : List Char) (hj : TermN 255 junk) (part2 : Nat) (svn : Int) (eph : DateTime) (ifrqn prn : Int)
    (s : Stream) (errno : Int) :
    Handled (getFrequencyChannel strptime junk part2 svn eph ifrqn prn s errno) := by
  unfold getFrequencyChannel
  exact bernLoop_any hst svn eph ifrqn prn 1000 _ _ errno (hj.fill _)

end Ggnss
