import Verif.Props.NavExample
/-!
# C55: reading a navigation file record by record, and end of file
-/
namespace Ggnss

/-- A client that calls `read_next_record` `n` times with the same frame object: the status and the
frame after each call, and the stream at the end.  `junk i` is the indeterminate content of the line
array in the `i`-th call. -/
def navReads (dateOf : List Char → Res DateTime) (junk : Nat → List Char) : (n : Nat) → NavFrame → Stream → Int →
    Res (List (Int × NavFrame) × Stream)
  | 0, _, s, _ => .ok ([], s)
  | n + 1, f, s, errno => do
      let o ← readNextRecord dateOf (junk n) f s errno
      let r ← navReads dateOf junk n o.frame o.strm o.errno
      pure ((o.status, o.frame) :: r.1, r.2)

theorem clear_of_good {s : Stream} (hg : s.good = true) : ({ s with eof := true } : Stream).clear = s := by
  have := (Stream.good_iff s).1 hg
  cases s; simp_all [Stream.clear]

/-- C55, end of file: `read_next_record` returns -1, leaves the frame alone, and the stream is as
good as before. -/
theorem C55_read_eof (dateOf : List Char → Res DateTime) (junk : List Char) (f : NavFrame) (s : Stream) (errno : Int)
    (hg : s.good = true) (hr : s.rest = []) :
    readNextRecord dateOf junk f s errno = .ok ⟨-1, f, s, errno⟩ := by
  unfold readNextRecord
  rw [Stream.peek_nil hg hr]
  simp only [if_true]
  rw [clear_of_good hg]

/-- C55, end of file: skipping returns -1 and leaves the stream as it was. -/
theorem C55_skip_eof (s : Stream) (hg : s.good = true) (hr : s.rest = []) : ignoreNextBlock s = (-1, s) := by
  unfold ignoreNextBlock
  rw [Stream.peek_nil hg hr]
  simp only [peekedEof, if_true]
  rw [clear_of_good hg]

/-- C55: `peak_satsys` tells the system of the next record, or end of file, without moving. -/
theorem C55_peek (s : Stream) (hg : s.good = true) :
    (s.rest = [] → peakSatsys s = (-1, .mixed, s)) ∧
    (∀ sys ls tail, IsBlock sys ls → s.rest = linesText ls ++ tail → peakSatsys s = (0, sys, s)) := by
  refine ⟨fun hr => ?_, fun sys ls tail hb hr => peakSatsys_block hb hg hr⟩
  unfold peakSatsys
  rw [Stream.peek_nil hg hr]
  simp only [peekedEof, if_true]
  rw [clear_of_good hg]

theorem navReads_eof (dateOf : List Char → Res DateTime) (junk : Nat → List Char) (s : Stream) (errno : Int)
    (hg : s.good = true) (hr : s.rest = []) : ∀ n f, navReads dateOf junk n f s errno = .ok (List.replicate n (-1, f), s) := by
  intro n
  induction n with
  | zero => intro f; rfl
  | succ n ih =>
    intro f
    unfold navReads
    rw [C55_read_eof dateOf _ f s errno hg hr, Res.bind_ok, ih f, Res.bind_ok]
    rfl

theorem fileText_cons (r : NavItem) (rs : List NavItem) : fileText (r :: rs) = r.text ++ fileText rs := by simp [fileText]

/-- **C55**.  On a file whose remaining text is the well formed records `rs` (of any systems, any
number), `n` calls of `read_next_record` (any `n`) give, in order: for call `i < rs.length` status 0
and a frame that carries record `i`; for every later call status -1 and the frame of the call before.
The stream stays usable, and going back to where the calls began restores it exactly. -/
theorem C55_sequence (dateOf : List Char → Res DateTime) (junk : Nat → List Char) (n : Nat) :
    ∀ (rs : List NavItem) (f : NavFrame) (s : Stream), s.good = true → s.rest = fileText rs → f.data.length = 31 →
    (∀ r ∈ rs, r.WF dateOf) →
    ∃ out s', navReads dateOf junk n f s 0 = .ok (out, s') ∧ out.length = n ∧
      (∀ i r, i < n → rs[i]? = some r → ∃ g, out[i]? = some (0, g) ∧ Carries g r) ∧
      (∀ i, i < n → rs.length ≤ i → ∃ g, out[i]? = some (-1, g) ∧
        (i = 0 → g = f) ∧ (∀ j o, j + 1 = i → out[j]? = some o → g = o.2)) ∧
      s'.good = true ∧ s'.rest = fileText (rs.drop n) ∧ (∀ e, navRewind e s' (some s.pos) = s) := by
  induction n with
  | zero =>
    intro rs f s hg hr _ _
    exact ⟨[], s, rfl, rfl, by simp, by simp, hg, by simpa using hr, fun e => by simpa using rewind_adv e s 0 hg⟩
  | succ n ih =>
    intro rs f s hg hr hl hw
    cases rs with
    | nil =>
      refine ⟨_, _, navReads_eof dateOf junk s 0 hg hr (n + 1) f, by simp, by simp, ?_, hg, by simpa using hr,
        fun e => by simpa using rewind_adv e s 0 hg⟩
      intro i hi _
      refine ⟨f, by rw [List.getElem?_replicate, if_pos hi], fun _ => rfl, ?_⟩
      intro j o hj ho
      rw [List.getElem?_replicate, if_pos (by omega)] at ho
      simp at ho; rw [← ho]
    | cons r rs =>
      obtain ⟨g, h1, h2, _⟩ := C17_record dateOf (junk n) f s r (fileText rs) (hw r (by simp)) hg
        (by rw [hr, fileText_cons]) hl
      have hg' : (s.adv r.text.length).good = true := hg
      have hr' : (s.adv r.text.length).rest = fileText rs := Stream.adv_rest_append (by rw [hr, fileText_cons])
      obtain ⟨out, s', e1, e2, e3, e4, e5, e6, e7⟩ := ih rs g (s.adv r.text.length) hg' hr' h2.len
        (fun x hx => hw x (by simp [hx]))
      refine ⟨(0, g) :: out, s', ?_, by simp [e2], ?_, ?_, e5, by simpa using e6, ?_⟩
      · unfold navReads
        rw [h1, Res.bind_ok, e1, Res.bind_ok]; rfl
      · intro i x hi hx
        cases i with
        | zero => simp at hx; subst hx; exact ⟨g, by simp, h2⟩
        | succ i => simpa using e3 i x (by omega) (by simpa using hx)
      · intro i hi hle
        cases i with
        | zero => simp at hle
        | succ i =>
          obtain ⟨k, k1, k2, k3⟩ := e4 i (by omega) (by simpa using hle)
          refine ⟨k, by simpa using k1, by simp, ?_⟩
          intro j o hj ho
          cases j with
          | zero =>
            simp at ho; subst ho
            exact k2 (by omega)
          | succ j => exact k3 j o (by omega) (by simpa using ho)
      · intro e
        have := e7 e
        have hc := (Stream.good_iff s).1 hg
        have hc' := (Stream.good_iff s').1 e5
        unfold navRewind Stream.seekg at this ⊢
        rw [hc'.2] at this ⊢
        simp only [Bool.false_eq_true, if_false] at this ⊢
        have hct : s'.content = s.content := by simpa [Stream.adv] using congrArg Stream.content this
        cases s; cases s'; simp_all

/-- The hypotheses of `C55_sequence` are met: two records, five calls. -/
example (junk : Nat → List Char) : ∃ out s', navReads NavExample.dateOf junk 5 NavExample.frame
    ⟨fileText [NavExample.gloBad, NavExample.glo], 0, false, false⟩ 0 = .ok (out, s') ∧ out.length = 5 := by
  obtain ⟨out, s', h1, h2, _⟩ := C55_sequence NavExample.dateOf junk 5 [NavExample.gloBad, NavExample.glo] NavExample.frame
    ⟨fileText [NavExample.gloBad, NavExample.glo], 0, false, false⟩ rfl rfl rfl
    (by
      intro r hr; simp at hr
      rcases hr with rfl | rfl
      · exact NavExample.gloBad_wfv.toWF
      · exact NavExample.glo_wfv.toWF)
  exact ⟨out, s', h1, h2⟩

end Ggnss
