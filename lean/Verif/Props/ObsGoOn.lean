import Verif.Spec.ObsGoOn
import Verif.Props.ObsSeries
/-! # C117: a caller who keeps reading an observation file after a defect -/
namespace Ggnss

/-- A refused header leaves `errno` at 0. -/
theorem resolveEpoch_errno {mjdOf : Int → Int → Int → Res Int} {arr : List Char} {e : Int × Int} (h : resolveEpoch mjdOf arr 0 = .ok (.inl e)) : e.2 = 0 := by
  unfold resolveEpoch at h
  have h := Res.noexcept_eq_ok.1 h
  obtain ⟨str, _, h⟩ := Res.bind_eq_ok.1 h
  obtain ⟨c0, _, h⟩ := Res.bind_eq_ok.1 h
  split at h
  · cases h; rfl
  obtain ⟨p, _, h⟩ := Res.bind_eq_ok.1 h
  split at h
  swap
  · cases h; rfl
  obtain ⟨mjd, _, h⟩ := Res.bind_eq_ok.1 h
  obtain ⟨rs, _, h⟩ := Res.bind_eq_ok.1 h
  split at h
  · cases h; rfl
  obtain ⟨c31, _, h⟩ := Res.bind_eq_ok.1 h
  obtain ⟨ns, _, h⟩ := Res.bind_eq_ok.1 h
  simp only at h
  generalize strtolEnd (arr.drop 32) ns = E at h
  generalize (if strtolErr ns = true then ERANGE else 0) = F at h
  split at h
  · cases h; rfl
  split at h
  · obtain ⟨blank, _, h⟩ := Res.bind_eq_ok.1 h
    obtain ⟨ck, _, h⟩ := Res.bind_eq_ok.1 h
    generalize (if blank = true then E else strtodEnd (arr.drop 41) ck) = G at h
    split at h
    · cases h; rfl
    · cases h
  · cases h

/-- Where the stream stands between two calls. -/
def ObsStands (s : Stream) (ls : List (List Char)) (nl : Bool) : Prop := LinesAhead s ls nl ∨ (ls = [] ∧ AtEnd s)

theorem readNextEpoch_atEnd (mjdOf : Int → Int → Int → Res Int) (raw0 : RawRnxObs) (mmap : ReadMap) (ov : List SatVals) (buf : List Char) {s : Stream} (h : AtEnd s) :
    ∃ s', readNextEpoch mjdOf raw0 mmap ov buf s 0 = .ok ⟨-1, 0, none, ov, buf, s', 0⟩ ∧ AtEnd s' := by
  by_cases hg : s.good = true
  · exact ⟨s, C58_eof mjdOf raw0 mmap ov buf s 0 hg h.1, h⟩
  · have he := h.2.resolve_right hg
    refine ⟨({ s with fail := true } : Stream).clear, ?_, AtEnd.clear (s := { s with fail := true }) ⟨h.1, Or.inl he⟩⟩
    have hpk : s.peek = (none, { s with fail := true }) := by unfold Stream.peek; rw [if_neg hg]
    unfold readNextEpoch
    rw [hpk]
    simp [epochEnd, he]

/-- **C117**: a caller keeps reading an observation file, whatever the answers are.  The answers are those that the lines of the file give, call by call: a defect costs the
lines up to the one that is refused and nothing else. -/
theorem C117_calls {mjdOf : Int → Int → Int → Res Int} (hL : ∀ y m d, (∃ k, mjdOf y m d = .ok k) ∨ ∃ e, mjdOf y m d = .throw e) (raw0 : RawRnxObs) {mmap : ReadMap} {nl : Bool} :
    ∀ (calls : Nat) (lines : List (List Char)) (ov : List SatVals) (buf : List Char) (s : Stream), (∀ l ∈ lines, LineFits (buf.length - 1) l) → 3 ≤ buf.length →
    HeaderLinesOK lines → ObsStands s lines nl → Room mmap ov →
    ∃ out, ObsGoesOn mjdOf mmap nl calls lines ov out ∧ List.Forall₂ ObsAnswerSeen out (obsAllCalls mjdOf raw0 mmap calls ov buf s 0) := by
  intro calls
  induction calls with
  | zero => intro lines ov _ _ _ _ _ _ _; exact ⟨[], .enough _ _, .nil⟩
  | succ calls ih =>
    intro lines ov buf s hfit hn hhead hs hroom
    cases lines with
    | nil =>
      have he : AtEnd s := by rcases hs with hs | ⟨_, hs⟩; exact hs.atEnd; exact hs
      obtain ⟨s', h1, h2⟩ := readNextEpoch_atEnd mjdOf raw0 mmap ov buf he
      obtain ⟨out, b1, b2⟩ := ih [] ov buf s' (by simp) hn (by intro l hl; cases hl) (Or.inr ⟨rfl, h2⟩) hroom
      refine ⟨_, .atEnd calls ov out b1, ?_⟩
      rw [obsAllCalls, h1]
      exact .cons ⟨_, rfl, rfl, rfl, rfl⟩ b2
    | cons l0 ls =>
      have hf0 := hfit l0 (by simp)
      have hs : LinesAhead s (l0 :: ls) nl := by rcases hs with hs | ⟨h, _⟩; exact hs; cases h
      obtain ⟨hg, hne, s', hgl, hs'⟩ := hs.step hf0
      have hstep := obsEpoch_step mjdOf raw0 mmap ov hg hne hgl
      have hbl : (fillLine buf l0).length = buf.length := by have := hf0.2.2; simp [fillLine]; omega
      rcases headLine_course hL hf0.2.1 (hhead l0 (by simp)) (buf.drop (l0.length + 1)) with ⟨k, e, h1, h2⟩ | ⟨h, h1, h2⟩ | ⟨y, mo, d, hh, mi, rest, e, h1, h2, h3, h4, h5⟩
      · have h1' : resolveEpoch mjdOf (fillLine buf l0) 0 = .ok (.inl (k, e)) := h1
        have he0 : e = 0 := resolveEpoch_errno h1'
        subst he0
        rw [h1', Res.bind_ok] at hstep
        obtain ⟨out, b1, b2⟩ := ih ls ov (fillLine buf l0) s' (fun q hq => by rw [hbl]; exact hfit q (by simp [hq])) (by omega) (fun q hq => hhead q (by simp [hq])) (Or.inl hs') hroom
        refine ⟨_, .header calls l0 ls ov k out h2 b1, ?_⟩
        rw [obsAllCalls, hstep]
        exact .cons ⟨_, rfl, rfl, rfl, rfl, rfl⟩ b2
      · have h1' : resolveEpoch mjdOf (fillLine buf l0) 0 = .ok (.inr h) := h1
        rw [h1', Res.bind_ok] at hstep
        simp only at hstep
        unfold collectEpoch at hstep
        have hc := collectLoop_course (mmap := mmap) (raw0 := raw0) hn ls h.numSats.toNat 0 ov (fillLine buf l0) s' (fun q hq => hfit q (by simp [hq])) hbl hs' hroom (by omega)
        revert hc hstep
        generalize collectLoop raw0 mmap h.numSats.toNat 0 ov (fillLine buf l0) s' 0 = r
        intro hstep hc
        have fits : ∀ {b : List Char} {q : List (List Char)}, b.length = buf.length → (∀ l ∈ q, l ∈ ls) → (∀ l ∈ q, LineFits (b.length - 1) l) ∧ HeaderLinesOK q :=
          fun hb hq => ⟨fun l hl => by rw [hb]; exact hfit l (by simp [hq l hl]), fun l hl => hhead l (by simp [hq l hl])⟩
        cases hc with
        | complete out ov' buf' s2 a1 a2 a3 a4 a5 a6 =>
          rw [Res.bind_ok] at hstep
          simp only [ne_eq, not_true_eq_false, if_false, epochEnd] at hstep
          by_cases hend : ls.drop h.numSats.toNat = [] ∧ nl = false
          · have hle : ls.length ≤ h.numSats.toNat := List.drop_eq_nil_iff.1 hend.1
            rw [if_pos (a6.eof_iff.2 hend)] at hstep
            have he : AtEnd s2 := by rw [hend.1] at a6; exact a6.atEnd
            obtain ⟨out', b1, b2⟩ := ih [] ov' buf' s2.clear (by simp) (by omega) (by intro l hl; cases hl) (Or.inr ⟨rfl, he.clear⟩) a4
            refine ⟨_, .last calls l0 ls ov h out ov' out' h2 (by omega) hend.2 (by rwa [List.take_of_length_le hle] at a2) a3.holds b1, ?_⟩
            rw [obsAllCalls, hstep]
            exact .cons ⟨_, rfl, rfl, rfl, by simp, rfl⟩ b2
          · rw [if_neg (fun he => hend (a6.eof_iff.1 he))] at hstep
            have hf := fits (q := ls.drop h.numSats.toNat) a5 (fun l hl => List.mem_of_mem_drop hl)
            obtain ⟨out', b1, b2⟩ := ih (ls.drop h.numSats.toNat) ov' buf' s2 hf.1 (by omega) hf.2 (Or.inl a6) a4
            have hcase : h.numSats.toNat < ls.length ∨ h.numSats.toNat = ls.length ∧ nl = true := by
              rcases Nat.lt_or_ge h.numSats.toNat ls.length with hl | hl
              · exact Or.inl hl
              · refine Or.inr ⟨by omega, ?_⟩
                cases nl with
                | true => rfl
                | false => exact (hend ⟨List.drop_eq_nil_iff.2 hl, rfl⟩).elim
            refine ⟨_, .epoch calls l0 ls ov h out ov' out' h2 hcase a2 a3.holds b1, ?_⟩
            rw [obsAllCalls, hstep]
            exact .cons ⟨_, rfl, rfl, rfl, by simp, rfl⟩ b2
        | short out o a1 a2 a3 a4 a5 a6 a7 =>
          rw [Res.bind_ok, if_pos (by omega)] at hstep
          obtain ⟨c1, c2, c3⟩ := a6
          obtain ⟨out', b1, b2⟩ := ih [] o.satobs o.buf o.strm (by simp) (by omega) (by intro l hl; cases hl) (Or.inr ⟨rfl, a7⟩) c1
          refine ⟨_, .short calls l0 ls ov h out o.satobs out' h2 a1 a2 a3.holds b1, ?_⟩
          rw [obsAllCalls, hstep]
          exact .cons ⟨_, rfl, by simp [a4], rfl, by simpa using a5, rfl⟩ (by simp only [c3]; exact b2)
        | refused out j l o a0 a1 a2 a3 a4 a5 a6 a7 a8 a9 a10 =>
          rw [Res.bind_ok, if_pos (by omega)] at hstep
          obtain ⟨c1, c2, c3⟩ := a9
          have hf := fits (q := ls.drop (j + 1)) c2 (fun l hl => List.mem_of_mem_drop hl)
          obtain ⟨out', b1, b2⟩ := ih (ls.drop (j + 1)) o.satobs o.buf o.strm hf.1 (by omega) hf.2 (Or.inl a10) c1
          refine ⟨_, .refused calls l0 ls ov h out o.satobs j l out' h2 a0 a1 (by omega) a3 a4 (fun hw => by have := a5 hw; omega) a6.holds b1, ?_⟩
          rw [obsAllCalls, hstep]
          exact .cons ⟨_, rfl, by simp [a7], rfl, by simpa using a8, rfl⟩ (by simp only [c3]; exact b2)
        | full out j l a0 a1 a2 a3 a4 =>
          refine ⟨_, .full calls l0 ls ov h out j l h2 a0 a1 (by omega) a3 a4, ?_⟩
          rw [obsAllCalls, hstep]
          exact .cons rfl .nil
      · have h5' : resolveEpoch mjdOf (fillLine buf l0) 0 = .terminate := h5
        rw [h5'] at hstep
        refine ⟨_, .date calls l0 ls ov y mo d hh mi rest e h1 h2 h3 h4, ?_⟩
        rw [obsAllCalls, hstep]
        exact .cons rfl .nil

/-! ## No choice -/

/-- One call on lines, for a vector of `slots` elements: shape of the answer and the lines left for the next call (`none`: there is none). -/
inductive ObsStep (mjdOf : Int → Int → Int → Res Int) (mmap : ReadMap) (nl : Bool) (l0 : List Char) (ls : List (List Char)) (slots : Nat) :
    Int × Option EpochHead × Nat → Option (List (List Char)) → Prop
  | epoch (h out) : HeaderGives mjdOf l0 h → (h.numSats.toNat < ls.length ∨ h.numSats.toNat = ls.length ∧ nl = true) → LinesGive mmap (ls.take h.numSats.toNat) out →
      out.length ≤ slots → ObsStep mjdOf mmap nl l0 ls slots (0, some h, out.length) (some (ls.drop h.numSats.toNat))
  | last (h out) : HeaderGives mjdOf l0 h → h.numSats.toNat = ls.length → nl = false → LinesGive mmap ls out → out.length ≤ slots →
      ObsStep mjdOf mmap nl l0 ls slots (-1, some h, out.length) (some [])
  | header (c) : HeaderFails mjdOf l0 c → ObsStep mjdOf mmap nl l0 ls slots (20 + c, none, 0) (some ls)
  | refused (h out j l) : HeaderGives mjdOf l0 h → j < h.numSats.toNat → LinesGive mmap (ls.take j) out → out.length ≤ slots → ls[j]? = some l →
      LineFails mmap l → (Wanted mmap l → out.length < slots) → ObsStep mjdOf mmap nl l0 ls slots (31, some h, out.length) (some (ls.drop (j + 1)))
  | short (h out) : HeaderGives mjdOf l0 h → ls.length < h.numSats.toNat → LinesGive mmap ls out → out.length ≤ slots →
      ObsStep mjdOf mmap nl l0 ls slots (31, some h, out.length) (some [])
  | date (y mo d hh mi rest e) : l0.head? = some '>' → 35 ≤ l0.length → DateIn l0 [y, mo, d, hh, mi] rest →
      mjdOf (toInt32 y) (toInt32 mo) (toInt32 d) = .throw e → ObsStep mjdOf mmap nl l0 ls slots (101, none, 0) none
  | full (h out j l) : HeaderGives mjdOf l0 h → j < h.numSats.toNat → LinesGive mmap (ls.take j) out → out.length = slots → ls[j]? = some l → Wanted mmap l →
      ObsStep mjdOf mmap nl l0 ls slots (100, none, 0) none

theorem Holds.fit {ov ov' out : List SatVals} (hh : Holds ov ov' out) : out.length ≤ ov.length := by
  by_contra hc
  obtain ⟨e, h1, _⟩ := hh.slots ov.length out[ov.length] (List.getElem?_eq_getElem (by omega))
  simp at h1

/-- The fate of a call with this step. -/
theorem ObsStep.fate {mjdOf : Int → Int → Int → Res Int} {mmap : ReadMap} {nl : Bool} {l0 : List Char} {ls : List (List Char)} {slots : Nat}
    {sh : Int × Option EpochHead × Nat} {nx : Option (List (List Char))} (h : ObsStep mjdOf mmap nl l0 ls slots sh nx) :
    ∃ f, ObsFate mjdOf mmap l0 ls slots f ∧ (nx ≠ none ↔ f = .returns) ∧ (nx = none → (f = .killed ∧ sh = (101, none, 0)) ∨ (f = .undefined ∧ sh = (100, none, 0))) := by
  cases h with
  | epoch h out h1 h2 h3 h4 => exact ⟨_, .data _ _ h1 (.complete _ h3 h4), by simp, by simp⟩
  | last h out h1 h2 h3 h4 h5 => exact ⟨_, .data _ _ h1 (.complete _ (by rwa [List.take_of_length_le (by omega)]) h5), by simp, by simp⟩
  | header k h1 => exact ⟨_, .header k h1, by simp, by simp⟩
  | date y mo d hh mi rest e h1 h2 h3 h4 => exact ⟨_, .date y mo d hh mi rest e h1 h2 h3 h4, by simp, by simp⟩
  | refused h out j l h1 h2 h3 h4 h5 h6 h7 => exact ⟨_, .data _ _ h1 (.refused _ j l h2 h3 h4 h5 h6 h7), by simp, by simp⟩
  | short h out h1 h2 h3 h4 => exact ⟨_, .data _ _ h1 (.complete _ (by rwa [List.take_of_length_le (by omega)]) h4), by simp, by simp⟩
  | full h out j l h1 h2 h3 h4 h5 h6 => exact ⟨_, .data _ _ h1 (.full _ j l h2 h3 h4 h5 h6), by simp, by simp⟩

theorem ObsStep.unique {mjdOf : Int → Int → Int → Res Int} {mmap : ReadMap} {nl : Bool} {l0 : List Char} {ls : List (List Char)} {slots : Nat} (hp : ∀ l ∈ ls, PlainLine mmap l)
    {a b : Int × Option EpochHead × Nat} {x y : Option (List (List Char))} (hx : ObsStep mjdOf mmap nl l0 ls slots a x) (hy : ObsStep mjdOf mmap nl l0 ls slots b y) : a = b ∧ x = y := by
  obtain ⟨f, f1, f2, f3⟩ := hx.fate
  obtain ⟨g, g1, g2, g3⟩ := hy.fate
  obtain rfl := C111_determined hp f1 g1
  by_cases hr : f = .returns
  swap
  · have hx0 : x = none := by by_contra hc; exact hr (f2.1 hc)
    have hy0 : y = none := by by_contra hc; exact hr (g2.1 hc)
    rcases f3 hx0 with ⟨rfl, e1⟩ | ⟨rfl, e1⟩ <;> rcases g3 hy0 with ⟨e2, e3⟩ | ⟨e2, e3⟩ <;> first | (cases e2; done) | exact ⟨by rw [e1, e3], by rw [hx0, hy0]⟩
  subst hr
  have hx0 := f2.2 rfl
  have hy0 := g2.2 rfl
  clear f1 f2 f3 g1 g2 g3
  have bad : ∀ {i m : Nat} {q : List Char} {out : List SatVals}, ls[i]? = some q → LineFails mmap q → LinesGive mmap (ls.take m) out → i < m → False := by
    intro i m q out h1 h2 h3 h4
    exact h3.not_fails (List.mem_of_getElem? (i := i) (by rw [List.getElem?_take, if_pos h4, h1])) (hp q (List.mem_of_getElem? h1)) h2
  have bad' : ∀ {i : Nat} {q : List Char} {out : List SatVals}, ls[i]? = some q → LineFails mmap q → LinesGive mmap ls out → False := by
    intro i q out h1 h2 h3
    exact h3.not_fails (List.mem_of_getElem? h1) (hp q (List.mem_of_getElem? h1)) h2
  cases hx with
  | epoch h out h1 h2 h3 h4 =>
    cases hy with
    | epoch g out' g1 g2 g3 g4 =>
      obtain rfl := h1.unique g1
      obtain rfl := LinesGive.unique (fun q hq => hp q (List.mem_of_mem_take hq)) h3 g3
      exact ⟨rfl, rfl⟩
    | last g out' g1 g2 g3 g4 g5 =>
      obtain rfl := h1.unique g1
      rcases h2 with h2 | ⟨_, h2⟩
      · omega
      · rw [g3] at h2; cases h2
    | header c g1 => exact (h1.not_fails g1).elim
    | refused g out' j l g1 g2 g3 g4 g5 g6 g7 =>
      obtain rfl := h1.unique g1
      exact (bad g5 g6 h3 g2).elim
    | short g out' g1 g2 g3 g4 =>
      obtain rfl := h1.unique g1
      omega
    | date => exact absurd rfl hy0
    | full => exact absurd rfl hy0
  | last h out h1 h2 h3 h4 h5 =>
    cases hy with
    | epoch g out' g1 g2 g3 g4 =>
      obtain rfl := h1.unique g1
      rcases g2 with g2 | ⟨_, g2⟩
      · omega
      · rw [h3] at g2; cases g2
    | last g out' g1 g2 g3 g4 g5 =>
      obtain rfl := h1.unique g1
      obtain rfl := LinesGive.unique hp h4 g4
      exact ⟨rfl, rfl⟩
    | header c g1 => exact (h1.not_fails g1).elim
    | refused g out' j l g1 g2 g3 g4 g5 g6 g7 => exact (bad' g5 g6 h4).elim
    | short g out' g1 g2 g3 g4 =>
      obtain rfl := h1.unique g1
      omega
    | date => exact absurd rfl hy0
    | full => exact absurd rfl hy0
  | header c h1 =>
    cases hy with
    | header c' g1 => obtain rfl := h1.unique g1; exact ⟨rfl, rfl⟩
    | epoch g out' g1 => exact (g1.not_fails h1).elim
    | last g out' g1 => exact (g1.not_fails h1).elim
    | refused g out' j l g1 => exact (g1.not_fails h1).elim
    | short g out' g1 => exact (g1.not_fails h1).elim
    | date => exact absurd rfl hy0
    | full => exact absurd rfl hy0
  | refused h out j l h1 h2 h3 h4 h5 h6 h7 =>
    cases hy with
    | epoch g out' g1 g2 g3 g4 =>
      obtain rfl := h1.unique g1
      exact (bad h5 h6 g3 h2).elim
    | last g out' g1 g2 g3 g4 g5 => exact (bad' h5 h6 g4).elim
    | header c g1 => exact (h1.not_fails g1).elim
    | refused g out' i q g1 g2 g3 g4 g5 g6 g7 =>
      obtain rfl := h1.unique g1
      have hij : i = j := by
        rcases Nat.lt_trichotomy i j with hlt | he | hlt
        · exact (bad g5 g6 h3 hlt).elim
        · exact he
        · exact (bad h5 h6 g3 hlt).elim
      subst hij
      obtain rfl := LinesGive.unique (fun q hq => hp q (List.mem_of_mem_take hq)) h3 g3
      exact ⟨rfl, rfl⟩
    | short g out' g1 g2 g3 g4 => exact (bad' h5 h6 g3).elim
    | date => exact absurd rfl hy0
    | full => exact absurd rfl hy0
  | short h out h1 h2 h3 h4 =>
    cases hy with
    | epoch g out' g1 g2 g3 g4 =>
      obtain rfl := h1.unique g1
      omega
    | last g out' g1 g2 g3 g4 g5 =>
      obtain rfl := h1.unique g1
      omega
    | header c g1 => exact (h1.not_fails g1).elim
    | refused g out' i q g1 g2 g3 g4 g5 g6 g7 => exact (bad' g5 g6 h3).elim
    | short g out' g1 g2 g3 g4 =>
      obtain rfl := h1.unique g1
      obtain rfl := LinesGive.unique hp h3 g3
      exact ⟨rfl, rfl⟩
    | date => exact absurd rfl hy0
    | full => exact absurd rfl hy0
  | date => exact absurd rfl hx0
  | full => exact absurd rfl hx0

/-- The first call. -/
theorem ObsGoesOn.first {mjdOf : Int → Int → Int → Res Int} {mmap : ReadMap} {nl : Bool} {k : Nat} {l0 : List Char} {ls : List (List Char)} {ov : List SatVals}
    {out : List ObsAnswer} (h : ObsGoesOn mjdOf mmap nl (k + 1) (l0 :: ls) ov out) :
    ∃ a rest nx, out = a :: rest ∧ ObsStep mjdOf mmap nl l0 ls ov.length a.shape nx ∧
      ((nx = none ∧ rest = []) ∨ ∃ q ov', nx = some q ∧ (∀ l ∈ q, l ∈ ls) ∧ ov'.length = ov.length ∧ ObsGoesOn mjdOf mmap nl k q ov' rest) := by
  cases h with
  | epoch _ _ _ _ h out ov' rest h1 h2 h3 h4 h5 =>
    exact ⟨_, _, _, rfl, .epoch h out h1 h2 h3 h4.fit, Or.inr ⟨_, ov', rfl, fun l hl => List.mem_of_mem_drop hl, h4.length, h5⟩⟩
  | last _ _ _ _ h out ov' rest h1 h2 h3 h4 h5 h6 =>
    exact ⟨_, _, _, rfl, .last h out h1 h2 h3 h4 h5.fit, Or.inr ⟨_, ov', rfl, by simp, h5.length, h6⟩⟩
  | header _ _ _ _ c rest h1 h2 => exact ⟨_, _, _, rfl, .header c h1, Or.inr ⟨_, ov, rfl, fun _ hl => hl, rfl, h2⟩⟩
  | refused _ _ _ _ h out ov' j l rest h1 h2 h3 h4 h5 h6 h7 h8 h9 =>
    exact ⟨_, _, _, rfl, .refused h out j l h1 h2 h3 h4 h5 h6 h7, Or.inr ⟨_, ov', rfl, fun l hl => List.mem_of_mem_drop hl, h8.length, h9⟩⟩
  | short _ _ _ _ h out ov' rest h1 h2 h3 h4 h5 =>
    exact ⟨_, _, _, rfl, .short h out h1 h2 h3 h4.fit, Or.inr ⟨_, ov', rfl, by simp, h4.length, h5⟩⟩
  | date _ _ _ _ y mo d hh mi rest e h1 h2 h3 h4 => exact ⟨_, _, _, rfl, .date y mo d hh mi rest e h1 h2 h3 h4, Or.inl ⟨rfl, rfl⟩⟩
  | full _ _ _ _ h out j l h1 h2 h3 h4 h5 h6 => exact ⟨_, _, _, rfl, .full h out j l h1 h2 h3 h4 h5 h6, Or.inl ⟨rfl, rfl⟩⟩

/-- **C117** (no choice): status, header and number of satellites of every answer are determined by the lines and the number of elements of the vector - not by what is in
the vector, not even what a refused line has left there. -/
theorem C117_determined {mjdOf : Int → Int → Int → Res Int} {mmap : ReadMap} {nl : Bool} : ∀ {calls : Nat} {lines : List (List Char)}, (∀ l ∈ lines, PlainLine mmap l) →
    ∀ {ov ov2 : List SatVals} {x y : List ObsAnswer}, ov.length = ov2.length → ObsGoesOn mjdOf mmap nl calls lines ov x → ObsGoesOn mjdOf mmap nl calls lines ov2 y →
    x.map ObsAnswer.shape = y.map ObsAnswer.shape := by
  intro calls
  induction calls with
  | zero => intro lines _ ov ov2 x y _ hx hy; cases hx; cases hy; rfl
  | succ calls ih =>
    intro lines hp ov ov2 x y hlen hx hy
    cases lines with
    | nil =>
      cases hx with
      | atEnd _ _ rest h1 =>
        cases hy with
        | atEnd _ _ rest' g1 => simp only [List.map_cons]; rw [ih hp hlen h1 g1]
    | cons l0 ls =>
      obtain ⟨a, rest, nx, rfl, h1, h2⟩ := hx.first
      obtain ⟨b, rest', ny, rfl, g1, g2⟩ := hy.first
      rw [← hlen] at g1
      obtain ⟨e1, rfl⟩ := h1.unique (fun q hq => hp q (by simp [hq])) g1
      simp only [List.map_cons, e1]
      rcases h2 with ⟨rfl, rfl⟩ | ⟨q, ov', rfl, h3, h4, h5⟩ <;> rcases g2 with ⟨g3, rfl⟩ | ⟨q', ov'', g3, g4, g5, g6⟩
      · rfl
      · cases g3
      · cases g3
      · cases g3
        rw [ih (fun l hl => hp l (by simp [h3 l hl])) (by omega) h5 g6]

end Ggnss
