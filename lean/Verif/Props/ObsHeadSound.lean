import Verif.Spec.ObsHeadSound
import Verif.Props.ObsHeadExact
import Verif.Props.Sp3HeadAny
import Verif.Props.Sp3Sound
/-!
# C104: the header of an observation file, whatever it looks like
-/
namespace Ggnss

theorem codeAt_iff {l junk : List Char} (hl : NUL ∉ l) {off : Nat} (ho : off ≤ l.length) :
    ∃ r, cstrOf ((fillLine junk l).drop off) = .ok (l.drop off) ∧ ObsCode.parse (l.drop off) = r ∧ ∀ c, r = .ok c ↔ CodeAt l off c := by
  refine ⟨_, ?_, rfl, fun c => C03_parse_iff _ c⟩
  unfold fillLine
  rw [drop_line ho]
  exact cstrOf_append (fun h => hl (List.mem_of_mem_drop h)) _

/-- A header line: it fits the array and reaches its label. -/
def HeadLine (l : List Char) : Prop := LineFits 84 l ∧ 60 ≤ l.length

/-- The loop over the codes of a list, in a header that ends with a line of another label. -/
theorem obsTypesLoop_text {last t : List Char} (hlast : HeadLine last) (hno : ¬ HasLabel last c!"SYS / # / OBS TYPES") :
    ∀ (n k : Nat) (l junk : List Char) (acc : List ObsCode) (s s' : Stream) (body : List (List Char)) (v : List ObsCode), HeadLine l → k < 13 →
    (∀ x ∈ body, HeadLine x) → s.good = true → s.rest = linesText (body ++ [last]) ++ t → obsTypesLoop n k (fillLine junk l) acc s = .ok (.inr v, s') →
    ∃ used body' codes, body = used ++ body' ∧ s' = s.past used ∧ v = acc ++ codes ∧ codes.length = n ∧ used.length = (k + n) / 13 ∧
      (∀ x ∈ used, HasLabel x c!"SYS / # / OBS TYPES") ∧
      ∀ (i : Nat) (c : ObsCode), codes[i]? = some c → ∃ x, (l :: used)[(k + i) / 13]? = some x ∧ CodeAt x (7 + 4 * ((k + i) % 13)) c := by
  intro n
  induction n with
  | zero =>
    intro k l junk acc s s' body v _ hk _ _ _ h
    rw [obsTypesLoop] at h
    simp only [Res.ok.injEq, Prod.mk.injEq, Sum.inr.injEq] at h
    obtain ⟨rfl, rfl⟩ := h
    exact ⟨[], body, [], rfl, (Stream.past_nil _).symm, by simp, rfl, by simp; omega, by simp, by simp⟩
  | succ n ih =>
    intro k l junk acc s s' body v hl hk hb hg hr h
    obtain ⟨r, h1, h2, h3⟩ := codeAt_iff (junk := junk) hl.1.2.1 (off := 7 + k * 4) (by have := hl.2; omega)
    rw [obsTypesLoop, h1, Res.bind_ok, h2] at h
    have hr0 : (∃ c, r = .ok c) ∨ r = .throw .runtime_error := by rw [← h2]; exact C03_parse_total _
    rcases hr0 with ⟨c, rfl⟩ | rfl
    swap
    · simp at h
    have hc := (h3 c).1 rfl
    simp only at h
    by_cases h13 : k + 1 = 13
    · rw [if_pos h13] at h
      have hkk : k = 12 := by omega
      subst hkk
      cases body with
      | nil =>
        rw [List.nil_append] at hr
        rw [getline_past (n := OBS_HEADER_CHARS) hg hr hlast.1.1 hlast.1.2.2] at h
        simp only at h
        rw [obsLabel_line hlast.1.2.1 hlast.2 (by decide), decide_eq_false hno] at h
        simp at h
      | cons x body =>
        have hx := hb x (by simp)
        rw [List.cons_append] at hr
        rw [getline_past (n := OBS_HEADER_CHARS) hg hr hx.1.1 hx.1.2.2] at h
        simp only at h
        rw [obsLabel_line hx.1.2.1 hx.2 (by decide), Res.bind_ok] at h
        by_cases hlab : HasLabel x c!"SYS / # / OBS TYPES"
        swap
        · rw [decide_eq_false hlab] at h; simp at h
        rw [decide_eq_true hlab] at h
        simp only [if_true] at h
        obtain ⟨used, body', codes, a1, a2, a3, a4, a5, a6, a7⟩ := ih 0 x (fillLine junk l) (acc ++ [c]) (s.past [x]) s' body v hx (by omega)
          (fun y hy => hb y (by simp [hy])) hg (rest_cons hr) h
        refine ⟨x :: used, body', c :: codes, by rw [a1]; rfl, by rw [a2, Stream.past_past]; rfl, by rw [a3]; simp, by simp [a4], by simp [a5]; omega, ?_, ?_⟩
        · intro y hy
          rcases List.mem_cons.1 hy with rfl | hy
          · exact hlab
          · exact a6 y hy
        · intro i d hd
          cases i with
          | zero =>
            simp at hd
            subst hd
            exact ⟨l, by simp, by simpa using hc⟩
          | succ i =>
            obtain ⟨y, hy, hd⟩ := a7 i d (by simpa using hd)
            refine ⟨y, ?_, ?_⟩
            · rw [show (12 + (i + 1)) / 13 = (0 + i) / 13 + 1 by omega]
              simpa using hy
            · rw [show (12 + (i + 1)) % 13 = (0 + i) % 13 by omega]
              exact hd
    · rw [if_neg h13] at h
      obtain ⟨used, body', codes, a1, a2, a3, a4, a5, a6, a7⟩ := ih (k + 1) l junk (acc ++ [c]) s s' body v hl (by omega) hb hg hr h
      refine ⟨used, body', c :: codes, a1, a2, by rw [a3]; simp, by simp [a4], by rw [a5]; congr 1; omega, a6, ?_⟩
      intro i d hd
      cases i with
      | zero =>
        simp at hd
        subst hd
        refine ⟨l, ?_, ?_⟩
        · rw [show (k + 0) / 13 = 0 by omega]; rfl
        · rw [show (k + 0) % 13 = k by omega, Nat.mul_comm]; exact hc
      | succ i =>
        obtain ⟨y, hy, hd⟩ := a7 i d (by simpa using hd)
        refine ⟨y, ?_, ?_⟩
        · rw [show k + (i + 1) = k + 1 + i by omega]; exact hy
        · rw [show k + (i + 1) = k + 1 + i by omega]; exact hd

theorem obsTypesLoop_inl_ne : ∀ {n k : Nat} {line : List Char} {acc : List ObsCode} {s s' : Stream} {e : Int},
    obsTypesLoop n k line acc s = .ok (.inl e, s') → e ≠ 0 := by
  intro n
  induction n with
  | zero => intro k line acc s s' e h; rw [obsTypesLoop] at h; simp at h
  | succ n ih =>
    intro k line acc s s' e h
    rw [obsTypesLoop] at h
    obtain ⟨txt, _, h⟩ := bind_ok_inv h
    split at h
    · split at h
      · obtain ⟨b, _, h⟩ := bind_ok_inv h
        split at h
        · exact ih h
        · simp at h; omega
      · exact ih h
    · simp at h; omega
    · simp at h

/-- A list of types. -/
theorem obsTypesResolve_text {last t : List Char} (hlast : HeadLine last) (hno : ¬ HasLabel last c!"SYS / # / OBS TYPES") {e0 : Bool} {l junk : List Char}
    {obst obst' : ObsTypes} {s s' : Stream} {body : List (List Char)} (hl : HeadLine l) (hb : ∀ x ∈ body, HeadLine x) (hg : s.good = true)
    (hr : s.rest = linesText (body ++ [last]) ++ t) (hlab : HasLabel l c!"SYS / # / OBS TYPES") (h : obsTypesResolve e0 (fillLine junk l) obst s = .ok (0, obst', s')) :
    ∃ used body' sys codes, body = used ++ body' ∧ s' = s.past used ∧ obst.lookup sys = none ∧ obst' = obsInsert sys codes obst ∧
      ∀ date, (ObsEntry.types l used sys codes).Gives date := by
  unfold obsTypesResolve at h
  have h := noexcept_ok_inv h
  obtain ⟨c0, hc0⟩ : ∃ c, l[0]? = some c := ⟨_, List.getElem?_eq_getElem (by have := hl.2; omega)⟩
  rw [getAt_fill hc0, Res.bind_ok] at h
  rcases charToSatsys_inv (c := c0) with ⟨sys, hc, rfl⟩ | ⟨_, hc⟩
  swap
  · obtain ⟨a, ha, _⟩ := bind_ok_inv h
    exact absurd ha (hc a)
  rw [hc, Res.bind_ok] at h
  by_cases hk : (obst.lookup sys).isSome = true
  · rw [if_pos hk] at h; simp at h
  rw [if_neg hk] at h
  obtain ⟨p, hp, hcase⟩ := strtolA_text (l := l) (tail := junk.drop (l.length + 1)) (off := 3) (by have := hl.2; omega)
  have hp' : strtolA ((fillLine junk l).drop 3) = .ok p := hp
  rw [hp', Res.bind_ok] at h
  simp only at h
  rcases hcase with ⟨rfl, _⟩ | ⟨n, r, rfl, hn⟩ | ⟨w, r, rfl, _⟩
  · simp at h
  swap
  · simp [strtolErr] at h
  by_cases he : e0 = true
  · simp [he] at h
  have he' : e0 = false := by simpa using he
  subst he'
  rw [if_neg (by simp [strtolErr])] at h
  obtain ⟨⟨x, s1⟩, hx, h⟩ := bind_ok_inv h
  cases x with
  | inl e =>
    exfalso
    simp only [Res.pure_eq, Res.ok.injEq, Prod.mk.injEq] at h
    obtain ⟨rfl, _⟩ := h
    exact obsTypesLoop_inl_ne hx rfl
  | inr v =>
    simp only at h
    by_cases hv : (v.length : Int) = toInt32 (strtolVal (some (n, r, false)))
    swap
    · rw [if_neg hv] at h; simp at h
    rw [if_pos hv] at h
    simp only [Res.pure_eq, Res.ok.injEq, Prod.mk.injEq, true_and] at h
    obtain ⟨rfl, rfl⟩ := h
    obtain ⟨used, body', codes, a1, a2, a3, a4, a5, a6, a7⟩ := obsTypesLoop_text hlast hno _ 0 l junk [] s s1 body v hl (by omega) hb hg hr hx
    simp at a3
    subst a3
    have hpos : v ≠ [] := by
      intro hv0
      subst hv0
      simp only [List.length_nil] at a4
      omega
    refine ⟨used, body', sys, v, a1, a2, Option.not_isSome_iff_eq_none.1 hk, rfl, fun date => ⟨?_, hc0, ⟨n, hn, hv.symm⟩, hpos, ?_, ?_⟩⟩
    · intro x hx
      rcases List.mem_cons.1 hx with rfl | hx
      · exact hlab
      · exact a6 x hx
    · rw [a5, ← a4]; simp
    · intro i c hi
      have := a7 i c hi
      simpa using this

/-- Three numbers of a line. -/
theorem three_exact {l : List Char} (hl : 60 ≤ l.length) (junk : List Char) (e0 : Bool) :
    (∃ v, char2double e0 14 3 (fillLine junk l) = .ok (true, v) ∧ e0 = false ∧ ThreeGiven l v) ∨
    ((∃ v, char2double e0 14 3 (fillLine junk l) = .ok (false, v)) ∧
      (e0 = true ∨ NoNumberIn l ∨ NoNumberIn (l.drop 14) ∨ NoNumberIn (l.drop 28))) := by
  have hA : ∀ a b : List Char, strtodA (a ++ NUL :: b) = .ok (strtod (a ++ NUL :: b)) := by
    intro a b; unfold strtodA; rw [if_pos (by simp)]
  generalize hj : junk.drop (l.length + 1) = j
  have e : fillLine junk l = l ++ NUL :: j := by rw [← hj]; rfl
  have d1 : (l ++ NUL :: j).drop 14 = l.drop 14 ++ NUL :: j := List.drop_append_of_le_length (by omega)
  have d2 : (l.drop 14 ++ NUL :: j).drop 14 = l.drop 28 ++ NUL :: j := by
    rw [List.drop_append_of_le_length (by simp; omega), List.drop_drop]
  rw [e]
  simp only [char2double, hA, d1, d2, Res.bind_ok]
  rcases strtod_line l j with ⟨v, rr, hs, hv⟩ | ⟨hs | ⟨v, rr, hs⟩, hno⟩
  · rw [hs]
    simp only [Bool.or_false]
    rcases strtod_line (l.drop 14) j with ⟨w, rw', hs2, hw⟩ | ⟨hs2 | ⟨w, rw', hs2⟩, hno⟩
    · rw [hs2]
      simp only [Bool.or_false]
      rcases strtod_line (l.drop 28) j with ⟨x, rx, hs3, hx⟩ | ⟨hs3 | ⟨x, rx, hs3⟩, hno⟩
      · rw [hs3]
        cases e0
        · exact Or.inl ⟨_, rfl, rfl, v, w, x, rfl, hv, hw, hx⟩
        · exact Or.inr ⟨⟨_, rfl⟩, Or.inl rfl⟩
      · rw [hs3]; exact Or.inr ⟨⟨_, rfl⟩, Or.inr (Or.inr (Or.inr hno))⟩
      · rw [hs3]
        simp only [Bool.or_true, Res.bind_ok, Bool.not_true, Res.pure_eq]
        exact Or.inr ⟨⟨_, rfl⟩, Or.inr (Or.inr (Or.inr hno))⟩
    · rw [hs2]; exact Or.inr ⟨⟨_, rfl⟩, Or.inr (Or.inr (Or.inl hno))⟩
    · rw [hs2]
      refine Or.inr ⟨?_, Or.inr (Or.inr (Or.inl hno))⟩
      cases strtod (l.drop 28 ++ NUL :: j) with
      | none => exact ⟨_, rfl⟩
      | some x => simp only [Bool.or_true, Bool.true_or, Res.bind_ok, Bool.not_true, Res.pure_eq]; exact ⟨_, rfl⟩
  · rw [hs]; exact Or.inr ⟨⟨_, rfl⟩, Or.inr (Or.inl hno)⟩
  · rw [hs]
    refine Or.inr ⟨?_, Or.inr (Or.inl hno)⟩
    cases strtod (l.drop 14 ++ NUL :: j) with
    | none => exact ⟨_, rfl⟩
    | some w =>
      cases strtod (l.drop 28 ++ NUL :: j) with
      | none => exact ⟨_, rfl⟩
      | some x => simp only [Bool.or_true, Bool.true_or, Res.bind_ok, Bool.not_true, Res.pure_eq]; exact ⟨_, rfl⟩

/-- The flag of the receiver clock line. -/
def ClockGiven (l : List Char) (b : Bool) : Prop :=
  (b = false ∧ ∀ n, ¬ IntBegins l n) ∨ ∃ n rest, IntThen l n rest ∧ n ≤ 9223372036854775807 ∧ -9223372036854775808 ≤ n ∧ rest.length + 3 ≠ l.length ∧
    toInt32 n = if b then 1 else 0

theorem clock_exact {l : List Char} (hl : 60 ≤ l.length) (junk : List Char) (e0 : Bool) (b : Bool) :
    obsClock e0 (fillLine junk l) = .ok (some b) ↔ e0 = false ∧ ClockGiven l b := by
  generalize hj : junk.drop (l.length + 1) = j
  have e : fillLine junk l = l ++ NUL :: j := by rw [← hj]; rfl
  have hA : strtolA (l ++ NUL :: j) = .ok (strtol (l ++ NUL :: j)) := by unfold strtolA; rw [if_pos (by simp)]
  rw [e]
  unfold obsClock
  rw [hA, Res.bind_ok]
  have hlen : ((l ++ NUL :: j).drop 3).length = l.length - 3 + (j.length + 1) := by
    rw [List.length_drop, List.length_append, List.length_cons]; omega
  simp only [hlen]
  cases hs : strtol (l ++ NUL :: j) with
  | none =>
    have hno : ∀ n, ¬ IntBegins l n := fun n hn => strtol_not_begins hs n (hn.nul j)
    simp only [strtolVal, strtolErr, strtolEnd, List.length_append, List.length_cons]
    have h0 : toInt32 0 = 0 := by decide
    cases e0
    · rw [if_neg (by rw [h0]; simp; omega)]
      simp only [h0, Res.pure_eq, Res.ok.injEq, Option.some.injEq, true_and]
      constructor
      · intro hb; exact Or.inl ⟨by simpa using hb.symm, hno⟩
      · rintro (⟨rfl, _⟩ | ⟨n, rest, ⟨ws, sg, ds, h⟩, _⟩)
        · simp
        · exact absurd ⟨ws, sg, ds, rest, h⟩ (hno n)
    · simp
  | some x =>
    obtain ⟨n, r, er⟩ := x
    cases er with
    | true =>
      obtain ⟨v, hv1, hv2⟩ := strtol_big hs
      have hv := hv1.of_nul
      have : ¬ ClockGiven l b := by
        rintro (⟨_, h⟩ | ⟨n, rest, ⟨ws, sg, ds, h⟩, h1, h2, _⟩)
        · exact h v hv
        · have := hv.unique ⟨ws, sg, ds, rest, h⟩
          unfold LONG_MAX LONG_MIN at hv2
          omega
      simp [strtolErr, this]
    | false =>
      obtain ⟨rest, hr, hthen⟩ := (strtol_then hs).of_nul
      have hb := strtol_text l j
      have hfit : n ≤ 9223372036854775807 ∧ -9223372036854775808 ≤ n := by
        rcases hb with ⟨h1, _⟩ | ⟨v, r, h1, _, h3, h4⟩ | ⟨w, r, h1, _⟩
        · rw [hs] at h1; cases h1
        · rw [hs] at h1; cases h1; exact ⟨h3, h4⟩
        · rw [hs] at h1; cases h1
      subst hr
      have hrl : (rest.length + (j.length + 1) = l.length - 3 + (j.length + 1)) ↔ rest.length + 3 = l.length := by omega
      simp only [strtolVal, strtolErr, strtolEnd, List.length_append, List.length_cons]
      have huniq : ∀ m rest', IntThen l m rest' → m = n ∧ rest' = rest := by
        intro m rest' hm
        have h1 := strtol_of_then (t := l ++ NUL :: j) (v := m) (r := rest' ++ NUL :: j) (by
          obtain ⟨ws, sg, ds, g0, g1, g2, g3, g4, g5, g6⟩ := hm
          refine ⟨ws, sg, ds, by rw [g0]; simp, g1, g2, g3, g4, ?_, g6⟩
          intro c hc
          cases rest' with
          | nil => simp at hc; subst hc; decide
          | cons _ _ => exact g5 c hc)
        rw [hs] at h1
        split at h1
        · simp at h1
        · split at h1
          · simp at h1
          · simp only [Option.some.injEq, Prod.mk.injEq, List.append_cancel_right_eq, and_true] at h1
            exact ⟨h1.1.symm, h1.2.symm⟩
      have hgiven : ClockGiven l b ↔ rest.length + 3 ≠ l.length ∧ toInt32 n = if b then 1 else 0 := by
        constructor
        · rintro (⟨_, h⟩ | ⟨m, rest', h1, _, _, h4, h5⟩)
          · obtain ⟨ws, sg, ds, h'⟩ := hthen
            exact absurd ⟨ws, sg, ds, rest, h'⟩ (h n)
          · obtain ⟨rfl, rfl⟩ := huniq m rest' h1
            exact ⟨h4, h5⟩
        · rintro ⟨h4, h5⟩
          exact Or.inr ⟨n, rest, hthen, hfit.1, hfit.2, h4, h5⟩
      rw [hgiven]
      cases e0
      swap
      · simp
      simp only [Bool.false_eq_true, or_self, false_or, true_and]
      by_cases h3 : rest.length + 3 = l.length
      · rw [if_pos (Or.inl (by omega))]; simp [h3]
      · by_cases hn : toInt32 n ≠ 0 ∧ toInt32 n ≠ 1
        · rw [if_pos (Or.inr hn)]
          simp only [Res.pure_eq, Res.ok.injEq, reduceCtorEq, false_iff, not_and]
          intro _ h
          cases b <;> simp at h <;> omega
        · rw [if_neg (by rintro (h | h); · omega
                         · exact hn h)]
          simp only [Res.pure_eq, Res.ok.injEq, Option.some.injEq, ne_eq, h3, not_false_eq_true, true_and]
          have hn' : toInt32 n = 0 ∨ toInt32 n = 1 := by
            by_contra hc; exact hn ⟨fun h => hc (Or.inl h), fun h => hc (Or.inr h)⟩
          rcases hn' with h | h <;> cases b <;> simp [h]

theorem ObsGiven.snoc {done : List ObsEntry} {o o' : ObsFileObj} (ho : ObsGiven done o) {i : ObsEntry}
    (hnew : ∀ e, i.types? = some e → o.obst.lookup e.1 = none)
    (h2 : o'.markerName = i.marker?.getD o.markerName)
    (h3 : o'.markerNumber = i.markerNo?.getD o.markerNumber) (h4 : (o'.recNumber, o'.recType) = i.receiver?.getD (o.recNumber, o.recType))
    (h5 : antText o'.antenna = match i.antenna? with | none => antText o.antenna | some a => .ok a)
    (h6 : o'.approx = i.position?.getD o.approx) (h7 : o'.ecc = i.delta?.getD o.ecc) (h8 : o'.clkApplied = i.clock?.getD o.clkApplied)
    (h9 : o'.firstObs = i.firstObs?.or o.firstObs)
    (h10 : o'.obst = match i.types? with | none => o.obst | some e => obsInsert e.1 e.2 o.obst) : ObsGiven (done ++ [i]) o' := by
  have lo := fun {β : Type} (f : ObsEntry → Option β) => lastOf_snoc f done i
  constructor
  · rw [h2, lo, ho.marker]; cases i.marker? <;> rfl
  · rw [h3, lo, ho.markerNo]; cases i.markerNo? <;> rfl
  · rw [h4, lo, ho.receiver]; cases i.receiver? <;> rfl
  · rw [h5, lo, ho.antenna]; cases i.antenna? <;> rfl
  · rw [h6, lo, ho.position]; cases i.position? <;> rfl
  · rw [h7, lo, ho.delta]; cases i.delta? <;> rfl
  · rw [h8, lo, ho.clock]; cases i.clock? <;> rfl
  · rw [h9, lo, ho.firstObs]; cases i.firstObs? <;> rfl
  · intro q
    rw [h10, List.filterMap_append, List.lookup_append]
    cases hi : i.types? with
    | none => simp [hi, ho.types q]
    | some e =>
      have hn' := hnew e hi
      have hn := hn'
      rw [ho.types] at hn
      simp only
      rw [lookup_obsInsert _ _ _ hn', ho.types q]
      have hone : ([i].filterMap ObsEntry.types?).lookup q = if q = e.1 then some e.2 else none := by
        have : [i].filterMap ObsEntry.types? = [(e.1, e.2)] := by simp [hi]
        rw [this, List.lookup_cons]
        by_cases hq : q = e.1
        · simp [hq]
        · rw [beq_false_of_ne hq, if_neg hq]; rfl
      rw [hone]
      by_cases hq : q = e.1
      · rw [if_pos hq, if_pos hq, hq, hn]; simp
      · rw [if_neg hq, if_neg hq]; simp

/-- What an entry does to the object. -/
structure Took (i : ObsEntry) (o o' : ObsFileObj) : Prop where
  fresh : ∀ e, i.types? = some e → o.obst.lookup e.1 = none
  version : o'.version = o.version
  sys : o'.sys = o.sys
  marker : o'.markerName = i.marker?.getD o.markerName
  markerNo : o'.markerNumber = i.markerNo?.getD o.markerNumber
  receiver : (o'.recNumber, o'.recType) = i.receiver?.getD (o.recNumber, o.recType)
  antenna : antText o'.antenna = match i.antenna? with | none => antText o.antenna | some a => .ok a
  position : o'.approx = i.position?.getD o.approx
  delta : o'.ecc = i.delta?.getD o.ecc
  clock : o'.clkApplied = i.clock?.getD o.clkApplied
  firstObs : o'.firstObs = i.firstObs?.or o.firstObs
  types : o'.obst = match i.types? with | none => o.obst | some e => obsInsert e.1 e.2 o.obst

theorem Took.given {done : List ObsEntry} {i : ObsEntry} {o o' : ObsFileObj} (h : Took i o o') (ho : ObsGiven done o) : ObsGiven (done ++ [i]) o' :=
  ho.snoc h.fresh h.marker h.markerNo h.receiver h.antenna h.position h.delta h.clock h.firstObs h.types

/-- The date parser reads a string, not what stands behind it. -/
def ReadsString (strptime date : List Char → Res DateTime) : Prop := ∀ l j, NUL ∉ l → strptime (l ++ NUL :: j) = date l

/-- One line of the header that is accepted. -/
theorem obsHeadLine_text {strptime date : List Char → Res DateTime} (hS : ReadsString strptime date) {gAnt : Nat → List Char} (hgA : ∀ k, (gAnt k).length = 41)
    {last t : List Char} (hlast : HeadLine last) (hE : HasLabel last c!"END OF HEADER") {e0 : Bool} {l junk : List Char} (hl : HeadLine l)
    (hne : ¬ HasLabel l c!"END OF HEADER") {o o' : ObsFileObj} {s s' : Stream} {body : List (List Char)} (hb : ∀ x ∈ body, HeadLine x) (hg : s.good = true)
    (hr : s.rest = linesText (body ++ [last]) ++ t) (h : obsHeadLine strptime gAnt e0 (fillLine junk l) o s = .ok (0, o', s')) :
    ∃ i used body', i.lines = l :: used ∧ body = used ++ body' ∧ s' = s.past used ∧ i.Gives date ∧ Took i o o' := by
  have hno : ¬ HasLabel last c!"SYS / # / OBS TYPES" := hE.excl (by decide) (by decide)
  by_cases c1 : HasLabel l c!"MARKER NAME"
  · rw [headLine_marker (labelsAre_labelled ⟨hl.1, c1⟩ (by decide) junk)] at h
    obtain ⟨w, hw⟩ := firstWord_total (colsAt l 0 60)
    have := rtrim_first hl.1.2.1 (off := 0) (by omega) hw junk
    rw [List.drop_zero] at this
    rw [this, Res.bind_ok] at h
    cases h
    exact ⟨.marker l w, [], body, rfl, rfl, (Stream.past_nil _).symm, ⟨c1, hw⟩,
      ⟨by simp [ObsEntry.types?], rfl, rfl, rfl, rfl, rfl, rfl, rfl, rfl, rfl, rfl, rfl⟩⟩
  by_cases c2 : HasLabel l c!"MARKER NUMBER"
  · rw [headLine_markerNo (labelsAre_labelled ⟨hl.1, c2⟩ (by decide) junk)] at h
    obtain ⟨w, hw⟩ := firstWord_total (colsAt l 0 20)
    have := rtrim_first hl.1.2.1 (off := 0) (by omega) hw junk
    rw [List.drop_zero] at this
    rw [this, Res.bind_ok] at h
    cases h
    exact ⟨.markerNo l w, [], body, rfl, rfl, (Stream.past_nil _).symm, ⟨c2, hw⟩,
      ⟨by simp [ObsEntry.types?], rfl, rfl, rfl, rfl, rfl, rfl, rfl, rfl, rfl, rfl, rfl⟩⟩
  by_cases c3 : HasLabel l c!"REC # / TYPE / VERS"
  · rw [headLine_receiver (labelsAre_labelled ⟨hl.1, c3⟩ (by decide) junk)] at h
    obtain ⟨w, hw⟩ := firstWord_total (colsAt l 0 20)
    obtain ⟨u, hu⟩ := firstWord_total (colsAt l 20 20)
    have := rtrim_first hl.1.2.1 (off := 0) (by omega) hw junk
    rw [List.drop_zero] at this
    rw [this, Res.bind_ok, rtrim_first hl.1.2.1 (off := 20) (by have := hl.2; omega) hu junk, Res.bind_ok] at h
    cases h
    exact ⟨.receiver l w u, [], body, rfl, rfl, (Stream.past_nil _).symm, ⟨c3, hw, hu⟩,
      ⟨by simp [ObsEntry.types?], rfl, rfl, rfl, rfl, rfl, rfl, rfl, rfl, rfl, rfl, rfl⟩⟩
  by_cases c4 : HasLabel l c!"ANT # / TYPE"
  · rw [headLine_antenna (labelsAre_labelled ⟨hl.1, c4⟩ (by decide) junk)] at h
    obtain ⟨w, hw⟩ := firstWord_total (colsAt l 20 20)
    obtain ⟨a, ha, hat⟩ := obsAntenna_first hl.1 (c4.long (by decide)) hw (hgA s.pos) junk
    rw [ha, Res.bind_ok] at h
    cases h
    exact ⟨.antenna l w, [], body, rfl, rfl, (Stream.past_nil _).symm, ⟨c4, hw⟩,
      ⟨by simp [ObsEntry.types?], rfl, rfl, rfl, rfl, rfl, hat, rfl, rfl, rfl, rfl, rfl⟩⟩
  by_cases c5 : HasLabel l c!"APPROX POSITION XYZ"
  · rw [headLine_position (labelsAre_labelled ⟨hl.1, c5⟩ (by decide) junk)] at h
    rcases three_exact hl.2 junk e0 with ⟨v, hv, _, hg3⟩ | ⟨⟨v, hv⟩, _⟩
    · rw [hv, Res.bind_ok] at h
      cases h
      exact ⟨.position l v, [], body, rfl, rfl, (Stream.past_nil _).symm, ⟨c5, hg3⟩,
        ⟨by simp [ObsEntry.types?], rfl, rfl, rfl, rfl, rfl, rfl, rfl, rfl, rfl, rfl, rfl⟩⟩
    · rw [hv, Res.bind_ok] at h
      simp at h
  by_cases c6 : HasLabel l c!"ANTENNA: DELTA H/E/N"
  · rw [headLine_delta (labelsAre_labelled ⟨hl.1, c6⟩ (by decide) junk)] at h
    rcases three_exact hl.2 junk e0 with ⟨v, hv, _, hg3⟩ | ⟨⟨v, hv⟩, _⟩
    · rw [hv, Res.bind_ok] at h
      cases h
      exact ⟨.delta l v, [], body, rfl, rfl, (Stream.past_nil _).symm, ⟨c6, hg3⟩,
        ⟨by simp [ObsEntry.types?], rfl, rfl, rfl, rfl, rfl, rfl, rfl, rfl, rfl, rfl, rfl⟩⟩
    · rw [hv, Res.bind_ok] at h
      simp at h
  by_cases c7 : HasLabel l c!"SYS / # / OBS TYPES"
  · rw [headLine_types (labelsAre_labelled ⟨hl.1, c7⟩ (by decide) junk)] at h
    obtain ⟨⟨r1, r2, r3⟩, hres, h⟩ := bind_ok_inv h
    simp only [Res.pure_eq, Res.ok.injEq, Prod.mk.injEq] at h
    obtain ⟨rfl, rfl, rfl⟩ := h
    obtain ⟨used, body', sys, codes, a1, a2, a3, a4, a5⟩ := obsTypesResolve_text hlast hno hl hb hg hr c7 hres
    refine ⟨.types l used sys codes, used, body', rfl, a1, a2, a5 date,
      ⟨?_, rfl, rfl, rfl, rfl, rfl, rfl, rfl, rfl, rfl, rfl, a4⟩⟩
    intro e he
    cases he
    exact a3
  by_cases c8 : HasLabel l c!"RCV CLOCK OFFS APPL"
  · rw [headLine_clock (labelsAre_labelled ⟨hl.1, c8⟩ (by decide) junk)] at h
    obtain ⟨x, hx, h⟩ := bind_ok_inv h
    cases x with
    | none => simp at h
    | some b =>
      cases h
      exact ⟨.clock l b, [], body, rfl, rfl, (Stream.past_nil _).symm, ⟨c8, ((clock_exact hl.2 junk e0 b).1 hx).2⟩,
        ⟨by simp [ObsEntry.types?], rfl, rfl, rfl, rfl, rfl, rfl, rfl, rfl, rfl, rfl, rfl⟩⟩
  by_cases c9 : HasLabel l c!"TIME OF FIRST OBS"
  · have hd : strptime (fillLine junk l) = date l := hS l _ hl.1.2.1
    cases ht : date l with
    | ok dt =>
      rw [headLine_firstObs (labelsAre_labelled ⟨hl.1, c9⟩ (by decide) junk) (hd.trans ht)] at h
      cases h
      exact ⟨.firstObs l dt, [], body, rfl, rfl, (Stream.past_nil _).symm, ⟨c9, ht⟩,
        ⟨by simp [ObsEntry.types?], rfl, rfl, rfl, rfl, rfl, rfl, rfl, rfl, rfl, rfl, rfl⟩⟩
    | _ =>
      exfalso
      have hL := labelsAre_labelled ⟨hl.1, c9⟩ (by decide) junk
      revert h
      simp only [obsHeadLine, (hL c!"MARKER NAME" (by decide)).2 (by decide), (hL c!"MARKER NUMBER" (by decide)).2 (by decide),
        (hL c!"REC # / TYPE / VERS" (by decide)).2 (by decide), (hL c!"ANT # / TYPE" (by decide)).2 (by decide),
        (hL c!"APPROX POSITION XYZ" (by decide)).2 (by decide), (hL c!"ANTENNA: DELTA H/E/N" (by decide)).2 (by decide),
        (hL c!"SYS / # / OBS TYPES" (by decide)).2 (by decide), (hL c!"RCV CLOCK OFFS APPL" (by decide)).2 (by decide),
        (hL c!"TIME OF FIRST OBS" (by decide)).1 rfl, Res.bind_ok, if_true, Bool.false_eq_true, if_false, hd, ht]
      first | (split <;> simp_all) | simp
  · have hall : ∀ p ∈ ObsItem.knownLabels, ¬ HasLabel l p := by
      intro p hp
      simp only [ObsItem.knownLabels, List.mem_cons, List.not_mem_nil, or_false] at hp
      rcases hp with rfl | rfl | rfl | rfl | rfl | rfl | rfl | rfl | rfl | rfl <;> assumption
    rw [headLine_other (labelsAre_line hl.1.2.1 hl.2 junk) (fun q hq _ => hall q hq)] at h
    cases h
    exact ⟨.other l, [], body, rfl, rfl, (Stream.past_nil _).symm, hall,
      ⟨by simp [ObsEntry.types?], rfl, rfl, rfl, rfl, rfl, rfl, rfl, rfl, rfl, rfl, rfl⟩⟩

/-- The loop of `read_header`, up to the line END OF HEADER. -/
theorem obsHeadLoop_text {strptime date : List Char → Res DateTime} (hS : ReadsString strptime date) {gAnt : Nat → List Char} (hgA : ∀ k, (gAnt k).length = 41)
    {last t : List Char} (hlast : HeadLine last) (hE : HasLabel last c!"END OF HEADER") {e0 : Bool} {left' : Nat} {o' : ObsFileObj} {s' : Stream} :
    ∀ (left : Nat) (line : List Char) (o : ObsFileObj) (s : Stream) (body : List (List Char)), obsLabel line c!"END OF HEADER" = .ok false →
    (∀ x ∈ body, HeadLine x ∧ ¬ HasLabel x c!"END OF HEADER") → s.good = true → s.rest = linesText (body ++ [last]) ++ t →
    obsHeadLoop strptime gAnt e0 left line o s = .ok (0, left', o', s') → left' ≠ 0 →
    ∃ entries, body = (entries.map (·.lines)).flatten ∧ (∀ e ∈ entries, e.Gives date) ∧ (entries.filterMap ObsEntry.types?).Pairwise (fun a b => a.1 ≠ b.1) ∧
      (∀ x ∈ entries.filterMap ObsEntry.types?, o.obst.lookup x.1 = none) ∧ entries.length + 1 + left' = left ∧ o'.version = o.version ∧ o'.sys = o.sys ∧
      s' = s.past (body ++ [last]) ∧ ∀ done, ObsGiven done o → ObsGiven (done ++ entries) o' := by
  intro left
  induction left with
  | zero =>
    intro line o s body _ _ _ _ h h0
    rw [obsHeadLoop] at h
    simp only [Res.ok.injEq, Prod.mk.injEq] at h
    exact absurd h.2.1.symm h0
  | succ left ih =>
    intro line o s body hend hb hg hr h h0
    rw [obsHeadLoop, hend, Res.bind_ok] at h
    simp only [Bool.false_eq_true, if_false] at h
    cases body with
    | nil =>
      rw [List.nil_append] at hr
      rw [getline_past (n := OBS_HEADER_CHARS) hg hr hlast.1.1 hlast.1.2.2] at h
      simp only at h
      rw [headLine_other (labelsAre_labelled ⟨hlast.1, hE⟩ (by decide) line) (fun q _ hq => hq), Res.bind_ok] at h
      simp only [ne_eq, not_true_eq_false, if_false] at h
      cases left with
      | zero =>
        rw [obsHeadLoop] at h
        simp only [Res.ok.injEq, Prod.mk.injEq] at h
        exact absurd h.2.1.symm h0
      | succ left =>
        rw [obsHeadLoop, obsLabel_line hlast.1.2.1 hlast.2 (by decide), decide_eq_true hE, Res.bind_ok, if_pos rfl] at h
        simp only [Res.pure_eq, Res.ok.injEq, Prod.mk.injEq, true_and] at h
        obtain ⟨rfl, rfl, rfl⟩ := h
        exact ⟨[], rfl, by simp, by simp, by simp, by simp; omega, rfl, rfl, rfl, fun done hd => by simpa using hd⟩
    | cons x body =>
      have hx := hb x (by simp)
      rw [List.cons_append] at hr
      rw [getline_past (n := OBS_HEADER_CHARS) hg hr hx.1.1.1 hx.1.1.2.2] at h
      simp only at h
      obtain ⟨⟨code, o1, s1⟩, hline, h⟩ := bind_ok_inv h
      simp only at h
      by_cases hcode : code ≠ 0
      · rw [if_pos hcode] at h
        simp only [Res.pure_eq, Res.ok.injEq, Prod.mk.injEq] at h
        exact absurd h.1 hcode
      rw [if_neg hcode] at h
      have hcode' : code = 0 := not_not.1 hcode
      subst hcode'
      have hb' : ∀ y ∈ body, HeadLine y ∧ ¬ HasLabel y c!"END OF HEADER" := fun y hy => hb y (by simp [hy])
      obtain ⟨i, used, body', a1, a2, a3, a4, a5⟩ := obsHeadLine_text hS hgA (s := s.past [x]) hlast hE hx.1 hx.2 (fun y hy => (hb' y hy).1) hg (rest_cons hr) hline
      have hr1 : s1.rest = linesText (body' ++ [last]) ++ t := by
        rw [a3]
        apply Stream.past_rest
        rw [rest_cons hr, a2, List.append_assoc, linesText_append, List.append_assoc]
      have hg1 : s1.good = true := by rw [a3]; exact hg
      obtain ⟨entries, b1, b2, b3, b4, b5, b6, b7, b8, b9⟩ := ih (fillLine line x) o1 s1 body'
        (by rw [obsLabel_line hx.1.1.2.1 hx.1.2 (by decide), decide_eq_false hx.2])
        (fun y hy => hb' y (by rw [a2]; simp [hy])) hg1 hr1 h h0
      refine ⟨i :: entries, ?_, ?_, ?_, ?_, by simp; omega, b6.trans a5.version, b7.trans a5.sys, ?_, ?_⟩
      · rw [a2, b1]; simp [a1]
      · intro e he
        rcases List.mem_cons.1 he with rfl | he
        · exact a4
        · exact b2 e he
      · cases hi : i.types? with
        | none => simpa [hi] using b3
        | some e =>
          rw [List.filterMap_cons_some hi, List.pairwise_cons]
          refine ⟨?_, b3⟩
          intro y hy hey
          have h1 := b4 y hy
          have h2 := a5.types
          simp only [hi] at h2
          rw [h2, lookup_obsInsert _ _ _ (a5.fresh e hi), if_pos hey.symm] at h1
          cases h1
      · intro y hy
        cases hi : i.types? with
        | none =>
          have h2 := a5.types
          simp only [hi] at h2
          rw [← h2]
          exact b4 y (by simpa [hi] using hy)
        | some e =>
          rw [List.filterMap_cons_some hi] at hy
          rcases List.mem_cons.1 hy with rfl | hy
          · exact a5.fresh _ hi
          · have h1 := b4 y hy
            have h2 := a5.types
            simp only [hi] at h2
            rw [h2, lookup_obsInsert _ _ _ (a5.fresh e hi)] at h1
            by_cases hq : y.1 = e.1
            · rw [if_pos hq] at h1; cases h1
            · rw [if_neg hq] at h1; exact h1
      · rw [b8, a3, a2, Stream.past_past, Stream.past_past]; simp
      · intro done hd
        have := b9 _ (a5.given hd)
        simpa using this

/-- The lines of a header, whatever they look like: at most 84 chars, reaching column 60; only the last one is labelled END OF HEADER. -/
structure HeaderLines (first second : List Char) (body : List (List Char)) (last : List Char) : Prop where
  first : HeadLine first
  second : HeadLine second ∧ ¬ HasLabel second c!"END OF HEADER"
  body : ∀ x ∈ body, HeadLine x ∧ ¬ HasLabel x c!"END OF HEADER"
  last : HeadLine last ∧ HasLabel last c!"END OF HEADER"

/-- The lines as text, with anything behind them. -/
def headerText (first second : List Char) (body : List (List Char)) (last t : List Char) : List Char := linesText (first :: second :: (body ++ [last])) ++ t

/-- **C104**.  Whatever the header lines of an observation file look like (see `HeaderLines`; `t` is the rest of the file): if the file is opened, version and system are those of
the first line, the lines between the second one and END OF HEADER are entries that say something, and the object says what they say; its stream is good and stands on what
follows the header. -/
theorem C104_opened {strptime date : List Char → Res DateTime} (hS : ReadsString strptime date) {gAnt : Nat → List Char} (hgA : ∀ k, (gAnt k).length = 41)
    {g0 : List Char} (hg0 : g0.length = 41) {e0 : Bool} {junk : List Char} {buf0 : Nat → List Char} {first second last t : List Char} {body : List (List Char)}
    (hH : HeaderLines first second body last) {o : ObsFileObj} {s : Stream} {b : List Char}
    (h : obsOpen strptime gAnt e0 g0 junk buf0 (headerText first second body last t) = .ok (o, s, b)) :
    FirstGives first o ∧ (∃ entries, BodyGives date body entries ∧ ObsGiven entries o) ∧ s.good = true ∧ s.rest = t ∧
      o.endOfHead = some (linesText (first :: second :: (body ++ [last]))).length := by
  unfold headerText at h
  generalize hct : linesText (first :: second :: (body ++ [last])) ++ t = content at h
  have hg : (⟨content, 0, false, false⟩ : Stream).good = true := rfl
  have hr : (⟨content, 0, false, false⟩ : Stream).rest = linesText (first :: second :: (body ++ [last])) ++ t := by rw [hct]; simp [Stream.rest]
  have hs0 : (⟨content, 0, false, false⟩ : Stream).seekg 0 = ⟨content, 0, false, false⟩ := rfl
  have hp0 : (⟨content, 0, false, false⟩ : Stream).pos = 0 := rfl
  unfold obsOpen at h
  generalize hst : (⟨content, 0, false, false⟩ : Stream) = st at hg hr hs0 h hp0
  have hg1 := getline_past (n := OBS_HEADER_CHARS) hg hr hH.first.1.1 hH.first.1.2.2
  have hr1 := rest_cons hr
  have hg2 := getline_past (n := OBS_HEADER_CHARS) (s := st.past [first]) hg hr1 hH.second.1.1.1 hH.second.1.1.2.2
  have hr2 := rest_cons hr1
  obtain ⟨c20, e20⟩ : ∃ c, first[20]? = some c := ⟨_, List.getElem?_eq_getElem (by have := hH.first.2; omega)⟩
  obtain ⟨c40, e40⟩ : ∃ c, first[40]? = some c := ⟨_, List.getElem?_eq_getElem (by have := hH.first.2; omega)⟩
  have hv : strtodA (fillLine junk first) = .ok (strtod (fillLine junk first)) := by
    unfold strtodA; rw [if_pos (by simp [fillLine])]
  rw [antInit_eq g0 hg0, Res.bind_ok] at h
  obtain ⟨⟨code, o1, s1⟩, hread, h⟩ := bind_ok_inv h
  simp only at h
  by_cases hcode : code ≠ 0
  · rw [if_pos hcode] at h; cases h
  rw [if_neg hcode] at h
  have hcode' : code = 0 := not_not.1 hcode
  subst hcode'
  cases h
  unfold obsReadHeader at hread
  have hread := noexcept_ok_inv hread
  simp only [hs0, hg1, hv, Res.bind_ok, getAt_fill e20, getAt_fill e40] at hread
  cases hnum : strtod (fillLine junk first) with
  | none => rw [hnum] at hread; simp at hread
  | some v =>
  rw [hnum] at hread
  obtain ⟨v, vr, ver⟩ := v
  have hver : RealBegins first v := by
    refine RealBegins.of_nul (b := junk.drop (first.length + 1)) ?_
    rcases strtod_some hnum with h | ⟨h, _⟩
    · exact Or.inr h
    · exact Or.inl h
  simp only at hread
  by_cases hN : c20 = 'O'
  swap
  · rw [if_pos hN] at hread; simp at hread
  rw [if_neg (by simpa using hN)] at hread
  rcases charToSatsys_inv (c := c40) with ⟨sys, hc, rfl⟩ | ⟨_, hc⟩
  swap
  · exfalso
    cases hcs : charToSatsys c40 with
    | ok sys => exact hc sys hcs
    | _ => rw [hcs] at hread; simp at hread
  rw [hc] at hread
  simp only [hg2] at hread
  obtain ⟨⟨code, left', o2, s2⟩, hloop, hread⟩ := bind_ok_inv hread
  simp only at hread
  by_cases hcode : code ≠ 0
  · rw [if_pos hcode] at hread
    simp only [Res.pure_eq, Res.ok.injEq, Prod.mk.injEq] at hread
    exact absurd hread.1 hcode
  rw [if_neg hcode] at hread
  have hcode' : code = 0 := not_not.1 hcode
  subst hcode'
  by_cases hleft : left' = 0
  · rw [if_pos hleft] at hread; simp at hread
  rw [if_neg hleft] at hread
  have hend : obsLabel (fillLine (fillLine junk first) second) c!"END OF HEADER" = .ok false := by
    rw [obsLabel_line hH.second.1.1.2.1 hH.second.1.2 (by decide), decide_eq_false hH.second.2]
  obtain ⟨entries, b1, b2, b3, b4, b5, b6, b7, b8, b9⟩ := obsHeadLoop_text hS hgA hH.last.1 hH.last.2 1000 _ _ ((st.past [first]).past [second]) body hend hH.body hg hr2 hloop hleft
  have hg3 : s2.good = true := by rw [b8]; exact hg
  simp only [tellg_good hg3, Res.pure_eq, Res.ok.injEq, Prod.mk.injEq, true_and] at hread
  obtain ⟨rfl, rfl⟩ := hread
  have hinit : ObsGiven [] { obsInitial (List.replicate 20 ' ' ++ NUL :: g0.drop 21) with version := v, sys := sys } := by
    constructor <;> first | rfl | (intro q; rfl)
  have hgiven := b9 [] hinit
  rw [List.nil_append] at hgiven
  refine ⟨⟨by rw [show ({ o2 with endOfHead := some s2.pos } : ObsFileObj).version = o2.version from rfl, b6]; exact hver, hN ▸ e20,
    by rw [show ({ o2 with endOfHead := some s2.pos } : ObsFileObj).sys = o2.sys from rfl, b7]; exact e40⟩,
    ⟨entries, ⟨b1, b2, b3, by omega⟩, hgiven.marker, hgiven.markerNo, hgiven.receiver, hgiven.antenna, hgiven.position, hgiven.delta, hgiven.clock,
      hgiven.firstObs, hgiven.types⟩, hg3, ?_, ?_⟩
  · rw [b8]
    exact Stream.past_rest hr2
  · rw [b8]
    simp only [Option.some.injEq]
    rw [Stream.past_past, Stream.past_past]
    unfold Stream.past
    simp [hp0, Stream.adv]

/-! ## The other direction -/

theorem obsTypesLoop_complete : ∀ (codes : List ObsCode) (k : Nat) (l junk : List Char) (acc : List ObsCode) (s : Stream) (used : List (List Char)) (t : List Char),
    HeadLine l → (∀ x ∈ used, HeadLine x ∧ HasLabel x c!"SYS / # / OBS TYPES") → used.length = (k + codes.length) / 13 → k < 13 →
    (∀ (i : Nat) (c : ObsCode), codes[i]? = some c → ∃ x, (l :: used)[(k + i) / 13]? = some x ∧ CodeAt x (7 + 4 * ((k + i) % 13)) c) →
    s.good = true → s.rest = linesText used ++ t →
    obsTypesLoop codes.length k (fillLine junk l) acc s = .ok (.inr (acc ++ codes), s.past used) := by
  intro codes
  induction codes with
  | nil =>
    intro k l junk acc s used t _ _ hlen hk _ _ _
    have : used = [] := List.length_eq_zero_iff.1 (by rw [hlen]; simp; omega)
    subst this
    rw [List.length_nil, obsTypesLoop, Stream.past_nil, List.append_nil]
  | cons c codes ih =>
    intro k l junk acc s used t hl hu hlen hk hat hg hr
    obtain ⟨r, h1, h2, h3⟩ := codeAt_iff (junk := junk) hl.1.2.1 (off := 7 + k * 4) (by have := hl.2; omega)
    obtain ⟨x, hx, hc⟩ := hat 0 c rfl
    rw [show (k + 0) / 13 = 0 by omega] at hx
    cases hx
    rw [show (k + 0) % 13 = k by omega, Nat.mul_comm] at hc
    have hrc := (h3 c).2 hc
    rw [List.length_cons, obsTypesLoop, h1, Res.bind_ok, h2, hrc]
    simp only
    by_cases h13 : k + 1 = 13
    · rw [if_pos h13]
      have hkk : k = 12 := by omega
      subst hkk
      cases used with
      | nil => simp at hlen; omega
      | cons x used =>
        have hx := hu x (by simp)
        rw [getline_past (n := OBS_HEADER_CHARS) hg hr hx.1.1.1 hx.1.1.2.2]
        simp only
        rw [obsLabel_line hx.1.1.2.1 hx.1.2 (by decide), Res.bind_ok, decide_eq_true hx.2]
        simp only [if_true]
        rw [ih 0 x (fillLine junk l) (acc ++ [c]) (s.past [x]) used t hx.1 (fun y hy => hu y (by simp [hy])) (by simp at hlen; omega) (by omega) ?_ hg (rest_cons hr)]
        · rw [Stream.past_past]; simp
        · intro i d hd
          obtain ⟨y, hy, hd⟩ := hat (i + 1) d (by simpa using hd)
          refine ⟨y, ?_, ?_⟩
          · rw [show (12 + (i + 1)) / 13 = (0 + i) / 13 + 1 by omega] at hy
            simpa using hy
          · rw [show (12 + (i + 1)) % 13 = (0 + i) % 13 by omega] at hd
            exact hd
    · rw [if_neg h13, ih (k + 1) l junk (acc ++ [c]) s used t hl hu (by rw [hlen, List.length_cons]; congr 1; omega) (by omega) ?_ hg hr]
      · simp
      · intro i d hd
        obtain ⟨y, hy, hd⟩ := hat (i + 1) d (by simpa using hd)
        rw [show k + (i + 1) = k + 1 + i by omega] at hy hd
        exact ⟨y, hy, hd⟩

/-- The numbers of a position or eccentricity line are decimal ones. -/
def PlainNumbers (l : List Char) : Prop :=
  HasLabel l c!"APPROX POSITION XYZ" ∨ HasLabel l c!"ANTENNA: DELTA H/E/N" → ¬ OddNumber l ∧ ¬ OddNumber (l.drop 14) ∧ ¬ OddNumber (l.drop 28)

theorem three_complete {l : List Char} (hl : 60 ≤ l.length) (junk : List Char) (ho : ¬ OddNumber l ∧ ¬ OddNumber (l.drop 14) ∧ ¬ OddNumber (l.drop 28))
    {v : List Rat} (h : ThreeGiven l v) : char2double false 14 3 (fillLine junk l) = .ok (true, v) := by
  obtain ⟨x, y, z, rfl, hx, hy, hz⟩ := h
  rcases three_exact hl junk false with ⟨v, hv, _, x', y', z', rfl, hx', hy', hz'⟩ | ⟨_, h | h | h | h⟩
  · rw [hv, hx.unique ho.1 hx', hy.unique ho.2.1 hy', hz.unique ho.2.2 hz']
  · cases h
  · exact (hx.not_no ho.1 h).elim
  · exact (hy.not_no ho.2.1 h).elim
  · exact (hz.not_no ho.2.2 h).elim

/-- Every entry that says something is accepted. -/
theorem obsHeadLine_complete {strptime date : List Char → Res DateTime} (hS : ReadsString strptime date) {gAnt : Nat → List Char} (hgA : ∀ k, (gAnt k).length = 41)
    {i : ObsEntry} (hi : i.Gives date) {l : List Char} {used : List (List Char)} (hlines : i.lines = l :: used) (hl : ∀ x ∈ l :: used, HeadLine x)
    (ho : PlainNumbers l) {junk t : List Char} {o : ObsFileObj} {s : Stream} (hg : s.good = true) (hr : s.rest = linesText used ++ t)
    (hnew : ∀ e, i.types? = some e → o.obst.lookup e.1 = none) :
    ∃ o', obsHeadLine strptime gAnt false (fillLine junk l) o s = .ok (0, o', s.past used) ∧ Took i o o' := by
  have hl0 := hl l (by simp)
  cases i with
  | other l' =>
    cases hlines
    rw [headLine_other (labelsAre_line hl0.1.2.1 hl0.2 junk) (fun q hq _ => hi q hq), Stream.past_nil]
    exact ⟨o, rfl, hnew, rfl, rfl, rfl, rfl, rfl, rfl, rfl, rfl, rfl, rfl, rfl⟩
  | marker l' w =>
    cases hlines
    have := rtrim_first hl0.1.2.1 (off := 0) (by omega) hi.2 junk
    rw [List.drop_zero] at this
    rw [headLine_marker (labelsAre_labelled ⟨hl0.1, hi.1⟩ (by decide) junk), this, Stream.past_nil]
    exact ⟨_, rfl, hnew, rfl, rfl, rfl, rfl, rfl, rfl, rfl, rfl, rfl, rfl, rfl⟩
  | markerNo l' w =>
    cases hlines
    have := rtrim_first hl0.1.2.1 (off := 0) (by omega) hi.2 junk
    rw [List.drop_zero] at this
    rw [headLine_markerNo (labelsAre_labelled ⟨hl0.1, hi.1⟩ (by decide) junk), this, Stream.past_nil]
    exact ⟨_, rfl, hnew, rfl, rfl, rfl, rfl, rfl, rfl, rfl, rfl, rfl, rfl, rfl⟩
  | receiver l' w u =>
    cases hlines
    have := rtrim_first hl0.1.2.1 (off := 0) (by omega) hi.2.1 junk
    rw [List.drop_zero] at this
    rw [headLine_receiver (labelsAre_labelled ⟨hl0.1, hi.1⟩ (by decide) junk), this, Res.bind_ok,
      rtrim_first hl0.1.2.1 (off := 20) (by have := hl0.2; omega) hi.2.2 junk, Stream.past_nil]
    exact ⟨_, rfl, hnew, rfl, rfl, rfl, rfl, rfl, rfl, rfl, rfl, rfl, rfl, rfl⟩
  | antenna l' w =>
    cases hlines
    obtain ⟨a, ha, hat⟩ := obsAntenna_first hl0.1 (hi.1.long (by decide)) hi.2 (hgA s.pos) junk
    rw [headLine_antenna (labelsAre_labelled ⟨hl0.1, hi.1⟩ (by decide) junk), ha, Stream.past_nil]
    exact ⟨_, rfl, hnew, rfl, rfl, rfl, rfl, rfl, hat, rfl, rfl, rfl, rfl, rfl⟩
  | position l' v =>
    cases hlines
    rw [headLine_position (labelsAre_labelled ⟨hl0.1, hi.1⟩ (by decide) junk), three_complete hl0.2 junk (ho (Or.inl hi.1)) hi.2, Stream.past_nil]
    exact ⟨_, rfl, hnew, rfl, rfl, rfl, rfl, rfl, rfl, rfl, rfl, rfl, rfl, rfl⟩
  | delta l' v =>
    cases hlines
    rw [headLine_delta (labelsAre_labelled ⟨hl0.1, hi.1⟩ (by decide) junk), three_complete hl0.2 junk (ho (Or.inr hi.1)) hi.2, Stream.past_nil]
    exact ⟨_, rfl, hnew, rfl, rfl, rfl, rfl, rfl, rfl, rfl, rfl, rfl, rfl, rfl⟩
  | types l' more sys codes =>
    cases hlines
    obtain ⟨g1, g2, ⟨n, g3, g4⟩, g5, g6, g7⟩ := hi
    refine ⟨{ o with obst := obsInsert sys codes o.obst }, ?_, hnew, rfl, rfl, rfl, rfl, rfl, rfl, rfl, rfl, rfl, rfl, rfl⟩
    have hfresh := hnew (sys, codes) rfl
    obtain ⟨p, hp, hcase⟩ := strtolA_text (l := l) (tail := junk.drop (l.length + 1)) (off := 3) (by have := hl0.2; omega)
    have hp' : strtolA ((fillLine junk l).drop 3) = .ok p := hp
    have hpn : ∃ r, p = some (n, r, false) := by
      rcases hcase with ⟨_, h⟩ | ⟨m, r, rfl, hm⟩ | ⟨w, r, _, h⟩
      · exact (g3.not_no h).elim
      · exact ⟨r, by rw [g3.unique hm]⟩
      · exact (g3.not_no h).elim
    obtain ⟨r, rfl⟩ := hpn
    have hpos : 0 < codes.length := List.length_pos_iff.2 g5
    have hloop := obsTypesLoop_complete codes 0 l junk [] s used t hl0 (fun x hx => ⟨hl x (by simp [hx]), g1 x (by simp [hx])⟩) (by simpa using g6) (by omega)
      (fun i c hc => by simpa using g7 i c hc) hg hr
    rw [headLine_types (labelsAre_labelled ⟨hl0.1, g1 l (by simp)⟩ (by decide) junk)]
    unfold obsTypesResolve
    rw [getAt_fill g2, Res.bind_ok, charToSatsys_toChar, Res.bind_ok, hfresh, if_neg (by simp), hp', Res.bind_ok]
    have hmax : max 1 (toInt32 (strtolVal (some (n, r, false)))).toNat = codes.length := by
      rw [show strtolVal (some (n, r, false)) = n from rfl, g4]
      simp; omega
    simp only [hmax, hloop, Res.bind_ok, strtolErr, List.nil_append]
    rw [if_neg (by simp), if_pos (by rw [show strtolVal (some (n, r, false)) = n from rfl, g4])]
    rfl
  | clock l' b =>
    cases hlines
    have := (clock_exact hl0.2 junk false b).2 ⟨rfl, hi.2⟩
    rw [headLine_clock (labelsAre_labelled ⟨hl0.1, hi.1⟩ (by decide) junk), this, Stream.past_nil]
    exact ⟨_, rfl, hnew, rfl, rfl, rfl, rfl, rfl, rfl, rfl, rfl, rfl, rfl, rfl⟩
  | firstObs l' d =>
    cases hlines
    rw [headLine_firstObs (labelsAre_labelled ⟨hl0.1, hi.1⟩ (by decide) junk) ((hS l _ hl0.1.2.1).trans hi.2), Stream.past_nil]
    exact ⟨_, rfl, hnew, rfl, rfl, rfl, rfl, rfl, rfl, rfl, rfl, rfl, rfl, rfl⟩

theorem ObsEntry.lines_cons (i : ObsEntry) : ∃ l used, i.lines = l :: used := by
  cases i <;> exact ⟨_, _, rfl⟩

theorem obsHeadLoop_complete {strptime date : List Char → Res DateTime} (hS : ReadsString strptime date) {gAnt : Nat → List Char} (hgA : ∀ k, (gAnt k).length = 41)
    {last t : List Char} (hlast : HeadLine last) (hE : HasLabel last c!"END OF HEADER") :
    ∀ (entries : List ObsEntry) (left : Nat) (line : List Char) (o : ObsFileObj) (s : Stream), obsLabel line c!"END OF HEADER" = .ok false →
    (∀ i ∈ entries, i.Gives date ∧ ∀ x ∈ i.lines, (HeadLine x ∧ ¬ HasLabel x c!"END OF HEADER") ∧ PlainNumbers x) →
    (entries.filterMap ObsEntry.types?).Pairwise (fun a b => a.1 ≠ b.1) → (∀ x ∈ entries.filterMap ObsEntry.types?, o.obst.lookup x.1 = none) →
    entries.length + 1 < left → s.good = true → s.rest = linesText ((entries.map (·.lines)).flatten ++ [last]) ++ t →
    ∃ o', obsHeadLoop strptime gAnt false left line o s = .ok (0, left - entries.length - 1, o', s.past ((entries.map (·.lines)).flatten ++ [last])) := by
  intro entries
  induction entries with
  | nil =>
    intro left line o s hend _ _ _ hleft hg hr
    obtain ⟨k, rfl⟩ : ∃ k, left = k + 2 := ⟨left - 2, by simp at hleft; omega⟩
    refine ⟨o, ?_⟩
    simp only [List.map_nil, List.flatten_nil, List.nil_append] at hr ⊢
    rw [show k + 2 = (k + 1) + 1 from rfl, obsHeadLoop, hend, Res.bind_ok]
    simp only [Bool.false_eq_true, if_false]
    rw [getline_past (n := OBS_HEADER_CHARS) hg hr hlast.1.1 hlast.1.2.2]
    simp only
    rw [headLine_other (labelsAre_labelled ⟨hlast.1, hE⟩ (by decide) line) (fun q _ hq => hq), Res.bind_ok]
    simp only [ne_eq, not_true_eq_false, if_false]
    rw [obsHeadLoop, obsLabel_line hlast.1.2.1 hlast.2 (by decide), decide_eq_true hE, Res.bind_ok, if_pos rfl]
    simp
  | cons i entries ih =>
    intro left line o s hend hall hpw hfresh hleft hg hr
    obtain ⟨k, rfl⟩ : ∃ k, left = k + 1 := ⟨left - 1, by omega⟩
    obtain ⟨l, used, hlines⟩ := i.lines_cons
    obtain ⟨hi, hx⟩ := hall i (by simp)
    have hl0 := hx l (by rw [hlines]; simp)
    have hnew : ∀ e, i.types? = some e → o.obst.lookup e.1 = none := fun e he => hfresh e (by rw [List.filterMap_cons_some he]; simp)
    have hflat : ((i :: entries).map (·.lines)).flatten ++ [last] = l :: (used ++ ((entries.map (·.lines)).flatten ++ [last])) := by simp [hlines]
    rw [hflat] at hr ⊢
    have hr1 := rest_cons hr
    rw [linesText_append, List.append_assoc] at hr1
    obtain ⟨o1, h1, h2⟩ := obsHeadLine_complete hS hgA hi hlines (fun x hx' => (hx x (by rw [hlines]; exact hx')).1.1) hl0.2 (junk := line) (o := o)
      (s := s.past [l]) hg hr1 hnew
    have hr2 := Stream.past_rest hr1
    have hpw' : (entries.filterMap ObsEntry.types?).Pairwise (fun a b => a.1 ≠ b.1) ∧ ∀ x ∈ entries.filterMap ObsEntry.types?, o1.obst.lookup x.1 = none := by
      cases ht : i.types? with
      | none =>
        have h3 := h2.types
        simp only [ht] at h3
        rw [List.filterMap_cons_none ht] at hpw hfresh
        exact ⟨hpw, fun x hx => by rw [h3]; exact hfresh x hx⟩
      | some e =>
        have h3 := h2.types
        simp only [ht] at h3
        rw [List.filterMap_cons_some ht, List.pairwise_cons] at hpw
        rw [List.filterMap_cons_some ht] at hfresh
        refine ⟨hpw.2, fun x hx => ?_⟩
        rw [h3, lookup_obsInsert _ _ _ (h2.fresh e ht), if_neg (Ne.symm (hpw.1 x hx))]
        exact hfresh x (by simp [hx])
    obtain ⟨o', h4⟩ := ih k (fillLine line l) o1 ((s.past [l]).past used)
      (by rw [obsLabel_line hl0.1.1.1.2.1 hl0.1.1.2 (by decide), decide_eq_false hl0.1.2]) (fun j hj => hall j (by simp [hj])) hpw'.1 hpw'.2
      (by simp at hleft; omega) hg hr2
    refine ⟨o', ?_⟩
    rw [obsHeadLoop, hend, Res.bind_ok]
    simp only [Bool.false_eq_true, if_false]
    rw [getline_past (n := OBS_HEADER_CHARS) hg hr hl0.1.1.1.1 hl0.1.1.1.2.2]
    simp only
    rw [h1, Res.bind_ok]
    simp only [ne_eq, not_true_eq_false, if_false]
    rw [h4, Stream.past_past, Stream.past_past]
    simp only [List.length_cons, List.cons_append, List.nil_append]
    rw [show k + 1 - (entries.length + 1) - 1 = k - entries.length - 1 by omega]

theorem FitsFloat.double {v : Rat} (h : FitsFloat v) : FitsDouble v := by
  rcases h with h | ⟨h1, h2⟩
  · exact Or.inl h
  · refine Or.inr ⟨le_trans ?_ h1, lt_trans h2 ?_⟩
    · exact one_div_le_one_div_of_le (by positivity) (pow_le_pow_right₀ (by norm_num) (by norm_num))
    · have h3 : (2 : Rat) ^ 128 ≤ 2 ^ 970 := pow_le_pow_right₀ (by norm_num) (by norm_num)
      have h4 : (2 : Rat) ^ 1024 = 2 ^ 970 * 2 ^ 54 := by rw [← pow_add]
      have h5 : (0 : Rat) < 2 ^ 970 := by positivity
      have h6 : (0 : Rat) < 2 ^ 103 := by positivity
      have h7 : (2 : Rat) ≤ 2 ^ 54 := by norm_num
      have h8 : (2 : Rat) ^ 970 * 2 ≤ 2 ^ 970 * 2 ^ 54 := mul_le_mul_of_nonneg_left h7 h5.le
      rw [h4]
      clear h1 h2 h4 h7
      generalize (2 : Rat) ^ 970 * 2 ^ 54 = A at *
      generalize (2 : Rat) ^ 970 = B at *
      generalize (2 : Rat) ^ 128 = C at *
      generalize (2 : Rat) ^ 103 = D at *
      linarith

/-- **C104**: it is opened exactly when the first line names a version, the file type and a system and the lines that follow are entries that say something (the version fits a
`float`; numbers are decimal ones). -/
theorem C104_opened_iff {strptime date : List Char → Res DateTime} (hS : ReadsString strptime date) {gAnt : Nat → List Char} (hgA : ∀ k, (gAnt k).length = 41)
    {g0 : List Char} (hg0 : g0.length = 41) {junk : List Char} {buf0 : Nat → List Char} {first second last t : List Char} {body : List (List Char)}
    (hH : HeaderLines first second body last) (hodd : ¬ OddNumber first) (hfit : ∀ v, DecBegins first v → FitsFloat v) (hplain : ∀ x ∈ body, PlainNumbers x) :
    (∃ r, obsOpen strptime gAnt false g0 junk buf0 (headerText first second body last t) = .ok r) ↔
      (∃ o, FirstGives first o) ∧ ∃ entries, BodyGives date body entries := by
  constructor
  · rintro ⟨⟨o, s, b⟩, h⟩
    obtain ⟨h1, ⟨entries, h2, _⟩, _⟩ := C104_opened hS hgA hg0 hH h
    exact ⟨⟨o, h1⟩, entries, h2⟩
  · rintro ⟨⟨of, hf⟩, entries, hB⟩
    unfold headerText
    generalize hct : linesText (first :: second :: (body ++ [last])) ++ t = content
    have hg : (⟨content, 0, false, false⟩ : Stream).good = true := rfl
    have hr : (⟨content, 0, false, false⟩ : Stream).rest = linesText (first :: second :: (body ++ [last])) ++ t := by rw [hct]; simp [Stream.rest]
    have hs0 : (⟨content, 0, false, false⟩ : Stream).seekg 0 = ⟨content, 0, false, false⟩ := rfl
    unfold obsOpen
    generalize hst : (⟨content, 0, false, false⟩ : Stream) = st at hg hr hs0
    have hg1 := getline_past (n := OBS_HEADER_CHARS) hg hr hH.first.1.1 hH.first.1.2.2
    have hr1 := rest_cons hr
    have hg2 := getline_past (n := OBS_HEADER_CHARS) (s := st.past [first]) hg hr1 hH.second.1.1.1 hH.second.1.1.2.2
    have hr2 := rest_cons hr1
    have hdec := hf.version.resolve_right hodd
    have hv : ∃ vr, strtodA (fillLine junk first) = .ok (some (of.version, vr, false)) := by
      have hA : strtodA (fillLine junk first) = .ok (strtod (fillLine junk first)) := by unfold strtodA; rw [if_pos (by simp [fillLine])]
      rw [hA]
      have hd : DecBegins (fillLine junk first) of.version := hdec.nul _
      rcases strtod_text (fillLine junk first) with h | ⟨_, h⟩ | ⟨v, vr, h1, h2⟩
      · exact absurd h.of_nul hodd
      · exact absurd hd (h _)
      · have := h2.unique hd
        subst this
        rw [dblErange_fits (hfit _ hdec).double] at h1
        exact ⟨vr, by rw [h1]⟩
    obtain ⟨vr, hv⟩ := hv
    have hfl : strtofErr (some (of.version, vr, false)) = false := by simp [strtofErr, fltErange_fits (hfit _ hdec)]
    have hend : obsLabel (fillLine (fillLine junk first) second) c!"END OF HEADER" = .ok false := by
      rw [obsLabel_line hH.second.1.1.2.1 hH.second.1.2 (by decide), decide_eq_false hH.second.2]
    rw [antInit_eq g0 hg0, Res.bind_ok]
    obtain ⟨o', hloop⟩ := obsHeadLoop_complete hS hgA hH.last.1 hH.last.2 entries 1000 (fillLine (fillLine junk first) second)
      { obsInitial (List.replicate 20 ' ' ++ NUL :: g0.drop 21) with version := of.version, sys := of.sys } ((st.past [first]).past [second]) hend
      (fun i hi => ⟨hB.gives i hi, fun x hx => by
        have hm : x ∈ body := by rw [hB.body]; exact List.mem_flatten.2 ⟨i.lines, List.mem_map.2 ⟨i, hi, rfl⟩, hx⟩
        exact ⟨hH.body x hm, hplain x hm⟩⟩) hB.once (fun x _ => rfl) (by have := hB.few; omega) hg (by rw [← hB.body]; exact hr2)
    have hleft : 1000 - entries.length - 1 ≠ 0 := by have := hB.few; omega
    unfold obsReadHeader
    simp only [hs0, hg1, hv, Res.bind_ok, getAt_fill hf.kind, getAt_fill hf.sys, ne_eq, not_true_eq_false, if_false, charToSatsys_toChar, hg2, hfl, Bool.or_false, hloop, hleft]
    have hg3 : (((st.past [first]).past [second]).past ((entries.map (·.lines)).flatten ++ [last])).good = true := hg
    simp only [tellg_good hg3, Res.pure_eq, Res.noexcept_ok, Res.bind_ok, not_true_eq_false, if_false]
    exact ⟨_, rfl⟩

/-! ## The lines leave no choice -/

theorem FirstWordOf.same {txt v w : List Char} (hv : FirstWordOf txt v) (hw : FirstWordOf txt w) : v = w := by
  rcases hv.2 with h1 | ⟨m, h1⟩ <;> rcases hw.2 with h2 | ⟨n, h2⟩
  · rw [← h1, ← h2]
  · exfalso; apply hv.1; rw [← h1, h2]; simp
  · exfalso; apply hw.1; rw [← h2, h1]; simp
  · exact firstWord_split v w m n hv.1 hw.1 (h2.symm.trans h1)

theorem CodeAt.same {l : List Char} {off : Nat} {c d : ObsCode} (hc : CodeAt l off c) (hd : CodeAt l off d) : c = d := by
  have h1 := (C03_parse_iff (l.drop off) c).2 hc
  rw [(C03_parse_iff (l.drop off) d).2 hd] at h1
  cases h1
  rfl

theorem ThreeGiven.same {l : List Char} {v w : List Rat} (ho : ¬ OddNumber l ∧ ¬ OddNumber (l.drop 14) ∧ ¬ OddNumber (l.drop 28)) (hv : ThreeGiven l v)
    (hw : ThreeGiven l w) : v = w := by
  obtain ⟨x, y, z, rfl, hx, hy, hz⟩ := hv
  obtain ⟨x', y', z', rfl, hx', hy', hz'⟩ := hw
  rw [hx.unique ho.1 hx', hy.unique ho.2.1 hy', hz.unique ho.2.2 hz']

/-- The label of an entry. -/
def ObsEntry.label : ObsEntry → List Char
  | other _ => []
  | marker _ _ => c!"MARKER NAME"
  | markerNo _ _ => c!"MARKER NUMBER"
  | receiver _ _ _ => c!"REC # / TYPE / VERS"
  | antenna _ _ => c!"ANT # / TYPE"
  | position _ _ => c!"APPROX POSITION XYZ"
  | delta _ _ => c!"ANTENNA: DELTA H/E/N"
  | types _ _ _ _ => c!"SYS / # / OBS TYPES"
  | clock _ _ => c!"RCV CLOCK OFFS APPL"
  | firstObs _ _ => c!"TIME OF FIRST OBS"

theorem ObsEntry.Gives.labelled {date : List Char → Res DateTime} {i : ObsEntry} (h : i.Gives date) {l : List Char} {u : List (List Char)} (hl : i.lines = l :: u) :
    (i.label = [] ∧ ∀ p ∈ ObsItem.knownLabels, ¬ HasLabel l p) ∨ (i.label ∈ ObsItem.knownLabels ∧ HasLabel l i.label) := by
  cases i with
  | other l' => cases hl; exact Or.inl ⟨rfl, h⟩
  | types l' m q c => cases hl; exact Or.inr ⟨by simp [ObsEntry.label, ObsItem.knownLabels], h.1 l (by simp)⟩
  | _ => cases hl; exact Or.inr ⟨by simp [ObsEntry.label, ObsItem.knownLabels], h.1⟩

theorem ObsEntry.label_same {date : List Char → Res DateTime} {i j : ObsEntry} (hi : i.Gives date) (hj : j.Gives date) {l : List Char} {u v : List (List Char)}
    (hil : i.lines = l :: u) (hjl : j.lines = l :: v) : i.label = j.label := by
  rcases hi.labelled hil with ⟨h1, h2⟩ | ⟨h1, h2⟩ <;> rcases hj.labelled hjl with ⟨h3, h4⟩ | ⟨h3, h4⟩
  · rw [h1, h3]
  · exact absurd h4 (h2 _ h3)
  · exact absurd h2 (h4 _ h1)
  · by_contra hne
    exact (h2.excl (known_excl _ h1 _ h3 (Ne.symm hne)) (known_excl _ h3 _ h1 hne)) h4

theorem ObsEntry.Gives.same {date : List Char → Res DateTime} {i j : ObsEntry} (hi : i.Gives date) (hj : j.Gives date) {l : List Char} {u v a b : List (List Char)}
    (hil : i.lines = l :: u) (hjl : j.lines = l :: v) (hl : 60 ≤ l.length) (ho : PlainNumbers l) (hab : u ++ a = v ++ b) : i = j ∧ u = v := by
  have hlab := ObsEntry.label_same hi hj hil hjl
  cases i <;> cases j <;> first | (refine absurd hlab ?_; simp [ObsEntry.label]; done) | skip
  case other.other => cases hil; cases hjl; exact ⟨rfl, rfl⟩
  case marker.marker => cases hil; cases hjl; rw [hi.2.same hj.2]; exact ⟨rfl, rfl⟩
  case markerNo.markerNo => cases hil; cases hjl; rw [hi.2.same hj.2]; exact ⟨rfl, rfl⟩
  case receiver.receiver => cases hil; cases hjl; rw [hi.2.1.same hj.2.1, hi.2.2.same hj.2.2]; exact ⟨rfl, rfl⟩
  case antenna.antenna => cases hil; cases hjl; rw [hi.2.same hj.2]; exact ⟨rfl, rfl⟩
  case position.position => cases hil; cases hjl; rw [hi.2.same (ho (Or.inl hi.1)) hj.2]; exact ⟨rfl, rfl⟩
  case delta.delta => cases hil; cases hjl; rw [hi.2.same (ho (Or.inr hi.1)) hj.2]; exact ⟨rfl, rfl⟩
  case clock.clock =>
    cases hil; cases hjl
    have h1 := (clock_exact hl [] false _).2 ⟨rfl, hi.2⟩
    have h2 := (clock_exact hl [] false _).2 ⟨rfl, hj.2⟩
    rw [h1] at h2
    cases h2
    exact ⟨rfl, rfl⟩
  case firstObs.firstObs =>
    cases hil; cases hjl
    have h2 := hj.2
    rw [hi.2] at h2
    cases h2
    exact ⟨rfl, rfl⟩
  case types.types l1 m1 q1 c1 l2 m2 q2 c2 =>
    cases hil; cases hjl
    obtain ⟨_, g2, ⟨n, g3, g4⟩, _, g6, g7⟩ := hi
    obtain ⟨_, k2, ⟨n', k3, k4⟩, _, k6, k7⟩ := hj
    have hn := g3.unique k3
    subst hn
    have hlen : c1.length = c2.length := by omega
    have hq : q1 = q2 := C01_injective _ _ (Option.some.inj (g2.symm.trans k2))
    have hu : u = v := (List.append_inj hab (by rw [g6, k6, hlen])).1
    subst hq hu
    have hc : c1 = c2 := by
      apply List.ext_getElem hlen
      intro k hk1 hk2
      obtain ⟨x, hx1, hx2⟩ := g7 k _ (List.getElem?_eq_getElem hk1)
      obtain ⟨y, hy1, hy2⟩ := k7 k _ (List.getElem?_eq_getElem hk2)
      rw [hx1] at hy1
      cases hy1
      exact hx2.same hy2
    rw [hc]
    exact ⟨rfl, rfl⟩

/-- **C104**: the lines leave no choice — there is at most one way to read the body of a header, so with `C104_opened` the object's members are determined by the lines. -/
theorem C104_determined {date : List Char → Res DateTime} {first second last : List Char} {body : List (List Char)} (hH : HeaderLines first second body last)
    (hplain : ∀ x ∈ body, PlainNumbers x) {es fs : List ObsEntry} (he : BodyGives date body es) (hf : BodyGives date body fs) : es = fs := by
  have key : ∀ (es fs : List ObsEntry), (es.map (·.lines)).flatten = (fs.map (·.lines)).flatten → (∀ e ∈ es, e.Gives date) → (∀ e ∈ fs, e.Gives date) →
      (∀ x ∈ (es.map (·.lines)).flatten, HeadLine x ∧ PlainNumbers x) → es = fs := by
    intro es
    induction es with
    | nil =>
      intro fs h _ _ _
      cases fs with
      | nil => rfl
      | cons j fs =>
        obtain ⟨l, u, hl⟩ := j.lines_cons
        simp [hl] at h
    | cons i es ih =>
      intro fs h h1 h2 h3
      obtain ⟨l, u, hl⟩ := i.lines_cons
      cases fs with
      | nil => simp [hl] at h
      | cons j fs =>
        obtain ⟨l', v, hl'⟩ := j.lines_cons
        simp only [List.map_cons, List.flatten_cons, hl, hl', List.cons_append, List.cons.injEq] at h
        obtain ⟨rfl, h⟩ := h
        have hx := h3 l (by simp [hl])
        obtain ⟨rfl, rfl⟩ := (h1 i (by simp)).same (h2 j (by simp)) hl hl' hx.1.2 hx.2 h
        rw [List.append_cancel_left_eq] at h
        rw [ih fs h (fun e he => h1 e (by simp [he])) (fun e he => h2 e (by simp [he])) (fun x hx => h3 x (by
          simp only [List.map_cons, List.flatten_cons, List.mem_append]; exact Or.inr hx))]
  exact key es fs (by rw [← he.body, ← hf.body]) he.gives hf.gives (fun x hx => by
    rw [← he.body] at hx
    exact ⟨(hH.body x hx).1, hplain x hx⟩)

end Ggnss
