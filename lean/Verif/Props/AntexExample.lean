import Verif.Props.AntexAny
import Verif.Props.AntexBad
import Verif.Props.BernExample
/-! # A concrete ANTEX file meeting the hypotheses of C35, C36, C37, C50, C51, C52 -/
namespace Ggnss
namespace AntexExample
open BernExample (years years_at)

/-- 60 columns of text, then the label. -/
def lab (t label : List Char) : List Char := padTo 60 t ++ label

def num (ip frac : List Char) (neg : Bool) (blanks : Nat) : Numeral := ⟨blanks, if neg then some true else none, ip, some frac, none⟩

/-- Frequency G01: north 0.50, east -1.25, up 65.00. -/
def f1 : AtxFreq := ⟨.gps, 1, num c!"0" c!"50" false 6, num c!"1" c!"25" true 5, num c!"65" c!"00" false 5,
  lab c!"   G01" c!"START OF FREQUENCY", lab c!"      0.50     -1.25     65.00" c!"NORTH / EAST / UP",
  [c!"   NOAZI    0.00   -0.22   -0.86   -1.87   -3.17   -4.62   -6.03   -7.21"], lab c!"   G01" c!"END OF FREQUENCY", none⟩
/-- Frequency G02, with an RMS section. -/
def f2 : AtxFreq := ⟨.gps, 2, num c!"0" c!"00" false 6, num c!"0" c!"00" false 6, num c!"60" c!"25" false 5,
  lab c!"   G02" c!"START OF FREQUENCY", lab c!"      0.00      0.00     60.25" c!"NORTH / EAST / UP",
  [c!"   NOAZI    0.00   -0.22   -0.86   -1.87   -3.17   -4.62   -6.03   -7.21"], lab c!"   G02" c!"END OF FREQUENCY",
  some (lab c!"   G02" c!"START OF FREQ RMS", [lab c!"      0.10      0.10      0.10" c!"NORTH / EAST / UP"],
    lab c!"   G02" c!"END OF FREQ RMS")⟩

set_option maxRecDepth 20000 in
theorem f1_wf : f1.WF := by
  refine ⟨by decide, by decide, natCheck_sound (k := 0) (ds := c!"01") (by decide), by decide, numCheck_sound (by decide),
    numCheck_sound (by decide), numCheck_sound (by decide), by decide, by decide, ?_⟩
  intro a ls b h; simp [f1] at h

set_option maxRecDepth 20000 in
theorem f2_wf : f2.WF := by
  refine ⟨by decide, by decide, natCheck_sound (k := 0) (ds := c!"02") (by decide), by decide, numCheck_sound (by decide),
    numCheck_sound (by decide), numCheck_sound (by decide), by decide, by decide, ?_⟩
  intro a ls b h
  simp only [f2, Option.some.injEq, Prod.mk.injEq] at h
  obtain ⟨rfl, rfl, rfl⟩ := h
  exact ⟨by decide, by decide, by decide⟩

def mk (type : List Char) (sat : Option AtxSatId) (num : List Char) (opts : List AtxOpt) (freqs : List AtxFreq) : AtxBlock :=
  ⟨lab [] c!"START OF ANTENNA", lab type c!"TYPE / SERIAL NO", sat, lab c!"ROBOT" c!"METH / BY / # / DATE", lab c!"     0.0" c!"DAZI",
    lab c!"     0.0  90.0   5.0" c!"ZEN1 / ZEN2 / DZEN", lab num c!"# OF FREQUENCIES", opts, freqs, lab [] c!"END OF ANTENNA"⟩

/-- A receiver antenna in general, the same model with a serial number, and a satellite. -/
def b1 : AtxBlock := mk c!"ASH700228A      NONE" none c!"     2" [.other (lab c!"IGS14_2065" c!"SINEX CODE")] [f1, f2]
def b2 : AtxBlock := mk c!"ASH700228A      NONE12345" none c!"     1" [] [f2]
def b3 : AtxBlock := mk c!"BLOCK IIA           G01                 G032      1992-079A" (some ⟨.gps, 1, some 32, some c!"1992-079"⟩) c!"     1"
  [.validFrom ⟨365 * 1992, 0⟩ (lab c!"1992    11    22     0     0    0.0000000" c!"VALID FROM"),
   .validUntil ⟨365 * 2008, 0⟩ (lab c!"2008    10    16    23    59   59.9999999" c!"VALID UNTIL")] [f1]

set_option maxRecDepth 20000 in
theorem mk_wf {type num : List Char} {sat : Option AtxSatId} {opts : List AtxOpt} {freqs : List AtxFreq}
    (h1 : Labelled (lab type c!"TYPE / SERIAL NO") c!"TYPE / SERIAL NO") (h2 : SatIdAt (lab type c!"TYPE / SERIAL NO") sat)
    (h3 : Labelled (lab num c!"# OF FREQUENCIES") c!"# OF FREQUENCIES") (h4 : NatAt ((lab num c!"# OF FREQUENCIES").take 6) 0 freqs.length)
    (h5 : freqs ≠ []) (h6 : ∀ o ∈ opts, o.WF years) (h7 : (opts.filterMap (·.from?)).length ≤ 1) (h8 : (opts.filterMap (·.until?)).length ≤ 1)
    (h9 : ∀ f ∈ freqs, f.WF) (h10 : (mk type sat num opts freqs).body.length < 5000) : (mk type sat num opts freqs).WF years := by
  refine ⟨?_, h1, h2, ?_, ?_, ?_, h3, h4, h5, h6, h7, h8, h9, ?_, h10⟩
  all_goals (show Labelled _ _; dsimp only [mk]; decide)

theorem sat_none {l : List Char} {c : Char} (h : l[20]? = some c) (hc : ∀ sys, c ≠ satsysToChar sys) : SatIdAt l none := by
  intro sys h'
  rw [h] at h'
  exact hc sys (Option.some.inj h')

set_option maxRecDepth 20000 in
theorem b1_wf : b1.WF years := by
  refine mk_wf (by decide) (sat_none (c := ' ') (by decide) (by intro s; cases s <;> decide)) (by decide)
    (natCheck_sound (k := 5) (ds := c!"2") (by decide)) (by simp) ?_ (by decide) (by decide) ?_ (by decide)
  · intro o ho
    rw [List.mem_singleton] at ho
    subst ho
    exact ⟨by decide, by decide, by decide, by decide, by decide, by decide⟩
  · intro f hf
    simp only [List.mem_cons, List.not_mem_nil, or_false] at hf
    rcases hf with rfl | rfl
    exacts [f1_wf, f2_wf]

set_option maxRecDepth 20000 in
theorem b2_wf : b2.WF years := by
  refine mk_wf (by decide) (sat_none (c := '1') (by decide) (by intro s; cases s <;> decide)) (by decide)
    (natCheck_sound (k := 5) (ds := c!"1") (by decide)) (by simp) (by simp) (by decide) (by decide) ?_ (by decide)
  intro f hf
  rw [List.mem_singleton] at hf
  subst hf
  exact f2_wf

set_option maxRecDepth 20000 in
theorem b3_wf : b3.WF years := by
  refine mk_wf (by decide) ⟨by decide, natCheck_sound (k := 0) (ds := c!"01") (by decide),
      ⟨by decide, natCheck_sound (k := 0) (ds := c!"032") (by decide)⟩, ⟨by decide, by decide⟩⟩ (by decide)
    (natCheck_sound (k := 5) (ds := c!"1") (by decide)) (by simp) ?_ (by decide) (by decide) ?_ (by decide)
  · intro o ho
    simp only [List.mem_cons, List.not_mem_nil, or_false] at ho
    rcases ho with rfl | rfl
    · exact ⟨by decide, years_at (by decide) (by decide)⟩
    · exact ⟨by decide, years_at (by decide) (by decide)⟩
  · intro f hf
    rw [List.mem_singleton] at hf
    subst hf
    exact f1_wf

def bs : List AtxBlock := [b1, b2, b3]
theorem bs_wf : ∀ b ∈ bs, b.WF years := by
  intro b hb
  simp only [bs, List.mem_cons, List.not_mem_nil, or_false] at hb
  rcases hb with rfl | rfl | rfl
  exacts [b1_wf, b2_wf, b3_wf]

def hdr : AtxHeader := ⟨num c!"1" c!"4" false 5, .mixed, lab c!"     1.4            M" c!"ANTEX VERSION / SYST",
  lab c!"A" c!"PCV TYPE / REFANT", [lab c!"a remark" c!"COMMENT"], lab [] c!"END OF HEADER"⟩

set_option maxRecDepth 20000 in
theorem hdr_wf : hdr.WF := by
  refine ⟨by decide, numCheck_sound (by decide), Or.inr ?_, by decide, by decide, by decide, by decide, by decide⟩
  norm_num [hdr, num, Numeral.value, Numeral.digVal, Numeral.fracDigits, Numeral.expVal, signVal, Nat.ofDigitChars,
    show '0'.toNat = 48 from rfl, show '1'.toNat = 49 from rfl, show '4'.toNat = 52 from rfl]

def J : AtxJunk := ⟨fun _ => List.replicate 84 '?' ++ [NUL], fun _ => List.replicate 511 '?' ++ [NUL], fun _ => List.replicate 41 '?'⟩
set_option maxRecDepth 20000 in
theorem J_wf : J.WF := ⟨fun _ => by show (List.replicate 84 '?' ++ [NUL]).length = 85; decide,
  fun _ => by show (List.replicate 511 '?' ++ [NUL]).length = 512; decide, fun _ => by show (List.replicate 41 '?').length = 41; decide⟩
set_option maxRecDepth 20000 in
theorem J_nul : ∀ p, NUL ∈ (J.head p).drop 60 := by
  intro p
  show NUL ∈ (List.replicate 84 '?' ++ [NUL]).drop 60
  decide

/-- The antenna a user builds: model only, or with a serial number set. -/
def kc : AntCtor := .fromCStr c!"ASH700228A      NONE"

theorem ant_reach (ss : List (List Char)) (hs : ∀ s ∈ ss, IsCStr s) : ∃ a, AntReach a kc ss := by
  exact ⟨_, List.replicate 41 '?', by simp, by show IsCStr _; decide, hs, antRun_eq _ (by simp) _ _⟩

set_option maxRecDepth 20000 in
theorem b2_exact : b2.Exact kc [c!"12345"] := ⟨by decide, by decide, c!"12345", rfl, by decide, by decide⟩
set_option maxRecDepth 20000 in
theorem b1_close : b1.Close kc := ⟨by decide, by decide⟩

theorem valid : b3.For 1 .gps ⟨365 * 2000, 0⟩ := by
  refine ⟨⟨.gps, 1, some 32, some c!"1992-079"⟩, rfl, rfl, rfl, ⟨⟨365 * 1992, 0⟩, rfl, by decide⟩, ?_⟩
  intro e he
  have : b3.validUntil = some ⟨365 * 2008, 0⟩ := rfl
  rw [this] at he
  injection he with he; subst he; decide

/-- The hypotheses of `C53_receiver_ends_partial` are met by this memory. -/
theorem J_term : J.Term := by
  refine ⟨fun _ => ⟨J_wf.head 0, ?_⟩, fun _ => ⟨J_wf.grid 0, ?_⟩, J_wf.ant⟩
  · show (List.replicate 84 '?' ++ [NUL])[84]? = some NUL
    rw [List.getElem?_append_right (by rw [List.length_replicate]), List.length_replicate]; rfl
  · show (List.replicate 511 '?' ++ [NUL])[511]? = some NUL
    rw [List.getElem?_append_right (by rw [List.length_replicate]), List.length_replicate]; rfl

set_option maxRecDepth 20000 in
/-- A session: the file is opened; the antenna with serial number 12345 gives the offsets of the second
record, the one with serial number 777 those of the first; the satellite G01 in 2000 those of the
third; whatever was asked before. -/
example : ∃ f, atxOpen J (atxText hdr bs) = .ok f ∧
    (∀ a, AntReach a kc [c!"12345"] → ∀ must, ∃ l f', atxPcoReceiver J (f.strm.content.length + 1) f a must = .ok (0, l, f') ∧
      l.map Pco.flat = b2.offsets) ∧
    (∀ a, AntReach a kc [c!"777"] → ∃ l f', atxPcoReceiver J (f.strm.content.length + 1) f a false = .ok (0, l, f') ∧
      l.map Pco.flat = b1.offsets) ∧
    (∃ l sv f', atxPcoSatellite years J [] (f.strm.content.length + 1) f 1 .gps ⟨365 * 2000, 0⟩ = .ok (0, l, sv, f') ∧
      l.map Pco.flat = b3.offsets) := by
  obtain ⟨f, h1, _, _, h4, h5⟩ := C52_open J hdr_wf bs
  have hne : bs ≠ [] := by simp [bs]
  have hns : ∀ ss, ¬ b3.Exact kc ss := by
    rintro ss ⟨h, _⟩
    revert h; decide
  have h1s : ∀ ss, ¬ b1.Exact kc ss := by
    rintro ss ⟨_, h, _⟩
    revert h; decide
  refine ⟨f, h1, ?_, ?_, ?_⟩
  · intro a ha must
    obtain ⟨st, l, f', e1, e2, _⟩ := C35_receiver J_wf hne bs_wf h4 h5 ha must (Nat.lt_succ_self _)
    rcases e2 with ⟨i, b, x, rfl, hl⟩ | ⟨hn, _⟩ | ⟨hn, _⟩ | ⟨hn, _⟩
    · refine ⟨l, f', e1, ?_⟩
      rw [hl]
      have h2 : FirstIdx bs (AtxBlock.Exact kc [c!"12345"]) 1 b2 := by
        refine ⟨rfl, b2_exact, ?_⟩
        intro j hj q hq
        have : j = 0 := by omega
        subst this
        simp only [bs, List.getElem?_cons_zero, Option.some.injEq] at hq
        subst hq
        exact h1s _
      rw [(x.unique h2).2]
    all_goals exact absurd b2_exact (hn b2 (by simp [bs]))
  · intro a ha
    have hne2 : ¬ b2.Exact kc [c!"777"] := by
      rintro ⟨_, _, s, h, _, h'⟩
      simp only [List.getLast?_singleton, Option.some.injEq] at h
      subst h
      revert h'; decide
    obtain ⟨st, l, f', e1, e2, _⟩ := C35_receiver J_wf hne bs_wf h4 h5 ha false (Nat.lt_succ_self _)
    rcases e2 with ⟨i, b, x, _⟩ | ⟨_, _, i, b, x, rfl, hl⟩ | ⟨_, h, _⟩ | ⟨_, h, _⟩
    · have hm := x.mem
      have hx := x.2.1
      simp only [bs, List.mem_cons, List.not_mem_nil, or_false] at hm
      rcases hm with rfl | rfl | rfl
      · exact absurd hx (h1s _)
      · exact absurd hx hne2
      · exact absurd hx (hns _)
    · refine ⟨l, f', e1, ?_⟩
      rw [hl]
      have h2 : LastIdx bs (AtxBlock.Close kc) 0 b1 := by
        refine ⟨rfl, b1_close, ?_⟩
        intro j hj q hq
        match j, hj with
        | 1, _ =>
          simp only [bs, List.getElem?_cons_succ, List.getElem?_cons_zero, Option.some.injEq] at hq
          subst hq
          rintro ⟨_, h⟩; revert h; decide
        | 2, _ =>
          simp only [bs, List.getElem?_cons_succ, List.getElem?_cons_zero, Option.some.injEq] at hq
          subst hq
          rintro ⟨h, _⟩; revert h; decide
        | j + 3, _ => simp [bs] at hq
      rw [(x.unique h2).2]
    · cases h
    · exact absurd b1_close (h b1 (by simp [bs]))
  · obtain ⟨st, l, sv, f', e1, _, _, e2⟩ := C37_satellite_pco_partial J_wf hne bs_wf h4 J_nul [] 1 .gps ⟨365 * 2000, 0⟩ (Nat.lt_succ_self _)
    rcases e2 with ⟨i, b, x, rfl, hl⟩ | ⟨h, _⟩
    · refine ⟨l, sv, f', e1, ?_⟩
      rw [hl]
      have h2 : FirstIdx bs (AtxBlock.For 1 .gps ⟨365 * 2000, 0⟩) 2 b3 := by
        refine ⟨rfl, valid, ?_⟩
        intro j hj q hq
        match j, hj with
        | 0, _ =>
          simp only [bs, List.getElem?_cons_zero, Option.some.injEq] at hq
          subst hq
          rintro ⟨_, h, _⟩; cases h
        | 1, _ =>
          simp only [bs, List.getElem?_cons_succ, List.getElem?_cons_zero, Option.some.injEq] at hq
          subst hq
          rintro ⟨_, h, _⟩; cases h
      rw [(x.unique h2).2]
    · exact absurd valid (h b3 (by simp [bs]))

set_option maxRecDepth 20000 in
/-- A file that ends after the METH line of its only record: asking for the same model with another serial
number gives 1. -/
example {f : AtxFile} {p : Nat} (hp : f.endOfHead = some p) (hfail : f.strm.fail = false)
    (hc : f.strm.content.drop p = linesText [b1.start, b1.type, b1.meth]) {a : List Char} (ha : AntReach a kc [c!"777"]) :
    ∃ f', atxPcoReceiver J 1 f a false = .ok (1, [], f') :=
  C53_truncated_record_refused J_wf b1_wf (ls := [b1.meth]) (by simp) (by
    intro l hl
    simp only [List.mem_singleton] at hl
    subst hl
    exact ⟨by decide, by decide⟩) hp hfail hc ha (by rintro ⟨_, h, _⟩; revert h; decide) false 0

set_option maxRecDepth 20000 in
/-- A record without METH line. -/
example (fuel : Nat) (s : Stream) (hg : s.good = true) (t : List Char) (hr : s.rest = linesText [b3.dazi] ++ t) (e : DateTime) :
    checkTimeInterval years J fuel e s = .ok (10, s.past [b3.dazi]) :=
  C37_no_method_line (by decide) (by decide) e hg hr fuel

end AntexExample
end Ggnss
