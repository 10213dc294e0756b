import Verif.Spec.AntexInfo
import Verif.Props.AntexSoundText
import Verif.Props.AntexOffsets
import Verif.Props.Str
/-!
# C105: where the information about a satellite stands
-/
namespace Ggnss

theorem blank_test {c type : List Char} (hc : c.take 60 = type.take 60) (h60 : 60 ≤ type.length) (hnul : NUL ∉ type) {i : Nat} (hi : i + 10 ≤ 60)
    {b : Bool} (h : stringIsEmpty (c.drop i) (some 10) = .ok b) : b = decide (BlankColumns type i 10) := by
  have hcl : 60 ≤ c.length := by
    have := congrArg List.length hc
    simp at this; omega
  have e10 : (c.drop i).take 10 = (type.drop i).take 10 := by
    have := congrArg (fun x => (x.drop i).take 10) hc
    simp only [List.drop_take, List.take_take] at this
    rwa [Nat.min_eq_left (by omega)] at this
  have h0 := h
  unfold stringIsEmpty at h
  obtain ⟨s, hs, _⟩ := Res.bind_eq_ok.1 h
  obtain ⟨rest, hd, hcs⟩ := cstrOf_ok hs
  have hlen : 10 ≤ s.length := by
    by_contra hlt
    have : NUL ∈ (c.drop i).take 10 := by
      rw [hd, List.take_append, List.mem_append]
      right
      rw [show 10 - s.length = (9 - s.length) + 1 by omega]
      simp
    rw [e10] at this
    exact hnul (List.mem_of_mem_drop (List.mem_of_mem_take this))
  rw [hd, C07_is_empty s rest hcs, Res.ok.injEq] at h0
  rw [← h0]
  have : considered s (some 10) = (type.drop i).take 10 := by
    rw [← e10, hd, List.take_append_of_le_length hlen]
    rfl
  rw [this]
  rfl

/-- What the columns of the line leave in the object. -/
theorem resolve_info {c type : List Char} (hc : c.take 60 = type.take 60) (h60 : 60 ≤ type.length) (hnul : NUL ∉ type)
    (hlab : HasLabel type c!"TYPE / SERIAL NO") {sat0 sat : AtxSat} {st : Int} (hlen : sat0.ant.length = 21)
    (h : atxResolve c sat0 = .ok (st, sat)) :
    sat.ant.length = 21 ∧ (sat.svn = sat0.svn ∨ SvnOn type sat.svn) ∧ (sat.cospar = sat0.cospar ∨ ∃ id, CosparOn type id ∧ sat.cospar = id ++ [NUL]) ∧
      (st = 0 → sat.ant = type.take 20 ++ [NUL] ∧ (¬ BlankColumns type 40 10 → SvnOn type sat.svn) ∧
        (¬ BlankColumns type 50 10 → ∃ id, CosparOn type id ∧ sat.cospar = id ++ [NUL])) := by
  have getc : ∀ i, i < 60 → c[i]? = type[i]? := by
    intro i hi
    have := congrArg (fun x => x[i]?) hc
    simpa only [List.getElem?_take_of_lt hi] using this
  have seg : ∀ i n, i + n ≤ 60 → (c.drop i).take n = (type.drop i).take n := by
    intro i n hi
    have := congrArg (fun x => (x.drop i).take n) hc
    simp only [List.drop_take, List.take_take] at this
    rwa [Nat.min_eq_left (by omega)] at this
  unfold atxResolve at h
  obtain ⟨str, hstr, h⟩ := Res.bind_eq_ok.1 h
  by_cases hsl : str.length < 60
  · rw [if_pos hsl] at h
    cases h
    exact ⟨hlen, Or.inl rfl, Or.inl rfl, by simp⟩
  · rw [if_neg hsl] at h
    obtain ⟨a, ha, h⟩ := Res.bind_eq_ok.1 h
    have hstr20 : str.take 20 = type.take 20 := by
      obtain ⟨rest, hr, _⟩ := cstrOf_ok hstr
      have := seg 0 20 (by omega)
      simp only [List.drop_zero] at this
      rw [← this, hr, List.take_append_of_le_length (by omega)]
    have hant : a = type.take 20 ++ [NUL] := by
      unfold satAntCopy at ha
      simp only at ha
      rw [Nat.min_eq_right (by omega), hstr20] at ha
      have hl20 : (type.take 20).length = 20 := by simp; omega
      simp only [memcpyAt, hl20, hlen, Nat.zero_add, setAt] at ha
      rw [if_pos (by omega), Res.bind_ok] at ha
      obtain ⟨x, hx⟩ : ∃ x, sat0.ant.drop 20 = [x] := by
        have : (sat0.ant.drop 20).length = 1 := by simp [hlen]
        exact List.length_eq_one_iff.1 this
      simp [hx, hl20] at ha
      rw [List.drop_eq_nil_of_le (by rw [List.length_append, hl20]; simp)] at ha
      exact ha.symm
    have hal : a.length = 21 := by rw [hant]; simp; omega
    simp only at h
    obtain ⟨c20, h20, h⟩ := Res.bind_eq_ok.1 h
    split at h
    swap
    · cases h
      exact ⟨hal, Or.inl rfl, Or.inl rfl, by simp⟩
    · obtain ⟨x, hx, h⟩ := Res.bind_eq_ok.1 h
      have hk : (x.1 = none ∧ x.2.ant = a ∧ x.2.svn = sat0.svn ∧ x.2.cospar = sat0.cospar) ∨
          ∃ s1, x.1 = some s1 ∧ s1.ant = a ∧ s1.svn = sat0.svn ∧ s1.cospar = sat0.cospar := by
        unfold atxSysPrn at hx
        rw [h20, Res.bind_ok] at hx
        split at hx
        · split at hx
          · cases hx; exact Or.inr ⟨_, rfl, rfl, rfl, rfl⟩
          · cases hx; exact Or.inl ⟨rfl, rfl, rfl, rfl⟩
        · cases hx; exact Or.inl ⟨rfl, rfl, rfl, rfl⟩
      rcases hk with ⟨e, k1, k2, k3⟩ | ⟨s1, e, k1, k2, k3⟩
      · rw [e] at h
        cases h
        exact ⟨by rw [k1, hal], Or.inl k2, Or.inl k3, by simp⟩
      · rw [e] at h
        simp only at h
        obtain ⟨y, hy, h⟩ := Res.bind_eq_ok.1 h
        unfold atxSvn at hy
        obtain ⟨b, hb, hy⟩ := Res.bind_eq_ok.1 hy
        have hbl := blank_test hc h60 hnul (by omega) hb
        have hy' : y = none ∨ ∃ s2, y = some s2 ∧ s2.ant = a ∧ s2.cospar = sat0.cospar ∧
            ((BlankColumns type 40 10 ∧ s2.svn = sat0.svn) ∨ SvnOn type s2.svn) := by
          by_cases hbt : b = true
          · rw [if_pos hbt] at hy
            cases hy
            rw [hbt] at hbl
            exact Or.inr ⟨_, rfl, k1, k3, Or.inl ⟨by simpa using hbl.symm, k2⟩⟩
          · rw [if_neg hbt] at hy
            obtain ⟨u, hu, hy⟩ := Res.bind_eq_ok.1 hy
            obtain ⟨w, hw, hy⟩ := Res.bind_eq_ok.1 hy
            split at hy
            · cases hy; exact Or.inl rfl
            · rename_i huw
              split at hy
              · rename_i v hv
                cases hy
                refine Or.inr ⟨_, rfl, k1, k3, Or.inr ⟨hlab, ?_, ?_, ?_⟩⟩
                · intro hbk
                  rw [hbl] at hbt
                  exact hbt (by simpa using hbk)
                · have g : ∀ {i : Nat} {z : Char}, getAt c i = .ok z → c[i]? = some z := by
                    intro i z hz
                    unfold getAt at hz
                    split at hz
                    · cases hz; assumption
                    · cases hz
                  rw [← getc 40 (by omega), ← getc 20 (by omega), g hu, g hw]
                  simpa using huw
                · rw [← seg 41 5 (by omega)]
                  exact stoi_begins hv
              · cases hy; exact Or.inl rfl
        rcases hy' with rfl | ⟨s2, rfl, q1, q2, q3⟩
        · cases h
          exact ⟨by rw [k1, hal], Or.inl k2, Or.inl k3, by simp⟩
        · simp only at h
          obtain ⟨s3, h3, h⟩ := Res.bind_eq_ok.1 h
          cases h
          unfold atxCospar at h3
          obtain ⟨b2, hb2, h3⟩ := Res.bind_eq_ok.1 h3
          have hbl2 := blank_test hc h60 hnul (by omega) hb2
          have hsv : ∀ {v : Int}, v = s2.svn → (v = sat0.svn ∨ SvnOn type v) ∧ (¬ BlankColumns type 40 10 → SvnOn type v) := by
            rintro v rfl
            rcases q3 with ⟨p1, p2⟩ | p
            · exact ⟨Or.inl p2, fun hn => absurd p1 hn⟩
            · exact ⟨Or.inr p, fun _ => p⟩
          by_cases hbt : b2 = true
          · rw [if_pos hbt] at h3
            cases h3
            rw [hbt] at hbl2
            have hbk : BlankColumns type 50 10 := by simpa using hbl2.symm
            exact ⟨by rw [q1, hal], (hsv rfl).1, Or.inl q2, fun _ => ⟨by rw [q1, hant], (hsv rfl).2, fun hn => absurd hbk hn⟩⟩
          · rw [if_neg hbt] at h3
            cases h3
            have hbk : ¬ BlankColumns type 50 10 := by
              intro hbk
              rw [hbl2] at hbt
              exact hbt (by simpa using hbk)
            have hco : ∃ id, CosparOn type id ∧ (c.drop 50).take 8 ++ [NUL] = id ++ [NUL] :=
              ⟨_, ⟨hlab, hbk, rfl⟩, by rw [seg 50 8 (by omega)]⟩
            exact ⟨by simp only [q1, hal], (hsv rfl).1, Or.inr hco, fun _ => ⟨by simp only [q1, hant], (hsv rfl).2, fun _ => hco⟩⟩

/-- Everything the object holds from the lines `seen`. -/
structure LeftBy (cospar0 : List Char) (seen : List (List Char)) (sat : AtxSat) : Prop where
  len : sat.ant.length = 21
  svn : sat.svn = -1 ∨ ∃ l ∈ seen, SvnOn l sat.svn
  cospar : sat.cospar = cospar0 ∨ ∃ l ∈ seen, ∃ id, CosparOn l id ∧ sat.cospar = id ++ [NUL]

theorem LeftBy.mono {cospar0 : List Char} {a b : List (List Char)} {sat : AtxSat} (h : LeftBy cospar0 a sat) (hs : ∀ l ∈ a, l ∈ b) : LeftBy cospar0 b sat :=
  ⟨h.len, h.svn.imp id fun ⟨l, hl, h⟩ => ⟨l, hs l hl, h⟩, h.cospar.imp id fun ⟨l, hl, h⟩ => ⟨l, hs l hl, h⟩⟩

theorem LeftBy.resolve {cospar0 : List Char} {seen : List (List Char)} {sat0 sat : AtxSat} (h0 : LeftBy cospar0 seen sat0) {c type : List Char}
    (hc : c.take 60 = type.take 60) (h60 : 60 ≤ type.length) (hnul : NUL ∉ type) (hlab : HasLabel type c!"TYPE / SERIAL NO") {st : Int}
    (h : atxResolve c sat0 = .ok (st, sat)) (hin : type ∈ seen) : LeftBy cospar0 seen sat := by
  obtain ⟨k1, k2, k3, _⟩ := resolve_info hc h60 hnul hlab h0.len h
  refine ⟨k1, ?_, ?_⟩
  · rcases k2 with k | k
    · rw [k]; exact h0.svn
    · exact Or.inr ⟨type, hin, k⟩
  · rcases k3 with k | k
    · rw [k]; exact h0.cospar
    · exact Or.inr ⟨type, hin, k⟩

/-- What is known of the satellite of an answered query: the record found and where every item of the answer stands. -/
structure InfoFrom (strptime : List Char → Res DateTime) (cospar0 : List Char) (ls : List (List Char)) (ss : SatSys) (prn : Int) (eph : DateTime)
    (sat : AtxSat) (pre : List (List Char)) (start type : List Char) (suf : List (List Char)) : Prop where
  lines : ls = pre ++ start :: type :: suf
  begins : HasLabel start c!"START OF ANTENNA"
  label : HasLabel type c!"TYPE / SERIAL NO"
  system : sat.sys = ss
  number : sat.prn = prn
  record : SatRecord strptime ss prn eph type suf
  antenna : sat.ant = type.take 20 ++ [NUL]
  svn : SvnOn type sat.svn ∨ BlankColumns type 40 10 ∧ (sat.svn = -1 ∨ ∃ l ∈ pre, SvnOn l sat.svn)
  cospar : (∃ id, CosparOn type id ∧ sat.cospar = id ++ [NUL]) ∨
    BlankColumns type 50 10 ∧ (sat.cospar = cospar0 ∨ ∃ l ∈ pre, ∃ id, CosparOn l id ∧ sat.cospar = id ++ [NUL])

theorem satLoop_info {strptime : List Char → Res DateTime} {J : AtxJunk} {prn : Int} {ss : SatSys} {eph : DateTime} {cospar0 : List Char} :
    ∀ (fuel : Nat) (seen togo : List (List Char)) (cur c : List Char) (sat : AtxSat) (pos : Option Nat) (st2 : Option Int) (s : Stream) (o : AtxSatOut),
      (∀ l ∈ togo, GridLine l) → Onward togo s → LeftBy cospar0 seen sat →
      atxSatLoop strptime J prn ss eph fuel cur c sat pos st2 s = .ok o → o.status = 0 →
      ∃ pre start type suf, InfoFrom strptime cospar0 (seen ++ togo) ss prn eph o.sat pre start type suf := by
  intro fuel
  induction fuel with
  | zero => intro seen togo cur c sat pos st2 s o _ _ _ h; cases h
  | succ fuel ih =>
    intro seen togo cur c sat pos st2 s o hw hs hleft h h0
    unfold atxSatLoop at h
    obtain ⟨r, hr, h⟩ := Res.bind_eq_ok.1 h
    split at h
    · exact absurd h0 (atxSatEnd_ne h)
    · rename_i hst
      obtain ⟨pre, start, type, suf, rfl, hl1, hl2, hc, hb⟩ := readType_text hw hs hr (by simpa using hst)
      have hty := hw type (by simp)
      have hws : ∀ l ∈ suf, GridLine l := fun l hl => hw l (by simp [hl])
      obtain ⟨m, hm, h⟩ := Res.bind_eq_ok.1 h
      have htell : r.strm.tellg.2 = r.strm := by rw [tellg_good hb.1]
      rw [htell] at hm
      have hleft' : LeftBy cospar0 (seen ++ pre ++ [start]) { sat with sys := .mixed } :=
        (show LeftBy cospar0 seen { sat with sys := .mixed } from ⟨hleft.len, hleft.svn, hleft.cospar⟩).mono (fun l hl => by simp [hl])
      split at h
      · rename_i ht
        obtain ⟨h1, h2, h3, h4⟩ := atxSatTest_true hm ht
        cases h
        obtain ⟨q1, q2⟩ := resolve_text h3
        obtain ⟨_, k⟩ := cti_text hws hb h4
        obtain ⟨z1, z2, z3, z4⟩ := resolve_info hc hty.2 hty.1.2.1 hl2 hleft'.len h3
        obtain ⟨z5, z6, z7⟩ := z4 rfl
        have hnst : ∀ {v : Int}, SvnOn start v → False := fun hv => absurd hv.label (hl1.excl (by decide) (by decide))
        have hncs : ∀ {v : List Char}, CosparOn start v → False := fun hv => absurd hv.label (hl1.excl (by decide) (by decide))
        refine ⟨seen ++ pre, start, type, suf, by simp, hl1, hl2, h2, h1, ⟨?_, ?_, k rfl⟩, z5, ?_, ?_⟩
        · have h20 : type[20]? = r.c[20]? := by
            have := congrArg (fun x => x[20]?) hc
            simp only [List.getElem?_take_of_lt (show 20 < 60 by decide)] at this
            exact this.symm
          rw [h20, q1, h2]
        · have h21 : (type.drop 21).take 5 = (r.c.drop 21).take 5 := by
            have := congrArg (fun x => (x.drop 21).take 5) hc
            simp only [List.drop_take, List.take_take] at this
            exact this.symm
          rw [h21, ← h1]
          exact q2
        · by_cases hbk : BlankColumns type 40 10
          · right
            refine ⟨hbk, ?_⟩
            rcases z2 with z | z
            · rw [z]
              rcases hleft'.svn with e | ⟨l, hl, hv⟩
              · exact Or.inl e
              · rcases List.mem_append.1 hl with hl | hl
                · exact Or.inr ⟨l, hl, hv⟩
                · rw [List.mem_singleton] at hl; subst hl; exact (hnst hv).elim
            · exact absurd hbk z.there
          · exact Or.inl (z6 hbk)
        · by_cases hbk : BlankColumns type 50 10
          · right
            refine ⟨hbk, ?_⟩
            rcases z3 with z | ⟨id, z, _⟩
            · rw [z]
              rcases hleft'.cospar with e | ⟨l, hl, id, hv, e⟩
              · exact Or.inl e
              · rcases List.mem_append.1 hl with hl | hl
                · exact Or.inr ⟨l, hl, id, hv, e⟩
                · rw [List.mem_singleton] at hl; subst hl; exact (hncs hv).elim
            · exact absurd hbk z.there
          · exact Or.inl (z7 hbk)
      · obtain ⟨k, hk, h⟩ := Res.bind_eq_ok.1 h
        have hm2 : Onward suf m.2.2 ∧ LeftBy cospar0 (seen ++ pre ++ [start, type]) m.2.1 := by
          have hl3 : LeftBy cospar0 (seen ++ pre ++ [start, type]) { sat with sys := .mixed } := hleft'.mono (fun l hl => by
            simp only [List.append_assoc, List.mem_append, List.mem_cons, List.not_mem_nil, or_false] at hl ⊢
            tauto)
          unfold atxSatTest at hm
          obtain ⟨x, hx, hm⟩ := Res.bind_eq_ok.1 hm
          have hx' := hl3.resolve hc hty.2 hty.1.2.1 hl2 (st := x.1) (sat := x.2) hx (by simp)
          split at hm
          · obtain ⟨t, ht, hm⟩ := Res.bind_eq_ok.1 hm
            cases hm
            exact ⟨(cti_text hws hb ht).1, hx'⟩
          · cases hm
            exact ⟨Or.inr ⟨[], suf, rfl, hb⟩, hx'⟩
        have hk2 : Onward suf k.2 := skipLoop_text hws 5000 _ _ _ hm2.1 hk
        split at h
        · exact absurd h0 (atxSatEnd_ne h)
        · obtain ⟨p', s', t', f', hi⟩ := ih (seen ++ pre ++ [start, type]) suf _ _ _ _ _ _ _ hws hk2 hm2.2 h h0
          exact ⟨p', s', t', f', by simpa using hi⟩

/-- **C105**.  A file whose lines behind the header have 60 to 511 chars and are otherwise arbitrary.  When `get_satellite_info` answers (status 0) for
satellite `prn` of system `ss` at `eph`, the answer is about a record of the file that names the satellite and gives an interval that holds the epoch;
the antenna is what stands in the first 20 columns of its `TYPE / SERIAL NO` line; SVN and COSPAR id are those of that line if it has any, and otherwise
those of such a line before it, or what they were when the search began. -/
theorem C105_info {strptime : List Char → Res DateTime} {J : AtxJunk} {cospar : List Char} {fuel : Nat} {f f' : AtxFile} {p : Nat}
    {ls : List (List Char)} (hfail : f.strm.fail = false) (hp : f.endOfHead = some p) (hc : f.strm.content.drop p = linesText ls)
    (hw : ∀ l ∈ ls, GridLine l) {prn : Int} {ss : SatSys} {eph : DateTime} {sv : Option AtxSat}
    (h : atxSatInfo strptime J cospar fuel f prn ss eph = .ok (0, sv, f')) :
    ∃ sat pre start type suf, sv = some sat ∧ InfoFrom strptime cospar ls ss prn eph sat pre start type suf := by
  unfold atxSatInfo at h
  obtain ⟨o, ho, h⟩ := Res.bind_eq_ok.1 h
  have h := Res.ok.inj h
  simp only [Prod.mk.injEq] at h
  obtain ⟨h0, h1, h2⟩ := h
  rw [if_pos h0] at h1
  unfold atxFindSat at ho
  have ho := Res.noexcept_eq_ok.1 ho
  obtain ⟨cur, _, ho⟩ := Res.bind_eq_ok.1 ho
  have hs : Onward ls (atxSeek f.strm f.endOfHead) := by
    rw [hp]
    refine Or.inr ⟨[], ls, rfl, ?_, ?_⟩
    · simp [atxSeek, Stream.seekg, hfail, Stream.good]
    · simp only [atxSeek, Stream.seekg, hfail]
      simpa [Stream.rest] using hc
  obtain ⟨pre, start, type, suf, hi⟩ := satLoop_info (cospar0 := cospar) _ [] ls _ _ _ _ _ _ _ hw hs
    ⟨by simp, Or.inl rfl, Or.inl rfl⟩ ho h0
  exact ⟨_, pre, start, type, suf, h1.symm, by simpa using hi⟩

/-- **C105**, nothing but the line.  When the line that names the satellite has an SVN and a COSPAR id, the whole answer is written on it. -/
theorem C105_own {strptime : List Char → Res DateTime} {cospar : List Char} {ls : List (List Char)} {ss : SatSys} {prn : Int} {eph : DateTime}
    {sat : AtxSat} {pre : List (List Char)} {start type : List Char} {suf : List (List Char)}
    (h : InfoFrom strptime cospar ls ss prn eph sat pre start type suf) (h1 : ¬ BlankColumns type 40 10) (h2 : ¬ BlankColumns type 50 10) :
    IntBegins ((type.drop 41).take 5) sat.svn ∧ type[40]? = type[20]? ∧ sat.cospar = (type.drop 50).take 8 ++ [NUL] := by
  rcases h.svn with k | ⟨k, _⟩
  · rcases h.cospar with ⟨id, q, e⟩ | ⟨q, _⟩
    · exact ⟨k.number, k.letter, by rw [e, q.text]⟩
    · exact absurd q h2
  · exact absurd k h1

/-- **C105** for `get_antenna_pco`: when the satellite was assigned, the same holds of it. -/
theorem C105_pco {strptime : List Char → Res DateTime} {J : AtxJunk} {cospar : List Char} {fuel : Nat} {f f' : AtxFile} {p : Nat}
    {ls : List (List Char)} (hfail : f.strm.fail = false) (hp : f.endOfHead = some p) (hc : f.strm.content.drop p = linesText ls)
    (hw : ∀ l ∈ ls, GridLine l) {prn : Int} {ss : SatSys} {eph : DateTime} {sat : AtxSat} {st : Int} {list : List Pco}
    (h : atxPcoSatellite strptime J cospar fuel f prn ss eph = .ok (st, list, some sat, f')) :
    ∃ pre start type suf, InfoFrom strptime cospar ls ss prn eph sat pre start type suf := by
  unfold atxPcoSatellite at h
  obtain ⟨o, ho, h⟩ := Res.bind_eq_ok.1 h
  by_cases hpos : o.status > 0
  · rw [if_pos hpos] at h; cases h
  · rw [if_neg hpos] at h
    obtain ⟨c, _, h⟩ := Res.bind_eq_ok.1 h
    cases h
    unfold atxFindSat at ho
    have ho := Res.noexcept_eq_ok.1 ho
    obtain ⟨cur, _, ho⟩ := Res.bind_eq_ok.1 ho
    have hs : Onward ls (atxSeek f.strm f.endOfHead) := by
      rw [hp]
      refine Or.inr ⟨[], ls, rfl, ?_, ?_⟩
      · simp [atxSeek, Stream.seekg, hfail, Stream.good]
      · simp only [atxSeek, Stream.seekg, hfail]
        simpa [Stream.rest] using hc
    have h0 : o.status = 0 := by
      have := (satLoop_at hw _ _ _ _ _ _ _ _ hs (atxSeek_content _ _) ho).1
      omega
    obtain ⟨pre, start, type, suf, hi⟩ := satLoop_info (cospar0 := cospar) _ [] ls _ _ _ _ _ _ _ hw hs
      ⟨by simp, Or.inl rfl, Or.inl rfl⟩ ho h0
    exact ⟨pre, start, type, suf, by simpa using hi⟩

end Ggnss
