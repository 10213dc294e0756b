import Verif.Model.SatSys
import Mathlib.Tactic.NormNum
/-!
# C01, C02: satellite systems
-/
namespace Ggnss

/-! ## Specification (independent of the model) -/

/-- The RINEX 3 letter of each system. -/
def specLetters : List (SatSys × Char) :=
  [(.gps, 'G'), (.glonass, 'R'), (.sbas, 'S'), (.galileo, 'E'), (.beidou, 'C'), (.qzss, 'J'),
   (.irnss, 'I'), (.mixed, 'M')]

/-- Nominal carriers, from the fundamental frequency 10.23 MHz (GLONASS: channel 0). -/
def specCarrier : List (SatSys × Int × Rat) :=
  [(.gps, 1, 154 * 10.23), (.gps, 2, 120 * 10.23), (.gps, 5, 115 * 10.23),
   (.glonass, 1, 1602), (.glonass, 2, 1246), (.glonass, 3, 117.5 * 10.23),
   (.galileo, 1, 154 * 10.23), (.galileo, 5, 115 * 10.23), (.galileo, 7, 118 * 10.23),
   (.galileo, 8, 116.5 * 10.23), (.galileo, 6, 125 * 10.23),
   (.sbas, 1, 154 * 10.23), (.sbas, 5, 115 * 10.23),
   (.qzss, 1, 154 * 10.23), (.qzss, 2, 120 * 10.23), (.qzss, 5, 115 * 10.23), (.qzss, 6, 125 * 10.23),
   (.beidou, 1, 152.6 * 10.23), (.beidou, 2, 118 * 10.23), (.beidou, 3, 124 * 10.23),
   (.irnss, 5, 115 * 10.23), (.irnss, 9, 243.6 * 10.23)]

/-! ## Theorems -/

/-- C01: letter then back is the identity. -/
theorem C01_roundtrip (s : SatSys) : charToSatsys (satsysToChar s) = .ok s := by
  cases s <;> rfl

/-- C01: the letters are the RINEX ones. -/
theorem C01_letters (s : SatSys) (c : Char) : satsysToChar s = c ↔ (s, c) ∈ specLetters := by
  cases s <;> simp [satsysToChar, specLetters, eq_comm]

/-- C01: two systems never share a letter. -/
theorem C01_injective (s t : SatSys) (h : satsysToChar s = satsysToChar t) : s = t := by
  have := C01_roundtrip s
  rw [h, C01_roundtrip t] at this
  injection this with h; exact h.symm

/-- C01: for every char, either it is the letter of exactly the system returned, or
`std::runtime_error` is thrown and it is the letter of no system. -/
theorem C01_total (c : Char) :
    (∃ s, charToSatsys c = .ok s ∧ satsysToChar s = c) ∨
    (charToSatsys c = .throw .runtime_error ∧ ∀ s, satsysToChar s ≠ c) := by
  unfold charToSatsys
  repeat' split
  all_goals first
    | (subst_vars; exact Or.inl ⟨_, rfl, rfl⟩)
    | (right; refine ⟨rfl, fun s => ?_⟩; cases s <;> exact Ne.symm (by assumption))

/-- C01: accepted exactly when it is one of the eight RINEX letters. -/
theorem C01_accepts_iff (c : Char) (s : SatSys) :
    charToSatsys c = .ok s ↔ (s, c) ∈ specLetters := by
  rw [← C01_letters]
  constructor
  · intro h
    rcases C01_total c with ⟨t, ht, hc⟩ | ⟨ht, _⟩
    · rw [h] at ht; injection ht with ht; subst ht; exact hc
    · rw [h] at ht; cases ht
  · rintro rfl; exact C01_roundtrip s

example : charToSatsys 'E' = .ok .galileo ∧ charToSatsys 'X' = .throw .runtime_error := by decide

theorem mapAt_total {β : Type} (m : List (Int × β)) (k : Int) :
    (∃ v, (k, v) ∈ m ∧ mapAt m k = .ok v) ∨ ((∀ v, (k, v) ∉ m) ∧ mapAt m k = .throw .out_of_range) := by
  unfold mapAt
  induction m with
  | nil => right; simp
  | cons p m ih =>
    obtain ⟨k', v'⟩ := p
    by_cases h : k = k'
    · subst h; left; exact ⟨v', by simp, by simp⟩
    · have h' : (k == k') = false := by simpa using h
      simp only [List.lookup, h']
      rcases ih with ⟨v, hv, he⟩ | ⟨hv, he⟩
      · left; exact ⟨v, by simp [hv], he⟩
      · right; exact ⟨fun v => by simp [h, hv v], he⟩

/-- C02: the table of the code is the table of nominal carriers, for every system. -/
theorem C02_table (s : SatSys) (b : Int) (f : Rat) :
    (b, f) ∈ frequencyMap s ↔ (s, b, f) ∈ specCarrier := by
  cases s <;> simp [frequencyMap, specCarrier] <;> norm_num

/-- C02: a band has at most one frequency per system (the table is a map). -/
theorem C02_functional (s : SatSys) (b : Int) (f g : Rat)
    (hf : (s, b, f) ∈ specCarrier) (hg : (s, b, g) ∈ specCarrier) : f = g := by
  have key : ∀ p ∈ specCarrier, ∀ q ∈ specCarrier, p.1 = q.1 → p.2.1 = q.2.1 → p.2.2 = q.2.2 := by
    simp [specCarrier]
  exact key _ hf _ hg rfl rfl

/-- C02: for every system and every int band, `band2frequency` returns the nominal carrier, or
throws `std::out_of_range` and the band is not one of the system's bands. -/
theorem C02_lookup (s : SatSys) (b : Int) :
    (∃ f, band2frequency s b = .ok f ∧ (s, b, f) ∈ specCarrier) ∨
    (band2frequency s b = .throw .out_of_range ∧ ∀ f, (s, b, f) ∉ specCarrier) := by
  rcases mapAt_total (frequencyMap s) b with ⟨v, hv, he⟩ | ⟨hv, he⟩
  · exact Or.inl ⟨v, he, (C02_table s b v).1 hv⟩
  · exact Or.inr ⟨he, fun f hf => hv f ((C02_table s b f).2 hf)⟩

/-- C02: success iff tabulated, with that value. -/
theorem C02_lookup_iff (s : SatSys) (b : Int) (f : Rat) :
    band2frequency s b = .ok f ↔ (s, b, f) ∈ specCarrier := by
  rcases C02_lookup s b with ⟨g, hg, hm⟩ | ⟨ht, hn⟩
  · rw [hg]
    constructor
    · intro h; injection h with h; subst h; exact hm
    · intro h; rw [C02_functional s b f g h hm]
  · rw [ht]; constructor
    · intro h; cases h
    · intro h; exact absurd h (hn f)

/-- C02: a band has a list of valid attributes exactly when it has a frequency. -/
theorem C02_bands_agree (s : SatSys) (b : Int) :
    (∃ a, mapAt (validAttributes s) b = .ok a) ↔ (∃ f, band2frequency s b = .ok f) := by
  have key : (∃ a, (b, a) ∈ validAttributes s) ↔ (∃ f, (b, f) ∈ frequencyMap s) := by
    cases s <;> simp [validAttributes, frequencyMap, exists_or]
  have e1 : (∃ a, mapAt (validAttributes s) b = .ok a) ↔ (∃ a, (b, a) ∈ validAttributes s) := by
    rcases mapAt_total (validAttributes s) b with ⟨v, hv, he⟩ | ⟨hv, he⟩
    · exact ⟨fun _ => ⟨v, hv⟩, fun _ => ⟨v, he⟩⟩
    · exact ⟨fun ⟨a, ha⟩ => (by rw [he] at ha; cases ha), fun ⟨a, ha⟩ => absurd ha (hv a)⟩
  have e2 : (∃ a, band2frequency s b = .ok a) ↔ (∃ a, (b, a) ∈ frequencyMap s) := by
    unfold band2frequency
    rcases mapAt_total (frequencyMap s) b with ⟨v, hv, he⟩ | ⟨hv, he⟩
    · exact ⟨fun _ => ⟨v, hv⟩, fun _ => ⟨v, he⟩⟩
    · exact ⟨fun ⟨a, ha⟩ => (by rw [he] at ha; cases ha), fun ⟨a, ha⟩ => absurd ha (hv a)⟩
  rw [e1, e2, key]

/-- C02: every attribute list admits the wildcard. -/
theorem C02_wildcard (s : SatSys) (b : Int) (a : List Char)
    (h : mapAt (validAttributes s) b = .ok a) : '?' ∈ a := by
  rcases mapAt_total (validAttributes s) b with ⟨v, hv, he⟩ | ⟨_, he⟩
  · rw [he] at h; injection h with h; subst h
    have key : ∀ p ∈ validAttributes s, '?' ∈ p.2 := by cases s <;> decide
    exact key _ hv
  · rw [he] at h; cases h

/-- The attributes of the RINEX 3 tables of observation codes, one line per system, band and letter:
GPS (table 4), GLONASS (5), Galileo (6), SBAS (7), QZSS (8), BeiDou (9), IRNSS (10). -/
def specAttributes : List (SatSys × Int × Char) :=
  [(.gps, 1, 'C'), (.gps, 1, 'S'), (.gps, 1, 'L'), (.gps, 1, 'X'), (.gps, 1, 'P'), (.gps, 1, 'W'), (.gps, 1, 'Y'),
   (.gps, 1, 'M'), (.gps, 1, 'N'),
   (.gps, 2, 'C'), (.gps, 2, 'D'), (.gps, 2, 'S'), (.gps, 2, 'L'), (.gps, 2, 'X'), (.gps, 2, 'P'), (.gps, 2, 'W'),
   (.gps, 2, 'Y'), (.gps, 2, 'M'), (.gps, 2, 'N'),
   (.gps, 5, 'I'), (.gps, 5, 'Q'), (.gps, 5, 'X'),
   (.glonass, 1, 'C'), (.glonass, 1, 'P'), (.glonass, 2, 'C'), (.glonass, 2, 'P'),
   (.glonass, 3, 'I'), (.glonass, 3, 'Q'), (.glonass, 3, 'X'),
   (.galileo, 1, 'A'), (.galileo, 1, 'B'), (.galileo, 1, 'C'), (.galileo, 1, 'X'), (.galileo, 1, 'Z'),
   (.galileo, 5, 'I'), (.galileo, 5, 'Q'), (.galileo, 5, 'X'), (.galileo, 7, 'I'), (.galileo, 7, 'Q'), (.galileo, 7, 'X'),
   (.galileo, 8, 'I'), (.galileo, 8, 'Q'), (.galileo, 8, 'X'),
   (.galileo, 6, 'A'), (.galileo, 6, 'B'), (.galileo, 6, 'C'), (.galileo, 6, 'X'), (.galileo, 6, 'Z'),
   (.sbas, 1, 'C'), (.sbas, 5, 'I'), (.sbas, 5, 'Q'), (.sbas, 5, 'X'),
   (.qzss, 1, 'C'), (.qzss, 1, 'S'), (.qzss, 1, 'L'), (.qzss, 1, 'X'), (.qzss, 1, 'Z'),
   (.qzss, 2, 'S'), (.qzss, 2, 'L'), (.qzss, 2, 'X'), (.qzss, 5, 'I'), (.qzss, 5, 'Q'), (.qzss, 5, 'X'),
   (.qzss, 6, 'S'), (.qzss, 6, 'L'), (.qzss, 6, 'X'),
   (.beidou, 1, 'I'), (.beidou, 1, 'Q'), (.beidou, 1, 'X'), (.beidou, 2, 'I'), (.beidou, 2, 'Q'), (.beidou, 2, 'X'),
   (.beidou, 3, 'I'), (.beidou, 3, 'Q'), (.beidou, 3, 'X'),
   (.irnss, 5, 'A'), (.irnss, 5, 'B'), (.irnss, 5, 'C'), (.irnss, 5, 'X'),
   (.irnss, 9, 'A'), (.irnss, 9, 'B'), (.irnss, 9, 'C'), (.irnss, 9, 'X')]

/-- C02: the list of valid attributes of a band holds the letters of the table and the wildcard, and
nothing else. -/
theorem C02_attributes (s : SatSys) (b : Int) (a : List Char) (h : mapAt (validAttributes s) b = .ok a) (c : Char) :
    c ∈ a ↔ (s, b, c) ∈ specAttributes ∨ c = '?' := by
  rcases mapAt_total (validAttributes s) b with ⟨v, hv, he⟩ | ⟨_, he⟩
  · rw [he] at h; injection h with h; subst h
    have k1 : ∀ p ∈ validAttributes s, ∀ c ∈ p.2, (s, p.1, c) ∈ specAttributes ∨ c = '?' := by cases s <;> decide
    have k2 : ∀ q ∈ specAttributes, q.1 = s → ∀ p ∈ validAttributes s, p.1 = q.2.1 → q.2.2 ∈ p.2 := by
      cases s <;> decide
    refine ⟨k1 _ hv c, ?_⟩
    rintro (h | rfl)
    · exact k2 _ h rfl _ hv rfl
    · exact C02_wildcard s b v he
  · rw [he] at h; cases h

example : band2frequency .gps 2 = .ok (120 * 10.23) ∧ band2frequency .gps 3 = .throw .out_of_range := by
  constructor
  · rw [C02_lookup_iff]; simp [specCarrier]
  · rcases C02_lookup .gps 3 with ⟨f, _, h⟩ | ⟨h, _⟩
    · simp [specCarrier] at h
    · exact h

end Ggnss
