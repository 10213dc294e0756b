import Verif.Props.ObsFile
import Verif.Props.ObsMap
import Verif.Props.ObsRange
/-!
# A concrete observation file: the hypotheses of C38, C39, C42, C43, C57 and C58 are met
-/
namespace Ggnss.ObsEx

def C1C : ObsCode := ⟨.pseudorange, 1, 'C'⟩
def L1C : ObsCode := ⟨.carrier_phase, 1, 'C'⟩
def C2W : ObsCode := ⟨.pseudorange, 2, 'W'⟩
def L2W : ObsCode := ⟨.carrier_phase, 2, 'W'⟩

/-- Header: GPS with four types, Galileo with two. -/
def obst : ObsTypes := [(.gps, [C1C, L1C, C2W, L2W]), (.galileo, [C1C, L1C])]

def gps (c : ObsCode) : RawObs := ⟨.gps, c⟩

/-- Request: C1C, an ionosphere-free combination, L1C (GPS); the type L5Q that the file does not have. -/
def L5Q : ObsCode := ⟨.carrier_phase, 5, 'Q'⟩
def req : ReqMap := [(.gps, [⟨[⟨gps C1C, 1⟩]⟩, ⟨[⟨gps C1C, 5 / 2⟩, ⟨gps C2W, -3 / 2⟩]⟩, ⟨[⟨gps L1C, 1⟩]⟩])]
def reqMiss : ReqMap := [(.gps, [⟨[⟨gps C1C, 1⟩]⟩, ⟨[⟨gps L5Q, 1⟩]⟩, ⟨[⟨gps L1C, 1⟩]⟩])]

def mmap : ReadMap := [(.gps, [[(0, 1)], [(0, 5 / 2), (2, -3 / 2)], [(1, 1)]])]

/-- C38 applies to `req` … -/
theorem req_present : (∀ e ∈ req, ∀ o ∈ e.2, o.vec ≠ []) ∧ ∀ e ∈ req, ∀ o ∈ e.2, Satisfiable (codesOf obst e.1) e.1 o := by
  decide
example : ∃ m, setReadMap obst req false = .ok (m, req) ∧ MapFor obst req m := C38_all_present obst req false req_present.1 req_present.2
/-- … and gives `mmap`. -/
example : setReadMap obst req false = .ok (mmap, req) := by rfl
/-- … and to `reqMiss`. -/
theorem reqMiss_misses : (∀ e ∈ reqMiss, ∀ o ∈ e.2, o.vec ≠ []) ∧ (∃ e ∈ reqMiss, ∃ o ∈ e.2, ¬ Satisfiable (codesOf obst e.1) e.1 o) ∧
    ∀ e ∈ reqMiss, ∀ o ∈ e.2, ∀ p ∈ o.vec, p.type.sys = e.1 := by decide
example : ∃ r, setReadMap obst reqMiss false = .ok ([], r) := C38_missing_refused obst reqMiss reqMiss_misses.1 reqMiss_misses.2.1
example : ∃ m, setReadMap obst reqMiss true = .ok (m, keptRequests obst reqMiss) ∧ MapFor obst (keptRequests obst reqMiss) m :=
  C38_skip_missing obst reqMiss reqMiss_misses.1 reqMiss_misses.2.2
example : keptRequests obst reqMiss = [(.gps, [⟨[⟨gps C1C, 1⟩]⟩, ⟨[⟨gps L1C, 1⟩]⟩])] := by rfl
/-- A Galileo observable under GPS is refused. -/
example : ∃ r, setReadMap obst [(.gps, [⟨[⟨⟨.galileo, C1C⟩, 1⟩]⟩])] true = .ok ([], r) :=
  C38_wrong_system_refused obst _ true (by decide) ⟨(.gps, [⟨[⟨⟨.galileo, C1C⟩, 1⟩]⟩]), by simp, ⟨[⟨⟨.galileo, C1C⟩, 1⟩]⟩, by simp, _, _, rfl, by decide⟩

/-- The columns of observation `i` show the field `f`. -/
theorem shows {l : List Char} {i : Nat} {f : ObsField} (hf : f.WF) (ht : fieldText l i = f.text) (hl : 3 + 16 * i + 16 ≤ l.length)
    (hb : l[3 + 16 * i + 14]? = some ' ') (hm : f.num.value ≠ missingMark) : PlainReading l i (some f.num.value) :=
  ⟨.value f hf ht, fun _ => ⟨hl, hb, by simpa using hm⟩⟩

theorem nothing {l : List Char} {i : Nat} (h : ∀ c ∈ (fieldText l i).take 14, c = ' ') : PlainReading l i none :=
  ⟨.missing h, fun h => absurd rfl h⟩

/-- A number without a minus sign is not the marker. -/
theorem not_marker {n : Numeral} (hn : n.Shape) (hs : n.sign = none) (he : n.exp = none) : n.value ≠ missingMark := by
  have : 0 ≤ n.value := by
    unfold Numeral.value
    rw [hs, digVal_eq _ hn.ip, digVal_eq _ hn.frac]
    have : n.expVal = 0 := by simp [Numeral.expVal, he]
    rw [this]
    simp only [signVal]
    positivity
  unfold missingMark
  intro h
  rw [h] at this
  norm_num at this

def gC1 : ObsField := ⟨⟨2, none, c!"20532121", some c!"416", none⟩, ' ', '7'⟩
def gL1 : ObsField := ⟨⟨1, none, c!"107896543", some c!"123", none⟩, ' ', '7'⟩
def gC2 : ObsField := ⟨⟨2, none, c!"20532119", some c!"250", none⟩, ' ', '5'⟩
def hC1 : ObsField := ⟨⟨2, none, c!"23456789", some c!"012", none⟩, ' ', '4'⟩
def hL1 : ObsField := ⟨⟨1, none, c!"123265432", some c!"100", none⟩, ' ', ' '⟩

def lineG05 : List Char := c!"G05  20532121.416 7 107896543.123 7  20532119.250 5"
def lineE11 : List Char := c!"E11  25532121.416 7 137896543.12317"
def lineG12 : List Char := c!"G12  23456789.012 4 123265432.100  "

def outG05 : SatVals := ((.gps, 5), [gC1.num.value, gC1.num.value * (5 / 2) + gC2.num.value * (-3 / 2), gL1.num.value])
def outG12 : SatVals := ((.gps, 12), [hC1.num.value, missingMark, hL1.num.value])

theorem gC1_wf : gC1.WF := fieldWF (by decide)
theorem gL1_wf : gL1.WF := fieldWF (by decide)
theorem gC2_wf : gC2.WF := fieldWF (by decide)
theorem hC1_wf : hC1.WF := fieldWF (by decide)
theorem hL1_wf : hL1.WF := fieldWF (by decide)

theorem g0 : PlainReading lineG05 0 (some gC1.num.value) :=
  shows gC1_wf (by decide) (by decide) (by decide) (not_marker gC1_wf.num rfl rfl)
theorem g1 : PlainReading lineG05 1 (some gL1.num.value) :=
  shows gL1_wf (by decide) (by decide) (by decide) (not_marker gL1_wf.num rfl rfl)
theorem g2 : PlainReading lineG05 2 (some gC2.num.value) :=
  shows gC2_wf (by decide) (by decide) (by decide) (not_marker gC2_wf.num rfl rfl)
theorem h0 : PlainReading lineG12 0 (some hC1.num.value) :=
  shows hC1_wf (by decide) (by decide) (by decide) (not_marker hC1_wf.num rfl rfl)
theorem h1 : PlainReading lineG12 1 (some hL1.num.value) :=
  shows hL1_wf (by decide) (by decide) (by decide) (not_marker hL1_wf.num rfl rfl)
theorem h2 : PlainReading lineG12 2 none := nothing (by decide)

/-- The data lines give the two GPS satellites; C2W of the second one is missing, so is its combination. -/
theorem gives : EpochGives mmap [lineG05, lineE11, lineG12] [outG05, outG12] := by
  have c1 : outG05 = ((.gps, ((5 : Nat) : Int)), [[(some gC1.num.value, (1 : Rat))], [(some gC1.num.value, 5 / 2), (some gC2.num.value, -3 / 2)],
      [(some gL1.num.value, 1)]].map combination) := by
    simp [outG05, combination]
  have c2 : outG12 = ((.gps, ((12 : Nat) : Int)), [[(some hC1.num.value, (1 : Rat))], [(some hC1.num.value, 5 / 2), (none, -3 / 2)],
      [(some hL1.num.value, 1)]].map combination) := by
    simp [outG12, combination]
  rw [c1, c2]
  refine .sat .gps 5 _ _ rfl rfl (natCheck_sound (k := 0) (ds := c!"05") (by decide)) (by decide) (by decide) (by decide) ?_ ?_ ?_
  · exact .cons (.cons ⟨g0, rfl⟩ .nil) (.cons (.cons ⟨g0, rfl⟩ (.cons ⟨g2, rfl⟩ .nil)) (.cons (.cons ⟨g1, rfl⟩ .nil) .nil))
  · intro xs hxs
    simp only [List.mem_cons, List.not_mem_nil, or_false] at hxs
    rcases hxs with rfl | rfl | rfl <;> simp
  refine .skip .galileo rfl rfl ?_
  refine .sat .gps 12 _ _ rfl rfl (natCheck_sound (k := 0) (ds := c!"12") (by decide)) (by decide) (by decide) (by decide) ?_ ?_ .nil
  · exact .cons (.cons ⟨h0, rfl⟩ .nil) (.cons (.cons ⟨h0, rfl⟩ (.cons ⟨h2, rfl⟩ .nil)) (.cons (.cons ⟨h1, rfl⟩ .nil) .nil))
  · intro xs hxs
    simp only [List.mem_cons, List.not_mem_nil, or_false] at hxs
    rcases hxs with rfl | rfl | rfl <;> simp

def secNum : Numeral := ⟨1, none, c!"0", some c!"0000000", none⟩
/-- `> 2019 01 01 00 30  0.0000000  0  3` -/
def head : EpochText := ⟨c!"2019", c!"01", c!"01", c!"00", c!"30", secNum.text, '0', c!"  3", []⟩

example : head.line = c!"> 2019 01 01 00 30  0.0000000  0  3" := by decide

theorem secNum_wf : secNum.WF := numeral_wf_of (by decide) (by decide) (Or.inl (by decide)) (by intro s ds h; cases h) (by decide) (by decide) (by intro s ds h; cases h)

theorem secNum_value : secNum.value = 0 := by
  simp only [Numeral.value, secNum, signVal, Numeral.fracDigits, Option.getD_some, Numeral.expVal]
  rw [digVal_eq _ (by decide), digVal_eq _ (by decide), show Nat.ofDigitChars 10 c!"0" 0 = 0 by decide,
    show Nat.ofDigitChars 10 c!"0000000" 0 = 0 by decide]
  norm_num

theorem cols {w v k : Nat} {txt ds : List Char} (h : (decide (txt.length = w) && decide (txt = List.replicate k ' ' ++ ds) && decide (allDigits ds) &&
    !ds.isEmpty && decide (Nat.ofDigitChars 10 ds 0 = v)) = true) : IntCols w txt v := by
  simp only [Bool.and_eq_true, decide_eq_true_eq] at h
  obtain ⟨⟨⟨⟨h1, h2⟩, h3⟩, h4⟩, h5⟩ := h
  exact ⟨h1, k, ds, h2, h3, by simpa using h4, h5⟩

theorem head_says : head.Says 2019 1 1 0 30 0 0 3 none where
  year := cols (k := 0) (ds := c!"2019") (by decide)
  month := cols (k := 0) (ds := c!"01") (by decide)
  day := cols (k := 0) (ds := c!"01") (by decide)
  hour := cols (k := 0) (ds := c!"00") (by decide)
  min := cols (k := 0) (ds := c!"30") (by decide)
  seconds := ⟨secNum, secNum_wf, rfl, by decide, secNum_value⟩
  flagDigit := by decide
  flagIs := by decide
  nsatIs := cols (k := 2) (ds := c!"3") (by decide)
  tailBlank := by intro c h; cases h
  clockIs := .absent (by decide)
  cstr := by decide

/-- The calendar, as far as the example needs it. -/
def mjdOf (y m d : Int) : Res Int := if y = 2019 ∧ m = 1 ∧ d = 1 then .ok 58484 else .throw .invalid_argument

example (tail : List Char) : resolveEpoch mjdOf (head.line ++ NUL :: tail) 0 = .ok (.inr ⟨58484, 1800, 0, 3, none⟩) := by
  rw [C43_header head_says (mjd := 58484) rfl tail]
  congr 3
  norm_num

def block : ObsEpochBlock := ⟨head, [lineG05, lineE11, lineG12]⟩
def hd : EpochHead := ⟨58484, 1800, 0, 3, none⟩

/-- The buffer of the object for this header. -/
def buf : List Char := List.replicate (obsBufSize obst) NUL

theorem block_says : BlockSays mjdOf mmap buf.length block hd [outG05, outG12] where
  head := ⟨2019, 1, 1, 0, 30, 0, 3, 0, head_says, rfl, by simp [hd]; norm_num, rfl, rfl, rfl⟩
  gives := gives
  fit := ⟨by decide, by decide⟩

/-- C57 and C42 apply: the epoch is read into the vector made by `initialize_epoch_vector`. -/
theorem epoch_read (raw0 : RawRnxObs) (t : List Char) :
    ∃ ov' buf', readNextEpoch mjdOf raw0 mmap (initEpochVector mmap) buf ⟨block.text ++ t, 0, false, false⟩ 0 =
      .ok ⟨0, 2, some hd, ov', buf', Stream.past ⟨block.text ++ t, 0, false, false⟩ (head.line :: block.lines), 0⟩ ∧
      Holds (initEpochVector mmap) ov' [outG05, outG12] ∧ buf'.length = buf.length :=
  C57_epoch_partial raw0 block_says (by decide) (s := ⟨block.text ++ t, 0, false, false⟩) rfl rfl (by rw [(C42_initial mmap).1]; decide)
    (C42_initial mmap).2.1

/-- C58 applies: a file with the epoch twice, read five times. -/
theorem epochs_read (raw0 : RawRnxObs) :
    ∃ rs ov' s', obsReadEpochs mjdOf raw0 mmap 5 (initEpochVector mmap) buf ⟨block.text ++ block.text, 0, false, false⟩ 0 =
      .ok (rs ++ List.replicate 3 (-1, 0, none, ov'), s') ∧
      EpochResults (initEpochVector mmap) [(hd, [outG05, outG12]), (hd, [outG05, outG12])] rs ov' ∧ s'.good = true ∧ s'.rest = [] ∧
      s'.content = block.text ++ block.text := by
  apply C58_sequence_partial raw0 3 [block, block] [(hd, [outG05, outG12]), (hd, [outG05, outG12])]
  · exact .cons block_says (.cons block_says .nil)
  · decide
  · rfl
  · simp [Stream.rest]
  · intro x hx
    rw [(C42_initial mmap).1]
    simp at hx
    rw [hx]; decide
  · exact (C42_initial mmap).2.1

/-- C39, the disagreement: asking for the combination of C2W and C1C (in this order) of G12, whose C2W is
missing, gives -999.99 plus the C1C part. -/
example (raw0 : RawRnxObs) (b : List Char) : ∃ st, st ≤ 0 ∧ satEpochCollect raw0 (fillLine b lineG12) [[(2, -3 / 2), (0, 5 / 2)]] [0] 0 =
    .ok (st, (12 : Nat), [missingMark + hC1.num.value * (5 / 2)], 0) :=
  C39_value_after_missing (by decide) (natCheck_sound (k := 0) (ds := c!"12") (by decide)) (by decide) (by decide) (by decide) h2 h0 0 b raw0

/-- C39, shortened line: the second value of this line is there, but reported missing. -/
example (raw0 : RawRnxObs) (b : List Char) : ∃ st, st ≤ 0 ∧ satEpochCollect raw0 (fillLine b c!"G12  23456789.012 4 123265432.100") [[(1, 1)]] [0] 0 =
    .ok (st, (12 : Nat), [missingMark], 0) :=
  C39_shortened_field (by decide) (natCheck_sound (k := 0) (ds := c!"12") (by decide)) (by decide) (by decide) (by decide) (by decide) 0 b raw0
example : Reads c!"G12  23456789.012 4 123265432.100" 1 (some hL1.num.value) := .value hL1 hL1_wf (by decide)

/-- C43: a date that cannot be read. -/
example : resolveEpoch mjdOf (c!"> 2019 xx 01 00 30  0.0000000  0  3" ++ [NUL]) 0 = .ok (.inl (2, 0)) :=
  C43_date_unread (by decide) rfl (by decide) [(c!"2019", 2019)] (by intro p hp; simp at hp; subst hp; exact ⟨4, by decide, cols (k := 0) (ds := c!"2019") (by decide)⟩)
    (by decide) (t := c!"xx 01 00 30  0.0000000  0  3") ⟨0, none, c!"xx 01 00 30  0.0000000  0  3", rfl, by intro c h; simp at h; subst h; decide⟩ rfl []

/-- C57: the buffer of a file with one type per system. -/
example (raw0 : RawRnxObs) (m : ReadMap) (ov : List SatVals) : ∃ buf' s', readNextEpoch mjdOf raw0 m ov (List.replicate 20 NUL)
    ⟨head.line ++ '\n' :: [], 0, false, false⟩ 0 = .ok ⟨21, 0, none, ov, buf', s', 0⟩ ∧ s'.fail = true :=
  C57_small_buffer raw0 m [(.gps, [C1C]), (.galileo, [C1C])] (by decide) (by decide) (l := head.line) (by decide) (by decide) (by decide) rfl rfl 0

/-- C42: a slot for two values, three requested. -/
example (raw0 : RawRnxObs) (b : List Char) : satEpochCollect raw0 (fillLine b lineG05) [[(0, 1)], [(2, 1)], [(1, 1)]] [0, 0] 0 = .ub :=
  C42_slot_overflow (prn := 5) (by decide) (natCheck_sound (k := 0) (ds := c!"05") (by decide)) (by decide) (by decide) (by decide)
    (xss := [[(some gC1.num.value, 1)], [(some gC2.num.value, 1)], [(some gL1.num.value, 1)]])
    (.cons (PartsRead.got (.cons ⟨g0, rfl⟩ .nil)) (.cons (PartsRead.got (.cons ⟨g2, rfl⟩ .nil)) (.cons (PartsRead.got (.cons ⟨g1, rfl⟩ .nil)) .nil)))
    _ (by decide) b raw0

/-! ### Fields with an LLI digit, and a line cut behind its last value -/

/-- L1C with LLI 1 and SSI 9; C2W cut behind the value. -/
def lineG07 : List Char := c!"G07  20532121.416 7 107896543.12319  20532119.250"
def outG07 : SatVals := ((.gps, 7), [gC1.num.value, missingMark, exField2.num.value + 19 / 100000])

theorem exField2_spill : exField2.readValue = exField2.num.value + 19 / 100000 := by
  have h1 : exField2.num.sign = none := rfl
  have h2 : exField2.lli = '1' := rfl
  have h3 : exField2.ssi = '9' := rfl
  have h4 : exField2.num.fracDigits.length = 3 := rfl
  unfold ObsField.readValue ObsField.spill
  rw [h1, h2, h3, h4, if_neg (by decide), if_neg (by decide), show flagNum '1' = 1 from rfl, show flagNum '9' = 9 from rfl]
  simp only [signVal]
  norm_num

theorem exField2_not_marker : exField2.readValue ≠ missingMark := by
  have : 0 ≤ exField2.num.value := by
    unfold Numeral.value
    rw [digVal_eq _ exField2_wf.num.ip, digVal_eq _ exField2_wf.num.frac, show exField2.num.sign = none from rfl,
      show exField2.num.expVal = 0 from rfl]
    simp only [signVal]
    positivity
  rw [exField2_spill]
  unfold missingMark
  intro h
  linarith

/-- What the code makes of it: the phase is off by 0.00019, the value of C2W is lost. -/
theorem got07 : EpochGot mmap [lineG07, lineE11] [outG07] := by
  have f0 : ∃ d, 0 ≤ d ∧ Got lineG07 0 (some gC1.num.value) d := (shows gC1_wf (by decide) (by decide) (by decide) (not_marker gC1_wf.num rfl rfl)).got
  have f1 : ∃ d, 0 ≤ d ∧ Got lineG07 1 (some (exField2.num.value + 19 / 100000)) d :=
    ⟨0, le_refl _, by rw [← exField2_spill]; exact .value exField2 exField2_wf (by decide) exField2_not_marker⟩
  have f2 : ∃ d, 0 ≤ d ∧ Got lineG07 2 none d := ⟨0, le_refl _, .short (by decide)⟩
  have c1 : outG07 = ((.gps, ((7 : Nat) : Int)), [[(some gC1.num.value, (1 : Rat))], [(some gC1.num.value, 5 / 2), (none, -3 / 2)],
      [(some (exField2.num.value + 19 / 100000), 1)]].map (codeSum · 0)) := by
    simp [outG07, codeSum]
  rw [c1]
  refine .sat .gps 7 _ _ rfl rfl (natCheck_sound (k := 0) (ds := c!"07") (by decide)) (by decide) (by decide) (by decide) ?_ (.skip .galileo rfl rfl .nil)
  exact .cons (.cons ⟨f0, rfl⟩ .nil) (.cons (.cons ⟨f0, rfl⟩ (.cons ⟨f2, rfl⟩ .nil)) (.cons (.cons ⟨f1, rfl⟩ .nil) .nil))

def head07 : EpochText := { head with nsat := c!"  2" }
def block07 : ObsEpochBlock := ⟨head07, [lineG07, lineE11]⟩

theorem block07_sees : BlockSees mjdOf mmap buf.length block07 ⟨58484, 1800, 0, 2, none⟩ [outG07] where
  head := ⟨2019, 1, 1, 0, 30, 0, 2, 0, { head_says with nsatIs := cols (k := 2) (ds := c!"2") (by decide) }, rfl, by simp; norm_num, rfl, rfl, rfl⟩
  gives := got07
  fit := ⟨by decide, by decide⟩

/-- `C57_exact` and `C58_exact` apply. -/
example (raw0 : RawRnxObs) (t : List Char) :
    ∃ ov' buf', readNextEpoch mjdOf raw0 mmap (initEpochVector mmap) buf ⟨block07.text ++ t, 0, false, false⟩ 0 =
      .ok ⟨0, 1, some ⟨58484, 1800, 0, 2, none⟩, ov', buf', Stream.past ⟨block07.text ++ t, 0, false, false⟩ (head07.line :: block07.lines), 0⟩ ∧
      Holds (initEpochVector mmap) ov' [outG07] ∧ buf'.length = buf.length :=
  C57_exact raw0 block07_sees (by decide) (s := ⟨block07.text ++ t, 0, false, false⟩) rfl rfl (by rw [(C42_initial mmap).1]; decide)
    (C42_initial mmap).2.1

example (raw0 : RawRnxObs) :
    ∃ rs ov' s', obsReadEpochs mjdOf raw0 mmap 3 (initEpochVector mmap) buf ⟨block07.text ++ block.text, 0, false, false⟩ 0 =
      .ok (rs ++ List.replicate 1 (-1, 0, none, ov'), s') ∧
      EpochResults (initEpochVector mmap) [(⟨58484, 1800, 0, 2, none⟩, [outG07]), (hd, [outG05, outG12])] rs ov' ∧ s'.good = true ∧ s'.rest = [] ∧
      s'.content = block07.text ++ block.text := by
  apply C58_exact raw0 1 [block07, block] [(⟨58484, 1800, 0, 2, none⟩, [outG07]), (hd, [outG05, outG12])]
  · exact .cons block07_sees (.cons block_says.sees .nil)
  · decide
  · rfl
  · simp [Stream.rest]
  · intro x hx
    rw [(C42_initial mmap).1]
    simp at hx
    rcases hx with rfl | rfl <;> decide
  · exact (C42_initial mmap).2.1

/-- `C39_near` applies: C1C and L1C of G07. -/
example : ∃ xs, GotAll lineG07 [(0, 2), (1, -1)] xs ∧
    |codeSum xs 0 - (List.zipWith (fun y (pr : Nat × Rat) => y * pr.2) [gC1.num.value, exField2.num.value] [(0, 2), (1, -1)]).sum| ≤
      (([(0, 2), (1, -1)] : IdPairs).map (fun pr => |pr.2|)).sum / 1000 := by
  apply C39_near
  refine .cons ⟨gC1, gC1_wf, by decide, by decide, rfl, ?_, rfl⟩ (.cons ⟨exField2, exField2_wf, by decide, by decide, rfl, exField2_not_marker, rfl⟩ .nil)
  have : gC1.readValue = gC1.num.value := by
    unfold ObsField.readValue ObsField.spill
    rw [if_pos (show gC1.lli = ' ' from rfl)]; simp
  rw [this]
  exact not_marker gC1_wf.num rfl rfl

/-- `C57_lines_total` applies to these lines: the cut field still has a meaning. -/
example : DataLine mmap lineG07 where
  named := ⟨.gps, rfl⟩
  number := ⟨7, natCheck_sound (k := 0) (ds := c!"07") (by decide), by decide, by decide⟩
  len := by decide
  fields := by
    intro sys sysobs h1 h2
    have r0 : Reads lineG07 0 (some gC1.num.value) := .value gC1 gC1_wf (by decide)
    have r1 : Reads lineG07 1 (some exField2.num.value) := .value exField2 exField2_wf (by decide)
    have r2 : Reads lineG07 2 (some (⟨⟨2, none, c!"20532119", some c!"250", none⟩, ' ', ' '⟩ : ObsField).num.value) :=
      .value ⟨⟨2, none, c!"20532119", some c!"250", none⟩, ' ', ' '⟩ (fieldWF (by decide)) (by decide)
    have hm := lookup_mem h2
    simp only [mmap, List.mem_singleton, Prod.mk.injEq] at hm
    obtain ⟨_, rfl⟩ := hm
    intro prs hp pr hpr
    simp only [List.mem_cons, List.not_mem_nil, or_false] at hp
    rcases hp with rfl | rfl | rfl <;> simp only [List.mem_cons, List.not_mem_nil, or_false] at hpr
    · subst hpr; exact ⟨_, r0⟩
    · rcases hpr with rfl | rfl
      · exact ⟨_, r0⟩
      · exact ⟨_, r2⟩
    · subst hpr; exact ⟨_, r1⟩

/-- Numbers that do not fit or are none: the hypotheses of the theorems of `ObsRange` are met. -/
example (o : RawRnxObs) : ∃ v, rawResolve (c!"         1E999  " ++ [NUL]) o 0 = .ok (1, v, 0) :=
  ⟨_, C40_range_refused (n := hugeNum 9) (rest := c!"  ") (by decide) (hugeNum_bad 9).1 (by decide) (by intro c hc; cases hc; decide) (hugeNum_bad 9).2 (by decide) o⟩

/-- A header with an unreadable clock. -/
def headClock (t : List Char) : EpochText := { head with tail := c!"      " ++ t }

example : resolveEpoch mjdOf ((headClock c!"       1E999").line ++ [NUL]) 0 = .ok (.inl (5, 0)) :=
  C43_clock_range (e := headClock c!"       1E999") head_says (mjd := 58484) rfl [] (by decide) (by decide) (by decide) (hugeNum_bad 7).1 (rest := [])
    (by decide) (by intro c hc; cases hc) (hugeNum_bad 7).2

example : resolveEpoch mjdOf ((headClock c!"   ??.?").line ++ [NUL]) 0 = .ok (.inr ⟨58484, (0 : Rat) * 3600 + 30 * 60 + 0, 0, 3, some 0⟩) :=
  C43_clock_unread (e := headClock c!"   ??.?") head_says (mjd := 58484) rfl [] (k := 3) (x := '?') (rest := c!"?.?") (by decide) (by decide)
    (by decide) (by decide) (by decide) (by decide)

example : resolveEpoch mjdOf (c!"> 2019 01 01 00 30     1E999  0  3" ++ c!" " ++ [NUL]) 0 = .ok (.inl (3, 0)) :=
  C43_seconds_range (l := c!"> 2019 01 01 00 30     1E999  0  3" ++ c!" ") (rest := c!"  0  3 ") (by decide) (by decide) (by decide) head_says.year head_says.month
    head_says.day head_says.hour head_says.min (hugeNum_bad 4).1 (by intro c hc; cases hc; decide) (hugeNum_bad 4).2 (by decide) (mjd := 58484) rfl []

example : resolveEpoch mjdOf (c!"> 2019 99999999999999999999 00 30     1.0000  0  3" ++ [NUL]) 0 = .ok (.inl (2, 0)) :=
  C43_date_range (l := c!"> 2019 99999999999999999999 00 30     1.0000  0  3") (by decide) (by decide) (by decide) [(c!"2019", 2019)]
    (by simp only [List.mem_singleton, forall_eq]; exact ⟨4, by decide, head_says.year⟩) (by decide)
    (t := c!"99999999999999999999 00 30     1.0000  0  3") ⟨0, [], c!"99999999999999999999", c!" 00 30     1.0000  0  3", by decide, Or.inl rfl, by decide, by decide, by decide⟩ (by decide) []

end Ggnss.ObsEx
