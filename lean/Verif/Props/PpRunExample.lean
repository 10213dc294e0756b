import Verif.Props.PpLoop
import Verif.Props.PpExample
import Verif.Props.ObsExample
/-!
# A run of the positioning program that meets the hypotheses of C67 and C68

One epoch at the time of ephemeris of the GLONASS record of `NavExample`, five GLONASS satellites; only R01 has a message.
-/
namespace Ggnss.PpEx
open NavItem ObsEx

def obst : ObsTypes := [(.glonass, [C1C, L1C, C2W])]
def req : ReqMap := [(.glonass, [⟨[⟨⟨.glonass, C1C⟩, 1⟩]⟩])]
def mmap : ReadMap := [(.glonass, [[(0, 1)]])]
theorem map_ok : setReadMap obst req false = .ok (mmap, req) := by rfl

def line (n : Char) : List Char := c!"R0" ++ n :: c!"  20532121.416 7"
def head : EpochText := ⟨c!"2020", c!"01", c!"01", c!"00", c!"15", secNum.text, '0', c!"  5", []⟩
def block : ObsEpochBlock := ⟨head, [line '1', line '2', line '3', line '4', line '5']⟩
def val : Rat := gC1.num.value
def out : List SatVals := [((.glonass, 1), [val]), ((.glonass, 2), [val]), ((.glonass, 3), [val]), ((.glonass, 4), [val]), ((.glonass, 5), [val])]
def hd : EpochHead := ⟨58849, 900, 0, 5, none⟩
def mjdOf (y m d : Int) : Res Int := if y = 2020 ∧ m = 1 ∧ d = 1 then .ok 58849 else .throw .invalid_argument
def buf : List Char := List.replicate (obsBufSize obst) NUL

theorem head_says : head.Says 2020 1 1 0 15 0 0 5 none where
  year := cols (k := 0) (ds := c!"2020") (by decide)
  month := cols (k := 0) (ds := c!"01") (by decide)
  day := cols (k := 0) (ds := c!"01") (by decide)
  hour := cols (k := 0) (ds := c!"00") (by decide)
  min := cols (k := 0) (ds := c!"15") (by decide)
  seconds := ⟨secNum, secNum_wf, rfl, by decide, secNum_value⟩
  flagDigit := by decide
  flagIs := by decide
  nsatIs := cols (k := 2) (ds := c!"5") (by decide)
  tailBlank := by intro c h; cases h
  clockIs := .absent (by decide)
  cstr := by decide

theorem reads (n : Char) (h : n ∈ ['1', '2', '3', '4', '5']) : PlainReading (line n) 0 (some val) := by
  have hv := not_marker gC1_wf.num rfl rfl
  simp only [List.mem_cons, List.not_mem_nil, or_false] at h
  rcases h with rfl | rfl | rfl | rfl | rfl
  all_goals exact shows gC1_wf (by decide) (by decide) (by decide) hv

theorem gives : EpochGives mmap block.lines out := by
  have hc : [val] = [[(some val, (1 : Rat))]].map combination := by simp [combination]
  have step : ∀ (n : Char) (k : Nat) (ls : List (List Char)) (o : List SatVals), n ∈ ['1', '2', '3', '4', '5'] → NatAt (((line n).drop 1).take 2) 0 k →
      1 ≤ k → k ≤ 99 → EpochGives mmap ls o → EpochGives mmap (line n :: ls) (((.glonass, (k : Int)), [val]) :: o) := by
    intro n k ls o hn hk h1 h2 h
    rw [hc]
    exact .sat .glonass k [[(0, 1)]] [[(some val, 1)]] rfl rfl hk h1 h2 (by simp [line]) (.cons (.cons ⟨reads n hn, rfl⟩ .nil) .nil)
      (by intro xs hxs; simp at hxs; subst hxs; simp) h
  refine step '1' 1 _ _ (by simp) (natCheck_sound (k := 0) (ds := c!"01") (by decide)) (by decide) (by decide) ?_
  refine step '2' 2 _ _ (by simp) (natCheck_sound (k := 0) (ds := c!"02") (by decide)) (by decide) (by decide) ?_
  refine step '3' 3 _ _ (by simp) (natCheck_sound (k := 0) (ds := c!"03") (by decide)) (by decide) (by decide) ?_
  refine step '4' 4 _ _ (by simp) (natCheck_sound (k := 0) (ds := c!"04") (by decide)) (by decide) (by decide) ?_
  exact step '5' 5 _ _ (by simp) (natCheck_sound (k := 0) (ds := c!"05") (by decide)) (by decide) (by decide) .nil

theorem block_says : BlockSays mjdOf mmap buf.length block hd out where
  head := ⟨2020, 1, 1, 0, 15, 0, 5, 0, head_says, rfl, by simp [hd]; norm_num, rfl, rfl, rfl⟩
  gives := gives
  fit := ⟨by decide, by decide⟩

/-- 20000 km from the satellite, which is in the direction of the local vertical. -/
noncomputable def site : PpSite := ⟨-5000000, 15000000, 15000000, 0, 0, 100⟩

noncomputable def env (raw0 : RawRnxObs) (junk : Nat → List Char) : PpEnv :=
  ⟨NavExample.dateOf, junk, 10, 1000, 0, NavExample.frame, mjdOf, raw0, [], site⟩

def nav : Stream := ⟨fileText [NavExample.gloBad, NavExample.glo], 0, false, false⟩

theorem env_ok (raw0 : RawRnxObs) (junk : Nat → List Char) : NavEnv (env raw0 junk) [NavExample.gloBad, NavExample.glo] nav :=
  ⟨rfl, by simp [nav, Stream.rest], rfl, NavExample.two_ok, NavExample.two_chrono, by simp [env], by simp [env]⟩

theorem value_km : NavExample.km.value = 15000 := by
  norm_num [NavExample.km, Numeral.value, Numeral.digVal, Numeral.fracDigits, Numeral.expVal, signVal, Nat.ofDigitChars, NavExample.d0, NavExample.d1, NavExample.d5, show '4'.toNat = 52 from rfl]

theorem epoch_ms : epochMs 58849 900 = 1000 * 5084554500 := by
  have : ⌊(900 * 1000 : Rat)⌋ = 900000 := by norm_num
  unfold epochMs; rw [this]; decide

theorem broadcast {p : Fin 3 → ℝ} {clk : ℝ} (h : NavExample.glo.Broadcasts (1000 * 5084554500) p clk) : p 0 = 15000000 ∧ p 1 = 15000000 ∧ p 2 = 15000000 := by
  rcases h with ⟨_, toe, ht, hp, _⟩ | ⟨h, _⟩
  · have e : toe = 5084554500 := NavExample.glo_toe_unique NavExample.glo rfl ht (NavExample.glo_toe NavExample.glo rfl rfl rfl)
    subst e
    have z : secsSince (1000 * 5084554500) 5084554500 = 0 := by unfold secsSince; push_cast; ring
    rw [z] at hp
    simp only [abs_zero, zero_div, Nat.ceil_zero, Function.iterate_zero, id_eq] at hp
    have key : ∀ j, 1 ≤ j → j ≤ 3 → ((NavExample.glo.val j 0 : ℚ) : ℝ) = 15000000 := by
      intro j h1 h2
      have : NavExample.glo.val j 0 = 15000000 := by
        unfold NavItem.val
        obtain rfl | rfl | rfl : j = 1 ∨ j = 2 ∨ j = 3 := by omega
        all_goals
          simp [specUnit, NavExample.glo, NavExample.gloNum, value_km]
          norm_num
      rw [this]; norm_num
    refine ⟨?_, ?_, ?_⟩
    · rw [hp 0]; exact key 1 (by omega) (by omega)
    · rw [hp 1]; exact key 2 (by omega) (by omega)
    · rw [hp 2]; exact key 3 (by omega) (by omega)
  · exact absurd rfl h

theorem above {p : Fin 3 → ℝ} {clk z : ℝ} (h : NavExample.glo.Broadcasts (1000 * 5084554500) p clk) (hz : IsZenith site p z) : z = 0 := by
  obtain ⟨h0, h1, h2⟩ := broadcast h
  have hr : site.range p = 20000000 := by
    have e : (√((15000000 + 5000000) ^ 2) : ℝ) = 20000000 := by rw [Real.sqrt_sq] <;> norm_num
    simp [PpSite.range, h0, h1, h2, site, e]
  refine IsZenith.unique (by rw [hr]; norm_num) hz ⟨le_refl _, Real.pi_pos.le, ?_⟩
  rw [hr]
  simp [upAt, h0, h1, h2, site]
  norm_num

theorem only_glo {r : NavItem} (hr : r ∈ [NavExample.gloBad, NavExample.glo]) {t : Int} (hv : r.ValidAt t) : r = NavExample.glo := by
  simp only [List.mem_cons, List.not_mem_nil, or_false] at hr
  rcases hr with rfl | rfl
  · obtain ⟨h, _⟩ := hv
    have h' : NavExample.gloBad.IntAt 1 3 0 := h
    have := h'.1
    simp [NavItem.val, specUnit, NavExample.gloBad, NavExample.gloNum, NavExample.value_one] at this
  · rfl

theorem valid : NavExample.glo.ValidAt (1000 * 5084554500) := by
  refine ⟨?_, 900, rfl, ?_⟩
  · show NavExample.glo.IntAt 1 3 0
    refine ⟨?_, by decide, by decide⟩
    simp [NavItem.val, specUnit, NavExample.glo, NavExample.gloNum, NavExample.value_zero]
  · rw [if_pos (by rfl)]
    exact ⟨_, NavExample.glo_toe NavExample.glo rfl rfl rfl, by decide, by decide⟩

theorem epoch_ok : EpochOK [NavExample.gloBad, NavExample.glo] site ⟨58849, 900, out⟩ where
  sec0 := by norm_num
  sec1 := by norm_num
  values := by simp [out]
  handled := by simp [out, Handled]
  count := by simp [out]
  visible := by
    intro x _ _ r hr _ hv
    simp only [epoch_ms] at hv ⊢
    obtain rfl := only_glo hr hv
    refine ⟨fun h => absurd rfl h, ?_⟩
    intro p clk z hb hz
    rw [above hb hz]
    have := Real.pi_pos
    linarith

theorem val_there : 1 / 1000 < |val - missingMark| := by
  have h : 0 ≤ val := by
    unfold val Numeral.value
    rw [digVal_eq _ gC1_wf.num.ip, digVal_eq _ gC1_wf.num.frac]
    simp only [gC1, signVal, Numeral.expVal]
    positivity
  rw [abs_of_nonneg (by unfold missingMark; linarith)]
  unfold missingMark; linarith

/-- The rows of the epoch: R01 alone. -/
theorem rows_one {rows : List PpRow} (h : RowsOf [NavExample.gloBad, NavExample.glo] site (1000 * 5084554500) (firstValues out) rows) : rows.length = 1 := by
  have none : ∀ {k : Int} {xs : List ((SatSys × Int) × Rat)} {rows : List PpRow}, k ≠ 1 →
      RowsOf [NavExample.gloBad, NavExample.glo] site (1000 * 5084554500) (((.glonass, k), val) :: xs) rows →
      RowsOf [NavExample.gloBad, NavExample.glo] site (1000 * 5084554500) xs rows := by
    intro k xs rows hk h
    have hno : ∀ {p clk}, ¬ SatAt [NavExample.gloBad, NavExample.glo] (.glonass, k) (1000 * 5084554500) p clk := by
      rintro p clk ⟨r, hr, ho, hv, _⟩
      obtain rfl := only_glo hr hv
      exact hk ho.2.symm
    cases h with
    | missing h _ => exact absurd val_there (not_lt.2 h)
    | unknown _ _ h => exact h
    | low _ h => exact absurd h hno
    | used _ h => exact absurd h hno
  have hp := Real.pi_pos
  simp only [firstValues, out, List.map_cons, List.map_nil, List.headD_cons] at h
  cases h with
  | missing h _ => exact absurd val_there (not_lt.2 h)
  | unknown _ h _ => exact absurd ⟨NavExample.glo, by simp, ⟨rfl, rfl⟩, valid⟩ h
  | low _ h hz h80 _ =>
    exfalso
    obtain ⟨r, hr, _, hv, hb⟩ := h
    obtain rfl := only_glo hr hv
    rw [above hb hz] at h80
    unfold deg at h80
    linarith
  | used _ _ _ _ h =>
    have := none (by decide) (none (by decide) (none (by decide) (none (by decide) h)))
    cases this
    rfl

/-- The program reads the epoch, uses R01, updates the filter once and ends with -1. -/
example (raw0 : RawRnxObs) (junk : Nat → List Char) (st0 : Fin 6 → ℝ) (clk0 : ℝ) (P0 : Matrix (Fin 5) (Fin 5) ℝ) :
    ∃ u, ppMain (env raw0 junk) obst req 10 ⟨block.text, 0, false, false⟩ nav buf 0 st0 clk0 P0 = .ok (-1, [u]) ∧ u.n = 1 ∧ u.dt = 900 := by
  obtain ⟨mm, hm, hrun⟩ := C68_main_partial (env raw0 junk) obst req (by decide) (by decide) (by decide)
  have hmm : mm = mmap := by
    obtain ⟨m', e1, e2⟩ := C38_all_present obst req false (by decide) (by decide)
    have hcols : ∀ prs, ColumnsOf (codesOf obst .glonass) ⟨[⟨⟨.glonass, C1C⟩, 1⟩]⟩ prs → prs = [(0, 1)] := by
      intro prs h
      unfold ColumnsOf at h
      cases h with
      | cons h1 h2 =>
        cases h2
        rename_i pr
        obtain ⟨⟨h3, h4⟩, h5⟩ := h1
        obtain ⟨i, c⟩ := pr
        simp only at h3 h4 h5
        subst h5
        have : i = 0 := by
          by_contra hi
          exact h4 0 (by omega) (by decide)
        rw [this]
    unfold MapFor at hm
    have hf : req.filter (fun e => decide (e.2 ≠ [])) = req := by decide
    rw [hf] at hm
    unfold req at hm
    cases hm with
    | cons h1 h2 =>
      cases h2
      rename_i r
      obtain ⟨k, v⟩ := r
      obtain ⟨h3, h4⟩ := h1
      simp only at h3 h4
      subst h3
      cases h4 with
      | cons h5 h6 =>
        cases h6
        rw [hcols _ h5]; rfl
  subst hmm
  have hE : ∀ x ∈ [(hd, out)], EpochOK [NavExample.gloBad, NavExample.glo] (env raw0 junk).site ⟨x.1.mjd, x.1.sec, x.2⟩ := by
    intro x hx; simp only [List.mem_singleton] at hx; subst hx; exact epoch_ok
  rcases hrun (env_ok raw0 junk) (by norm_num [env, site]) block [] [(hd, out)] 10 ⟨block.text, 0, false, false⟩ buf st0 clk0 P0 (by decide) rfl
      (by simp [Stream.rest]) (.cons block_says.sees .nil) hE (by simp) with ⟨_, x, hx, _, h⟩ | ⟨us, h1, h2⟩
  · simp only [List.mem_singleton] at hx
    subst hx
    simp only [hd, epoch_ms] at h
    exact absurd (rows_one h) (by simp)
  · simp only [List.map_cons, List.map_nil] at h2
    cases h2 with
    | few h _ => simp [out] at h
    | update _ hr _ hu h =>
      cases h
      simp only [hd, epoch_ms] at hr
      refine ⟨_, h1, by rw [hu.count]; exact rows_one hr, ?_⟩
      rw [hu.dt]; simp [hd]

end Ggnss.PpEx
