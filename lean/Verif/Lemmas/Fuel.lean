import Verif.Model.PpProg
import Verif.Model.Sp3
/-!
# The bounds of the loops are not part of the results

Loops that the code does not bound run in the model for `fuel` rounds and give `.diverge` when these do not suffice.  Here: more fuel
changes nothing else.  So "`.diverge` for every fuel" means that the loop does not end, and any other result is *the* result, whatever the fuel.
-/
namespace Ggnss

/-- `y` is `x`, or `x` ran out of fuel. -/
def Res.Le {α : Type} (x y : Res α) : Prop := x = .diverge ∨ x = y

namespace Res.Le

theorem refl {α : Type} (x : Res α) : Res.Le x x := Or.inr rfl
theorem diverge {α : Type} (x : Res α) : Res.Le .diverge x := Or.inl rfl

theorem bind {α β : Type} {x y : Res α} {f g : α → Res β} (h : Res.Le x y) (hf : ∀ a, Res.Le (f a) (g a)) : Res.Le (x >>= f) (y >>= g) := by
  rcases h with rfl | rfl
  · exact Or.inl rfl
  · cases x with
    | ok a => exact hf a
    | _ => exact Or.inr rfl

theorem noexcept {α : Type} {x y : Res α} (h : Res.Le x y) : Res.Le (Res.noexcept x) (Res.noexcept y) := by
  rcases h with rfl | rfl
  · exact Or.inl rfl
  · exact Or.inr rfl

theorem ite {α : Type} {p : Prop} [Decidable p] {x y x' y' : Res α} (h : Res.Le x x') (h' : Res.Le y y') :
    Res.Le (if p then x else y) (if p then x' else y') := by
  split
  · exact h
  · exact h'

theorem eq {α : Type} {x y : Res α} (h : Res.Le x y) (hx : x ≠ .diverge) : y = x := by
  rcases h with h | h
  · exact absurd h hx
  · exact h.symm

end Res.Le

/-! ### The loops -/

theorem findLoop_le (strptime : List Char → Res DateTime) (junk : Nat → List Char) (accept : NavFrame → Res (Option Int)) (sys : SatSys) {m : Nat} :
    ∀ {n : Nat}, n ≤ m → ∀ (f : NavFrame) (s : Stream) (errno : Int),
      Res.Le (findLoop strptime junk accept sys n f s errno) (findLoop strptime junk accept sys m f s errno) := by
  induction m with
  | zero => intro n h f s errno; obtain rfl : n = 0 := by omega
            exact .refl _
  | succ m ih =>
    intro n h f s errno
    cases n with
    | zero => exact .diverge _
    | succ n =>
      have ih := @ih n (by omega)
      rw [findLoop, findLoop]
      dsimp only
      refine .ite (.refl _) (.ite (.bind (.refl _) fun o => .ite (.refl _) (.bind (.refl _) fun a => ?_)) (.ite (.refl _) (ih _ _ _)))
      cases a with
      | some st => exact .refl _
      | none => exact ih _ _ _

theorem sp3Loop_le (t : Sp3Epoch) (sr : Int) {m : Nat} : ∀ {n : Nat}, n ≤ m → ∀ (buf : List Char) (vec : List Sp3Rec) (k : Nat) (s : Stream) (errno : Int),
      Res.Le (sp3Loop t sr n buf vec k s errno) (sp3Loop t sr m buf vec k s errno) := by
  induction m with
  | zero => intro n h buf vec k s errno; obtain rfl : n = 0 := by omega
            exact .refl _
  | succ m ih =>
    intro n h buf vec k s errno
    cases n with
    | zero => exact .diverge _
    | succ n =>
      have ih := @ih n (by omega)
      rw [sp3Loop, sp3Loop]
      dsimp only
      refine .ite (.refl _) ?_
      cases sp3Line (fillLine buf (s.peek.2.getline MAX_RECORD_CHARS).1) vec k errno with
      | ok r =>
        rcases r with ⟨v, k', e⟩ | ⟨st, e⟩
        · exact ih _ _ _ _ _
        · exact .refl _
      | _ => exact .refl _

theorem atxMatchLoop_le (J : AtxJunk) (a : List Char) {m : Nat} : ∀ {n : Nat}, n ≤ m → ∀ (cur best : List Char) (bp : Option Nat) (st : Option Int) (s : Stream),
      Res.Le (atxMatchLoop J a n cur best bp st s) (atxMatchLoop J a m cur best bp st s) := by
  induction m with
  | zero => intro n h cur best bp st s; obtain rfl : n = 0 := by omega
            exact .refl _
  | succ m ih =>
    intro n h cur best bp st s
    cases n with
    | zero => exact .diverge _
    | succ n =>
      have ih := @ih n (by omega)
      rw [atxMatchLoop, atxMatchLoop]
      refine .bind (.refl _) fun r => .ite (.refl _) (.bind (.refl _) fun same => .ite (.refl _) (.bind (.refl _) fun cm => .bind (.refl _) fun hs => ?_))
      exact .bind (.refl _) fun k => .ite (.refl _) (ih _ _ _ _ _)

theorem ctiLoop_le (strptime : List Char → Res DateTime) (eph : DateTime) {m : Nat} : ∀ {n : Nat}, n ≤ m → ∀ (buf : List Char) (a b : Option DateTime) (s : Stream),
      Res.Le (ctiLoop strptime eph n buf a b s) (ctiLoop strptime eph m buf a b s) := by
  induction m with
  | zero => intro n h buf a b s; obtain rfl : n = 0 := by omega
            exact .refl _
  | succ m ih =>
    intro n h buf a b s
    cases n with
    | zero => exact .diverge _
    | succ n =>
      have ih := @ih n (by omega)
      rw [ctiLoop, ctiLoop]
      refine .bind (.refl _) fun r => ?_
      rcases r with ⟨a', b'⟩ | st
      · exact .ite (.refl _) (.bind (.refl _) fun e => .ite (.refl _) (ih _ _ _ _))
      · exact .refl _

theorem checkTimeInterval_le (strptime : List Char → Res DateTime) (J : AtxJunk) (eph : DateTime) {n m : Nat} (h : n ≤ m) (s : Stream) :
    Res.Le (checkTimeInterval strptime J n eph s) (checkTimeInterval strptime J m eph s) :=
  .noexcept (.bind (.refl _) fun _ => .ite (.refl _) (ctiLoop_le strptime eph h _ _ _ _))

theorem atxSatTest_le (strptime : List Char → Res DateTime) (J : AtxJunk) (prn : Int) (ss : SatSys) (eph : DateTime) {n m : Nat} (h : n ≤ m)
    (c : List Char) (sat : AtxSat) (s : Stream) : Res.Le (atxSatTest strptime J n prn ss eph c sat s) (atxSatTest strptime J m prn ss eph c sat s) :=
  .bind (.refl _) fun _ => .ite (.bind (checkTimeInterval_le strptime J eph h s) fun _ => .refl _) (.refl _)

theorem atxSatLoop_le (strptime : List Char → Res DateTime) (J : AtxJunk) (prn : Int) (ss : SatSys) (eph : DateTime) {m : Nat} : ∀ {n : Nat}, n ≤ m →
    ∀ (cur c : List Char) (sat : AtxSat) (pos : Option Nat) (st : Option Int) (s : Stream),
      Res.Le (atxSatLoop strptime J prn ss eph n cur c sat pos st s) (atxSatLoop strptime J prn ss eph m cur c sat pos st s) := by
  induction m with
  | zero => intro n h cur c sat pos st s; obtain rfl : n = 0 := by omega
            exact .refl _
  | succ m ih =>
    intro n h cur c sat pos st s
    cases n with
    | zero => exact .diverge _
    | succ n =>
      have ih := @ih n (by omega)
      rw [atxSatLoop, atxSatLoop]
      refine .bind (.refl _) fun r => .ite (.refl _) (.bind (atxSatTest_le strptime J prn ss eph (by omega) _ _ _) fun t => .ite (.refl _) ?_)
      exact .bind (.refl _) fun k => .ite (.refl _) (ih _ _ _ _ _ _)

theorem atxScanTo_le (w : Nat) (pat : List Char) {m : Nat} : ∀ {n : Nat}, n ≤ m → ∀ (buf : List Char) (s : Stream),
      Res.Le (atxScanTo w pat n buf s) (atxScanTo w pat m buf s) := by
  induction m with
  | zero => intro n h buf s; obtain rfl : n = 0 := by omega
            exact .refl _
  | succ m ih =>
    intro n h buf s
    cases n with
    | zero => exact .diverge _
    | succ n =>
      rw [atxScanTo, atxScanTo]
      exact .ite (.refl _) (.bind (.refl _) fun e => .ite (.refl _) (ih (by omega) _ _))

theorem pcoAtFreq_le {n m : Nat} (h : n ≤ m) (hl gl : List Char) (s : Stream) : Res.Le (pcoAtFreq n hl gl s) (pcoAtFreq m hl gl s) :=
  .bind (.refl _) fun _ => .ite (.refl _) (.bind (.refl _) fun _ => .ite (.bind (atxScanTo_le _ _ h _ _) fun _ => .refl _) (.refl _))

theorem pcoLoop_le {n m : Nat} (h : n ≤ m) : ∀ (k : Nat) (hl gl : List Char) (list : List Pco) (s : Stream),
    Res.Le (pcoLoop n k hl gl list s) (pcoLoop m k hl gl list s)
  | 0, hl, gl, list, s => .refl _
  | k + 1, hl, gl, list, s => by
      rw [pcoLoop, pcoLoop]
      refine .bind (pcoAtFreq_le h _ _ _) fun r => ?_
      rcases r with ⟨hl, gl, s⟩ | ⟨st, s⟩
      · refine .bind (.refl _) fun r => ?_
        rcases r with _ | ⟨sys, bn⟩
        · exact .refl _
        · exact .bind (.refl _) fun r => .ite (.refl _) (.bind (.refl _) fun _ => .bind (.refl _) fun _ => .bind (.refl _) fun _ =>
            .bind (atxScanTo_le _ _ h _ _) fun e => pcoLoop_le h k _ _ _ _)
      · exact .refl _

theorem collectPco_le (J : AtxJunk) {n m : Nat} (h : n ≤ m) (list : List Pco) (s : Stream) : Res.Le (collectPco J n list s) (collectPco J m list s) := by
  refine .noexcept (.bind (.refl _) fun r => .ite (.refl _) (.bind (.refl _) fun r => .ite (.refl _) (.bind (.refl _) fun r => .ite (.refl _)
    (.bind (.refl _) fun r => .ite (.refl _) ?_))))
  cases stoi (r.2.1.take 6) with
  | ok nf => exact .bind (atxScanTo_le _ _ h _ _) fun e => pcoLoop_le h _ _ _ _ _
  | _ => exact .refl _

theorem gloLoop_le (acc : Fin 3 → ℝ) (hh tLim : ℝ) {m : Nat} : ∀ {n : Nat}, n ≤ m → ∀ (y : Fin 6 → ℝ) (ti : ℝ) (it : Nat),
      Res.Le (gloLoop acc hh tLim n y ti it) (gloLoop acc hh tLim m y ti it) := by
  induction m with
  | zero => intro n h y ti it; obtain rfl : n = 0 := by omega
            exact .refl _
  | succ m ih =>
    intro n h y ti it
    cases n with
    | zero => exact .diverge _
    | succ n =>
      have ih := @ih n (by omega)
      rw [gloLoop, gloLoop]
      exact .ite (.ite (ih _ _ _) (.refl _)) (.ite (.ite (ih _ _ _) (.refl _)) (.refl _))

theorem stateNclock_le (f : NavFrame) {n m : Nat} (h : n ≤ m) (t : Epoch) (o : StateClock) : Res.Le (stateNclock f n t o) (stateNclock f m t o) := by
  unfold stateNclock
  cases f.sys with
  | glonass =>
    refine .bind ?_ fun _ => .refl _
    unfold gloEcef
    exact .ite (.refl _) (.bind (gloLoop_le _ _ _ h _ _ _) fun _ => .refl _)
  | _ => exact .refl _

/-! ### The positioning program -/

theorem getValidMsg_le (strptime : List Char → Res DateTime) (junk : Nat → List Char) {n m : Nat} (h : n ≤ m) (e : Nat) (fresh : NavFrame)
    (sys : SatSys) (prn t : Int) (cache : List NavFrame) (s : Stream) (errno : Int) :
    Res.Le (getValidMsg strptime junk n e fresh sys prn t cache s errno) (getValidMsg strptime junk m e fresh sys prn t cache s errno) :=
  .bind (.refl _) fun _ => .ite (.refl _) (.bind (.bind (.noexcept (.bind (findLoop_le strptime junk _ _ h _ _ _) fun _ => .refl _)) fun _ => .refl _) fun _ => .refl _)

theorem getValidMsgs_le (strptime : List Char → Res DateTime) (junk : Nat → List Char) {n m : Nat} (h : n ≤ m) (e : Nat) (fresh : NavFrame) :
    ∀ (qs : List (SatSys × Int × Int)) (cache : List NavFrame) (s : Stream) (errno : Int),
    Res.Le (getValidMsgs strptime junk n e fresh qs cache s errno) (getValidMsgs strptime junk m e fresh qs cache s errno)
  | [], _, _, _ => .refl _
  | q :: qs, cache, s, errno =>
    .bind (getValidMsg_le strptime junk h e fresh _ _ _ _ _ _) fun _ => .bind (getValidMsgs_le strptime junk h e fresh qs _ _ _) fun _ => .refl _

/-- The same surroundings with other fuel. -/
def PpEnv.withFuel (E : PpEnv) (a b : Nat) : PpEnv := { E with navFuel := a, gloFuel := b }

theorem ppSat_le (E : PpEnv) {a b : Nat} (ha : E.navFuel ≤ a) (hb : E.gloFuel ≤ b) (t : Int) (ep : Epoch) (x : SatVals) (st : PpNav) (rows : List PpRow) :
    Res.Le (ppSat E t ep x st rows) (ppSat (E.withFuel a b) t ep x st rows) := by
  unfold ppSat
  cases x.2 with
  | nil => exact .refl _
  | cons v vs =>
    dsimp only
    refine .ite (.bind (getValidMsg_le _ _ ha _ _ _ _ _ _ _ _) fun o => .ite ?_ (.refl _)) (.refl _)
    cases o.cache[o.at_]? with
    | none => exact .refl _
    | some msg => exact .ite (.refl _) (.bind (stateNclock_le _ hb _ _) fun c => .refl _)

theorem ppSats_le (E : PpEnv) {a b : Nat} (ha : E.navFuel ≤ a) (hb : E.gloFuel ≤ b) (t : Int) (ep : Epoch) : ∀ (xs : List SatVals) (st : PpNav) (rows : List PpRow),
    Res.Le (ppSats E t ep xs st rows) (ppSats (E.withFuel a b) t ep xs st rows)
  | [], _, _ => .refl _
  | _ :: xs, _, _ => .bind (ppSat_le E ha hb t ep _ _ _) fun _ => ppSats_le E ha hb t ep xs _ _

theorem ppEpoch_le (E : PpEnv) {a b : Nat} (ha : E.navFuel ≤ a) (hb : E.gloFuel ≤ b) (m : PpMem) : Res.Le (ppEpoch E m) (ppEpoch (E.withFuel a b) m) := by
  refine .bind (.refl _) fun r => ?_
  cases timeAfter m.time r.head with
  | none => exact .refl _
  | some p => exact .bind (.refl _) fun ms => .ite (.bind (ppSats_le E ha hb _ _ _ _ _) fun _ => .refl _) (.refl _)

theorem ppLoop_le (E : PpEnv) {a b : Nat} (ha : E.navFuel ≤ a) (hb : E.gloFuel ≤ b) {m : Nat} : ∀ {n : Nat}, n ≤ m → ∀ v : PpMem,
    Res.Le (ppLoop E n v) (ppLoop (E.withFuel a b) m v) := by
  induction m with
  | zero => intro n h v; obtain rfl : n = 0 := by omega
            exact .refl _
  | succ m ih =>
    intro n h v
    cases n with
    | zero => exact .diverge _
    | succ n =>
      have ih := @ih n (by omega)
      rw [ppLoop, ppLoop]
      exact .bind (ppEpoch_le E ha hb v) fun r => .ite (.bind (ih _) fun _ => .refl _) (.refl _)

theorem ppMain_le (E : PpEnv) {a b : Nat} (ha : E.navFuel ≤ a) (hb : E.gloFuel ≤ b) (obst : ObsTypes) (req : ReqMap) {n m : Nat} (h : n ≤ m) (obs nav : Stream)
    (buf : List Char) (errno : Int) (s0 : Fin 6 → ℝ) (c0 : ℝ) (P0 : Matrix (Fin 5) (Fin 5) ℝ) :
    Res.Le (ppMain E obst req n obs nav buf errno s0 c0 P0) (ppMain (E.withFuel a b) obst req m obs nav buf errno s0 c0 P0) :=
  .bind (.refl _) fun r => .ite (.refl _) (.bind (ppLoop_le { E with mmap := r.1 } ha hb h _) fun _ => .refl _)

theorem atxFindSat_le (strptime : List Char → Res DateTime) (J : AtxJunk) (cospar : List Char) {n m : Nat} (h : n ≤ m) (f : AtxFile) (prn : Int) (ss : SatSys)
    (eph : DateTime) : Res.Le (atxFindSat strptime J cospar n f prn ss eph) (atxFindSat strptime J cospar m f prn ss eph) :=
  .noexcept (.bind (.refl _) fun _ => atxSatLoop_le strptime J prn ss eph h _ _ _ _ _ _)

theorem atxSatInfo_le (strptime : List Char → Res DateTime) (J : AtxJunk) (cospar : List Char) {n m : Nat} (h : n ≤ m) (f : AtxFile) (prn : Int) (ss : SatSys)
    (eph : DateTime) : Res.Le (atxSatInfo strptime J cospar n f prn ss eph) (atxSatInfo strptime J cospar m f prn ss eph) :=
  .bind (atxFindSat_le strptime J cospar h f prn ss eph) fun _ => .refl _

theorem ppAntex_le (W : PpWorld) {n' : Nat} (h : W.fuel ≤ n') (dt : DateTime) : ∀ (n : Nat) (i : Int) (f : AtxFile),
    Res.Le (ppAntex W dt n i f) (ppAntex { W with fuel := n' } dt n i f)
  | 0, _, _ => .refl _
  | n + 1, i, f => .bind (atxSatInfo_le _ _ _ h _ _ _ _) fun _ => .bind (ppAntex_le W h dt n _ _) fun _ => .refl _

theorem ppProgram_le (W : PpWorld) {n : Nat} (h : W.fuel ≤ n) (req : ReqMap) (argv : List (List Char)) :
    Res.Le (ppProgram W req argv) (ppProgram { W with fuel := n } req argv) := by
  unfold ppProgram
  refine .noexcept ?_
  match argv with
  | [] | [_] | [_, _] => exact .refl _
  | _ :: a1 :: a2 :: more =>
    refine .bind (.refl _) fun c1 => .bind (.refl _) fun o => .bind (.refl _) fun c2 => .bind (.refl _) fun nav => .bind ?_ fun sats => .bind ?_ fun r => .refl _
    · unfold ppSatList
      cases more.head? with
      | none => exact .refl _
      | some a => exact .bind (.refl _) fun c => .bind (.refl _) fun f => ppAntex_le W h _ _ _ _
    · unfold ppRest
      cases nav.endOfHead with
      | none => exact .refl _
      | some e => exact ppMain_le _ h h _ _ h _ _ _ _ _ _ _

/-! ### The functions of the interface -/

/-- More fuel does not change a result of the two searches of the navigation file ... -/
theorem fuel_findNext (strptime : List Char → Res DateTime) (junk : Nat → List Char) {n m : Nat} (h : n ≤ m) (sys : SatSys) (prn : Int) (f : NavFrame) (s : Stream)
    (errno : Int) (hx : findNext strptime junk n sys prn f s errno ≠ .diverge) :
    findNext strptime junk m sys prn f s errno = findNext strptime junk n sys prn f s errno :=
  Res.Le.eq (.bind (findLoop_le strptime junk _ _ h _ _ _) fun _ => .refl _) hx

theorem fuel_findNextValid (strptime : List Char → Res DateTime) (junk : Nat → List Char) {n m : Nat} (h : n ≤ m) (t : Int) (sys : SatSys) (prn : Int) (f : NavFrame)
    (s : Stream) (errno : Int) (hx : findNextValid strptime junk n t sys prn f s errno ≠ .diverge) :
    findNextValid strptime junk m t sys prn f s errno = findNextValid strptime junk n t sys prn f s errno :=
  Res.Le.eq (.noexcept (.bind (findLoop_le strptime junk _ _ h _ _ _) fun _ => .refl _)) hx

/-- ... of the SP3 epoch reader ... -/
theorem fuel_getNextEpoch (junk : List Char) {n m : Nat} (h : n ≤ m) (t : Sp3Epoch) (vec : List Sp3Rec) (sr : Int) (s : Stream) (errno : Int)
    (hx : getNextEpoch junk n t vec sr s errno ≠ .diverge) : getNextEpoch junk m t vec sr s errno = getNextEpoch junk n t vec sr s errno := by
  refine Res.Le.eq (.noexcept (.ite (.refl _) (.bind (.refl _) fun r => ?_))) hx
  cases r.1 with
  | error e => exact .refl _
  | ok t => exact sp3Loop_le _ _ h _ _ _ _ _

/-- ... of the queries of an ANTEX file ... -/
theorem fuel_pcoReceiver (J : AtxJunk) {n m : Nat} (h : n ≤ m) (f : AtxFile) (a : List Char) (must : Bool) (hx : atxPcoReceiver J n f a must ≠ .diverge) :
    atxPcoReceiver J m f a must = atxPcoReceiver J n f a must :=
  Res.Le.eq (.bind (.noexcept (.bind (.refl _) fun _ => atxMatchLoop_le J a h _ _ _ _ _)) fun _ => .ite (.refl _) (.ite (.refl _)
    (.bind (collectPco_le J h _ _) fun _ => .refl _))) hx

theorem fuel_pcoSatellite (strptime : List Char → Res DateTime) (J : AtxJunk) (cospar : List Char) {n m : Nat} (h : n ≤ m) (f : AtxFile) (prn : Int) (ss : SatSys)
    (eph : DateTime) (hx : atxPcoSatellite strptime J cospar n f prn ss eph ≠ .diverge) :
    atxPcoSatellite strptime J cospar m f prn ss eph = atxPcoSatellite strptime J cospar n f prn ss eph :=
  Res.Le.eq (.bind (atxFindSat_le strptime J cospar h f prn ss eph) fun _ => .ite (.refl _) (.bind (collectPco_le J h _ _) fun _ => .refl _)) hx

theorem fuel_satInfo (strptime : List Char → Res DateTime) (J : AtxJunk) (cospar : List Char) {n m : Nat} (h : n ≤ m) (f : AtxFile) (prn : Int) (ss : SatSys)
    (eph : DateTime) (hx : atxSatInfo strptime J cospar n f prn ss eph ≠ .diverge) :
    atxSatInfo strptime J cospar m f prn ss eph = atxSatInfo strptime J cospar n f prn ss eph :=
  Res.Le.eq (atxSatInfo_le strptime J cospar h f prn ss eph) hx

/-- ... of the orbit ... -/
theorem fuel_stateNclock (f : NavFrame) {n m : Nat} (h : n ≤ m) (t : Epoch) (o : StateClock) (hx : stateNclock f n t o ≠ .diverge) :
    stateNclock f m t o = stateNclock f n t o :=
  Res.Le.eq (stateNclock_le f h t o) hx

/-- ... and of the positioning program. -/
theorem fuel_ppProgram (W : PpWorld) {n : Nat} (h : W.fuel ≤ n) (req : ReqMap) (argv : List (List Char)) (hx : ppProgram W req argv ≠ .diverge) :
    ppProgram { W with fuel := n } req argv = ppProgram W req argv :=
  Res.Le.eq (ppProgram_le W h req argv) hx

end Ggnss
