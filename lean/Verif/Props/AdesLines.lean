import Mathlib.Data.List.GetD
import Verif.Model.AdesObs

/-!
# C86: the lines given out for an ADES observation
-/

namespace Verif.Props

open Verif Verif.Ades Verif.AdesObs

/-- A labelled value, if there is one. -/
def labelled (label : String) (s : List Nat) : List Nat := if s = [] then [] else bytes label ++ s

/-- Whether a byte can begin a text: neither a control character nor above 127. -/
abbrev Visible (b : Nat) : Prop := 32 ≤ b ∧ b < 128

/-- The uncertainties. -/
def sigmaLine (c : Ctx) : List (List Nat) :=
  if c.rmsRa = [] then [] else [bytes "COM Sigmas " ++ c.rmsRa ++
    (if c.rmsRa = c.rmsDec then [] else 120 :: c.rmsDec ++ (if MpcLine.atof c.corr = 0 then [] else 44 :: c.corr)) ++
    labelled " m:" c.rmsMag ++ labelled " t:" c.rmsTime]

/-- The identifiers of the observation and the tracklet. -/
def idLine (c : Ctx) : List (List Nat) :=
  if c.trkSub = [] ∧ c.obsId = [] ∧ c.trkId = [] then [] else
    [bytes "COM IDs" ++ labelled " trkSub:" c.trkSub ++ labelled " obsID:" c.obsId ++ labelled " trkID:" c.trkId]

/-- What does not fit in the columns: right ascension, declination, time. -/
def exactLine (c : Ctx) : List (List Nat) :=
  if c.fullRa = [] ∧ c.fullDec = [] ∧ c.t2k = none then [] else
    [bytes "COM RA/dec " ++ (if c.fullRa = [] then [45] else c.fullRa) ++ 32 :: (if c.fullDec = [] then [45] else c.fullDec) ++
      (c.t2k.elim [] fun x => 32 :: Time.fmtFixed 15 x)]

/-- A magnitude that does not fit in its columns. -/
def magLine (c : Ctx) : List (List Nat) := if c.fullMag = [] then [] else [bytes "COM full mag " ++ c.fullMag]

/-- Whether there is a band of several letters, notes or a programme code to be told. -/
abbrev HasTags (c : Ctx) : Prop := at? c.band 1 ≠ 0 ∨ (Visible (at? c.notes 0) ∧ at? c.notes 0 ≠ 32) ∨ Visible (at? c.prog 0)

/-- The band, notes and programme code. -/
def tagLine (c : Ctx) : List (List Nat) :=
  if HasTags c then [bytes "COM ADES tags" ++ (if at? c.band 1 = 0 then [] else bytes " band:" ++ c.band) ++
    (if Visible (at? c.notes 0) then bytes " notes:" ++ c.notes else []) ++
    (if Visible (at? c.prog 0) then bytes " progcode:" ++ c.prog else [])] else []

/-- The velocity of a spacecraft. -/
def velLine (c : Ctx) : List (List Nat) :=
  if c.vel = (0, 0, 0) then [] else
    let m : ℚ := if c.line2 32 = 50 then auPerDay else 1
    [bytes "COM vel (km/s) " ++ (text c.line 15).take 14 ++ [32, 32] ++ fixed7 true (c.vel.1 * m) ++ fixed7 false (c.vel.2.1 * m) ++
      fixed7 false (c.vel.2.2 * m) ++ 32 :: text c.line 77]

/-- The first 80-column line. -/
def firstCard (c : Ctx) : List (List Nat) := if c.line 0 = 0 then [] else [text c.line 0]

/-- Column by column, the second 80-column line: designation, time and station are those of the first; a centre other than the
    Earth in columns 70-77. -/
def secondCol (c : Ctx) (i : Nat) : Nat :=
  if c.line 0 = 0 then c.line2 i
  else if i < 12 ∨ (15 ≤ i ∧ i < 32) ∨ (77 ≤ i ∧ i < 80) then c.line i
  else if 69 ≤ i ∧ i < 77 ∧ c.center ≠ 399 then
    at? (List.replicate (8 - (decInt c.center).length) 32 ++ decInt c.center) (i - 69)
  else c.line2 i

/-- The second 80-column line. -/
def secondCard (c : Ctx) : List (List Nat) := if c.line2 0 = 0 then [] else [text (secondCol c) 0]

/-- All lines, in the order in which they are given out. -/
def report (c : Ctx) : List (List Nat) :=
  sigmaLine c ++ idLine c ++ exactLine c ++ magLine c ++ tagLine c ++ velLine c ++ firstCard c ++ secondCard c

/-- Nothing is left to be given out. -/
structure Drained (c : Ctx) : Prop where
  rmsRa : c.rmsRa = []
  trkSub : c.trkSub = []
  obsId : c.obsId = []
  trkId : c.trkId = []
  fullRa : c.fullRa = []
  fullDec : c.fullDec = []
  t2k : c.t2k = none
  fullMag : c.fullMag = []
  tags : ¬ HasTags c
  vel : c.vel = (0, 0, 0)
  line : c.line 0 = 0
  line2 : c.line2 0 = 0

/-- The texts are as short as `process_ades_tag` leaves them, a spacecraft's centre has at most eight figures, and the numbers
    in the lines about exact values and velocities fit in the 220 bytes. -/
structure Fits (c : Ctx) : Prop where
  rmsRa : c.rmsRa.length < 26
  rmsDec : c.rmsDec.length < 26
  corr : c.corr.length < 26
  rmsMag : c.rmsMag.length < 26
  rmsTime : c.rmsTime.length < 26
  fullRa : c.fullRa.length < 26
  fullDec : c.fullDec.length < 26
  fullMag : c.fullMag.length < 9
  notes : c.notes.length < 7
  prog : c.prog.length < 3
  trkSub : c.trkSub.length < 14
  obsId : c.obsId.length < 26
  trkId : c.trkId.length < 12
  band : c.band.length < 4
  center : (decInt c.center).length ≤ 8
  time : ∀ x, c.t2k = some x → (Time.fmtFixed 15 x).length ≤ 150
  vel : ∀ l ∈ velLine c, l.length < 221

theorem text_length (m : Card) (a : Nat) : (text m a).length ≤ 83 - a := by
  unfold text
  refine le_trans (List.takeWhile_sublist _).length_le ?_
  simp

theorem labelled_length (l : String) (s : List Nat) : (labelled l s).length ≤ (bytes l).length + s.length := by
  unfold labelled; split <;> simp

theorem fit_ok {n : Nat} {s : List Nat} (h : s.length < n) : fit n s = .ok s := by unfold fit; rw [if_pos h]

/-- What is left after the lines have been given out. -/
structure Rest (c d : Ctx) : Prop where
  drained : Drained d
  getting : d.getting = false
  passed : d.passed = false
  st : d.st = c.st
  psv : d.psv = c.psv
  ignoreArtsat : d.ignoreArtsat = c.ignoreArtsat
  rmsDec : d.rmsDec = c.rmsDec
  corr : d.corr = c.corr
  rmsMag : d.rmsMag = if c.rmsRa = [] then c.rmsMag else []
  rmsTime : d.rmsTime = if c.rmsRa = [] then c.rmsTime else []

/-- `k` rounds or more give exactly these lines. -/
def Gives (e : Ext) (c : Ctx) (k : Nat) (outs : List (List Nat)) (d : Ctx) : Prop :=
  ∀ n b, k ≤ n → rounds e n c b = some (.ok (d, outs.map fun l => (trim l, (1 : Int))))

theorem gives_last (e : Ext) {c d : Ctx} (hg : c.getting = true) (hp : c.passed = false)
    (h : getLine c = .ok (d, none, false)) : Gives e c 1 [] d := by
  intro n b hn
  obtain ⟨n, rfl⟩ : ∃ k, n = k + 1 := ⟨n - 1, by omega⟩
  simp [rounds, xlate, hg, hp, handOut, h, Outcome.bind]

theorem gives_next (e : Ext) {c c1 d : Ctx} {s s' : List Nat} {k : Nat} {outs : List (List Nat)} (hg : c.getting = true)
    (hp : c.passed = false) (h : getLine c = .ok (c1, some s, true)) (hs : trim s = trim s') (hr : Gives e c1 k outs d) :
    Gives e c (k + 1) (s' :: outs) d := by
  intro n b hn
  obtain ⟨n, rfl⟩ : ∃ k, n = k + 1 := ⟨n - 1, by omega⟩
  have := hr n (trim s') (by omega)
  simp [rounds, xlate, hg, hp, handOut, h, Outcome.bind, hs, this]

theorem trim_end (s : List Nat) : trim (s ++ [10]) = trim s := by
  unfold trim
  induction s with
  | nil => rfl
  | cons c s ih => rw [List.cons_append, List.takeWhile_cons, List.takeWhile_cons, ih]

theorem gives_mono {e : Ext} {c d : Ctx} {k j : Nat} {outs : List (List Nat)} (h : Gives e c k outs d) (hj : k ≤ j) : Gives e c j outs d :=
  fun n b hn => h n b (by omega)

theorem opt_labelled (l : String) (s : List Nat) : opt l s = labelled l s := rfl

/-! ### Stage by stage, from the last line to the first -/

theorem stage_second (e : Ext) {c : Ctx} (hg : c.getting = true) (hp : c.passed = false) (h1 : c.rmsRa = []) (h2 : c.trkSub = [])
    (h3 : c.obsId = []) (h4 : c.trkId = []) (h5 : c.fullRa = []) (h6 : c.fullDec = []) (h7 : c.t2k = none) (h8 : c.fullMag = [])
    (h9 : ¬ HasTags c) (h10 : c.vel = (0, 0, 0)) (h11 : c.line 0 = 0) :
    ∃ d, Gives e c 2 (secondCard c) d ∧ Rest c d := by
  have h9' : ¬ (at? c.band 1 ≠ 0 ∨ (32 < at? c.notes 0 ∧ at? c.notes 0 < 128) ∨ (32 ≤ at? c.prog 0 ∧ at? c.prog 0 < 128)) := by
    unfold HasTags Visible at h9; intro h; apply h9; omega
  have empty : ∀ c : Ctx, c.getting = true → c.passed = false → c.rmsRa = [] → c.trkSub = [] → c.obsId = [] → c.trkId = [] →
      c.fullRa = [] → c.fullDec = [] → c.t2k = none → c.fullMag = [] →
      ¬ (at? c.band 1 ≠ 0 ∨ (32 < at? c.notes 0 ∧ at? c.notes 0 < 128) ∨ (32 ≤ at? c.prog 0 ∧ at? c.prog 0 < 128)) →
      c.vel = (0, 0, 0) → c.line 0 = 0 → c.line2 0 = 0 → Gives e c 1 [] { c with getting := false } := by
    intro c hg hp h1 h2 h3 h4 h5 h6 h7 h8 h9 h10 h11 h12
    apply gives_last e hg hp
    unfold getLine
    simp only [h1, h2, h3, h4, h5, h6, h7, h8, h10, h11, h12, ne_eq, not_true_eq_false, or_self, if_false, if_neg h9]
  by_cases h12 : c.line2 0 = 0
  · refine ⟨{ c with getting := false }, ?_, ?_⟩
    · unfold secondCard
      rw [if_pos h12]
      exact gives_mono (empty c hg hp h1 h2 h3 h4 h5 h6 h7 h8 h9' h10 h11 h12) (by omega)
    · exact ⟨⟨h1, h2, h3, h4, h5, h6, h7, h8, h9, h10, h11, h12⟩, rfl, hp, rfl, rfl, rfl, rfl, rfl, by rw [if_pos h1], by rw [if_pos h1]⟩
  · refine ⟨{ c with line2 := blit c.line2 0 [0], getting := false }, ?_, ?_⟩
    · unfold secondCard
      rw [if_neg h12]
      have e2 : text (secondCol c) 0 = text c.line2 0 := by
        have : secondCol c = c.line2 := by funext i; unfold secondCol; rw [if_pos h11]
        rw [this]
      rw [e2]
      refine gives_next e (c1 := { c with line2 := blit c.line2 0 [0] }) (s := text c.line2 0) hg hp ?_ rfl
        (empty _ hg hp h1 h2 h3 h4 h5 h6 h7 h8 h9' h10 h11 rfl)
      unfold getLine
      have := text_length c.line2 0
      simp only [h1, h2, h3, h4, h5, h6, h7, h8, h10, h11, h12, ne_eq, not_true_eq_false, or_self, if_false, if_neg h9', not_false_eq_true,
        if_true, fit_ok (show (text c.line2 0).length < 221 by omega), Outcome.bind, hg]
    · exact ⟨⟨h1, h2, h3, h4, h5, h6, h7, h8, h9, h10, h11, rfl⟩, rfl, hp, rfl, rfl, rfl, rfl, rfl, by rw [if_pos h1], by rw [if_pos h1]⟩

theorem at_single (i : Nat) (h : i < 1) (a : Nat) : at? [a] i = a := by
  obtain rfl : i = 0 := by omega
  rfl

theorem at_map_range' (f : Nat → Nat) (a n i : Nat) (h : i < n) : at? ((List.range' a n).map f) i = f (a + i) := by
  unfold at?
  rw [List.getD_eq_getElem _ _ (by simpa using h)]
  simp

theorem at_map_range (f : Nat → Nat) (n i : Nat) (h : i < n) : at? ((List.range n).map f) i = f i := by
  unfold at?
  rw [List.getD_eq_getElem _ _ (by simpa using h)]
  simp

theorem blit_in {m : Card} {a i : Nat} {s : List Nat} (h : a ≤ i ∧ i < a + s.length) : blit m a s i = at? s (i - a) := by
  unfold blit; rw [if_pos h]

theorem blit_out {m : Card} {a i : Nat} {s : List Nat} (h : ¬ (a ≤ i ∧ i < a + s.length)) : blit m a s i = m i := by
  unfold blit; rw [if_neg h]

/-- The bytes of the second line. -/
theorem second_eq {c : Ctx} (h : (decInt c.center).length ≤ 8) (h0 : c.line 0 ≠ 0) : second c = .ok (secondCol c) := by
  unfold second
  simp only
  rw [if_neg (by rintro ⟨_, h'⟩; omega)]
  congr 1
  funext i
  have hn : (List.replicate (8 - (decInt c.center).length) 32 ++ decInt c.center).length = 8 := by simp; omega
  have same : i < 12 ∨ (15 ≤ i ∧ i < 32) ∨ (77 ≤ i ∧ i < 80) → secondCol c i = c.line i := by
    intro h; unfold secondCol; rw [if_neg h0, if_pos h]
  have other : ¬ (i < 12 ∨ (15 ≤ i ∧ i < 32) ∨ (77 ≤ i ∧ i < 80)) → ¬ (69 ≤ i ∧ i < 77 ∧ c.center ≠ 399) → secondCol c i = c.line2 i := by
    intro h h'; unfold secondCol; rw [if_neg h0, if_neg h, if_neg h']
  have low : blit (blit c.line2 0 ((List.range 12).map c.line)) 15 ((List.range' 15 17).map c.line) i =
      if i < 12 ∨ (15 ≤ i ∧ i < 32) then c.line i else c.line2 i := by
    by_cases h15 : 15 ≤ i ∧ i < 32
    · rw [if_pos (by omega), blit_in (by simp; omega), at_map_range' _ _ _ _ (by omega)]
      congr 1; omega
    · by_cases h12 : i < 12
      · rw [if_pos (by omega), blit_out (by simp; omega), blit_in (by simp; omega), Nat.sub_zero, at_map_range _ _ _ h12]
      · rw [if_neg (by omega), blit_out (by simp; omega), blit_out (by simp; omega)]
  by_cases h77 : 77 ≤ i ∧ i < 80
  · rw [same (by omega), blit_in (by simp; omega), at_map_range' _ _ _ _ (by omega)]
    congr 1; omega
  · rw [blit_out (by simp; omega)]
    by_cases hc : c.center = 399
    · rw [if_neg (by simpa using hc), low]
      split_ifs with h
      · rw [same (by omega)]
      · rw [other (by omega) (by rintro ⟨_, _, h⟩; exact h hc)]
    · rw [if_pos hc]
      by_cases h69 : 69 ≤ i ∧ i < 77
      · rw [blit_in (by rw [hn]; omega)]
        unfold secondCol
        rw [if_neg h0, if_neg (by omega), if_pos ⟨h69.1, h69.2, hc⟩]
      · rw [blit_out (by rw [hn]; omega), low]
        split_ifs with h
        · rw [same (by omega)]
        · rw [other (by omega) (by omega)]

theorem stage_first (e : Ext) {c : Ctx} (hg : c.getting = true) (hp : c.passed = false) (h1 : c.rmsRa = []) (h2 : c.trkSub = [])
    (h3 : c.obsId = []) (h4 : c.trkId = []) (h5 : c.fullRa = []) (h6 : c.fullDec = []) (h7 : c.t2k = none) (h8 : c.fullMag = [])
    (h9 : ¬ HasTags c) (h10 : c.vel = (0, 0, 0)) (hc : (decInt c.center).length ≤ 8) :
    ∃ d, Gives e c 3 (firstCard c ++ secondCard c) d ∧ Rest c d := by
  have h9' : ¬ (at? c.band 1 ≠ 0 ∨ (32 < at? c.notes 0 ∧ at? c.notes 0 < 128) ∨ (32 ≤ at? c.prog 0 ∧ at? c.prog 0 < 128)) := by
    unfold HasTags Visible at h9; intro h; apply h9; omega
  unfold firstCard
  by_cases h11 : c.line 0 = 0
  · rw [if_pos h11]
    obtain ⟨d, hd, hr⟩ := stage_second e hg hp h1 h2 h3 h4 h5 h6 h7 h8 h9 h10 h11
    exact ⟨d, gives_mono hd (by omega), hr⟩
  · rw [if_neg h11]
    obtain ⟨l2, hl, hcard⟩ : ∃ l2, (if c.line2 0 ≠ 0 then second c else .ok c.line2) = Outcome.ok l2 ∧
        secondCard { c with line := blit c.line 0 [0], line2 := l2 } = secondCard c := by
      by_cases h12 : c.line2 0 = 0
      · refine ⟨c.line2, by rw [if_neg (by simpa using h12)], ?_⟩
        unfold secondCard
        simp [h12]
      · refine ⟨secondCol c, by rw [if_pos h12, second_eq hc h11], ?_⟩
        unfold secondCard
        have e0 : secondCol c 0 = c.line 0 := by unfold secondCol; rw [if_neg h11, if_pos (by omega)]
        simp only [e0, if_neg h11, if_neg h12]
        congr 2
    obtain ⟨d, hd, hr⟩ := stage_second e (c := { c with line := blit c.line 0 [0], line2 := l2 }) hg hp h1 h2 h3 h4 h5 h6 h7 h8 h9 h10 rfl
    rw [hcard] at hd
    refine ⟨d, ?_, ⟨hr.1, hr.2, hr.3, hr.4, hr.5, hr.6, hr.7, hr.8, hr.9, hr.10⟩⟩
    refine gives_next e (c1 := { c with line := blit c.line 0 [0], line2 := l2 }) (s := text c.line 0) hg hp ?_ rfl hd
    unfold getLine
    simp only [h1, h2, h3, h4, h5, h6, h7, h8, h10, h11, ne_eq, not_true_eq_false, or_self, if_false, if_neg h9', not_false_eq_true,
      if_true]
    simp only [ne_eq] at hl
    rw [hl]
    simp only [Outcome.bind, hg]

theorem stage_vel (e : Ext) {c : Ctx} (hg : c.getting = true) (hp : c.passed = false) (hf : Fits c) (h1 : c.rmsRa = []) (h2 : c.trkSub = [])
    (h3 : c.obsId = []) (h4 : c.trkId = []) (h5 : c.fullRa = []) (h6 : c.fullDec = []) (h7 : c.t2k = none) (h8 : c.fullMag = [])
    (h9 : ¬ HasTags c) :
    ∃ d, Gives e c 4 (velLine c ++ (firstCard c ++ secondCard c)) d ∧ Rest c d := by
  have h9' : ¬ (at? c.band 1 ≠ 0 ∨ (32 < at? c.notes 0 ∧ at? c.notes 0 < 128) ∨ (32 ≤ at? c.prog 0 ∧ at? c.prog 0 < 128)) := by
    unfold HasTags Visible at h9; intro h; apply h9; omega
  have hv := hf.vel
  unfold velLine at hv ⊢
  by_cases h10 : c.vel = (0, 0, 0)
  · rw [if_pos h10]
    obtain ⟨d, hd, hr⟩ := stage_first e hg hp h1 h2 h3 h4 h5 h6 h7 h8 h9 h10 hf.center
    exact ⟨d, gives_mono hd (by omega), hr⟩
  · rw [if_neg h10] at hv ⊢
    have hv := hv _ (List.mem_singleton_self _)
    obtain ⟨d, hd, hr⟩ := stage_first e (c := { c with vel := (0, 0, 0) }) hg hp h1 h2 h3 h4 h5 h6 h7 h8 h9 rfl hf.center
    refine ⟨d, ?_, ⟨hr.1, hr.2, hr.3, hr.4, hr.5, hr.6, hr.7, hr.8, hr.9, hr.10⟩⟩
    refine gives_next e (c1 := { c with vel := (0, 0, 0) }) hg hp ?_ rfl hd
    unfold getLine
    simp only [h1, h2, h3, h4, h5, h6, h7, h8, h10, ne_eq, not_true_eq_false, or_self, if_false, if_neg h9', not_false_eq_true,
      if_true, fit_ok hv, Outcome.bind, hg]

theorem stage_tags (e : Ext) {c : Ctx} (hg : c.getting = true) (hp : c.passed = false) (hf : Fits c) (h1 : c.rmsRa = []) (h2 : c.trkSub = [])
    (h3 : c.obsId = []) (h4 : c.trkId = []) (h5 : c.fullRa = []) (h6 : c.fullDec = []) (h7 : c.t2k = none) (h8 : c.fullMag = []) :
    ∃ d, Gives e c 5 (tagLine c ++ (velLine c ++ (firstCard c ++ secondCard c))) d ∧ Rest c d := by
  unfold tagLine
  by_cases h9 : HasTags c
  · rw [if_pos h9]
    have h9' : at? c.band 1 ≠ 0 ∨ (32 < at? c.notes 0 ∧ at? c.notes 0 < 128) ∨ (32 ≤ at? c.prog 0 ∧ at? c.prog 0 < 128) := by
      unfold HasTags Visible at h9; omega
    have hb : at? (c.band.take 1) 1 = 0 := by
      unfold at?
      rw [List.getD_eq_default]
      simp
    obtain ⟨d, hd, hr⟩ := stage_vel e (c := { c with band := c.band.take 1, notes := [], prog := [] }) hg hp
      ⟨hf.1, hf.2, hf.3, hf.4, hf.5, hf.6, hf.7, hf.8, by simp, by simp, hf.11, hf.12, hf.13,
        by have := hf.band; simp, hf.15, hf.16, hf.17⟩ h1 h2 h3 h4 h5 h6 h7 h8
      (by simp [at?])
    refine ⟨d, ?_, ⟨hr.1, hr.2, hr.3, hr.4, hr.5, hr.6, hr.7, hr.8, hr.9, hr.10⟩⟩
    refine gives_next e (c1 := { c with band := c.band.take 1, notes := [], prog := [] })
      (s := bytes "COM ADES tags" ++ (if at? c.band 1 ≠ 0 then bytes " band:" ++ c.band else []) ++
        (if 32 ≤ at? c.notes 0 ∧ at? c.notes 0 < 128 then bytes " notes:" ++ c.notes else []) ++
        (if 32 ≤ at? c.prog 0 ∧ at? c.prog 0 < 128 then bytes " progcode:" ++ c.prog else [])) hg hp ?_ ?_ hd
    · unfold getLine
      have hl : (bytes "COM ADES tags" ++ (if at? c.band 1 ≠ 0 then bytes " band:" ++ c.band else []) ++
        (if 32 ≤ at? c.notes 0 ∧ at? c.notes 0 < 128 then bytes " notes:" ++ c.notes else []) ++
        (if 32 ≤ at? c.prog 0 ∧ at? c.prog 0 < 128 then bytes " progcode:" ++ c.prog else [])).length < 221 := by
        have a := hf.band
        have b := hf.notes
        have d := hf.prog
        have l1 : (bytes "COM ADES tags").length = 13 := by decide
        have l2 : (bytes " band:").length = 6 := by decide
        have l3 : (bytes " notes:").length = 7 := by decide
        have l4 : (bytes " progcode:").length = 10 := by decide
        simp only [List.length_append, apply_ite List.length, List.length_nil, l1, l2, l3, l4]
        split_ifs <;> omega
      simp only [h1, h2, h3, h4, h5, h6, h7, h8, not_true_eq_false, or_self, if_false, ne_eq, hg] at hl ⊢
      rw [if_pos h9', fit_ok hl]
      rfl
    · simp only [ne_eq, ite_not]
  · rw [if_neg h9]
    obtain ⟨d, hd, hr⟩ := stage_vel e hg hp hf h1 h2 h3 h4 h5 h6 h7 h8 h9
    exact ⟨d, gives_mono hd (by omega), hr⟩

theorem stage_mag (e : Ext) {c : Ctx} (hg : c.getting = true) (hp : c.passed = false) (hf : Fits c) (h1 : c.rmsRa = []) (h2 : c.trkSub = [])
    (h3 : c.obsId = []) (h4 : c.trkId = []) (h5 : c.fullRa = []) (h6 : c.fullDec = []) (h7 : c.t2k = none) :
    ∃ d, Gives e c 6 (magLine c ++ (tagLine c ++ (velLine c ++ (firstCard c ++ secondCard c)))) d ∧ Rest c d := by
  unfold magLine
  by_cases h8 : c.fullMag = []
  · rw [if_pos h8]
    obtain ⟨d, hd, hr⟩ := stage_tags e hg hp hf h1 h2 h3 h4 h5 h6 h7 h8
    exact ⟨d, gives_mono hd (by omega), hr⟩
  · rw [if_neg h8]
    obtain ⟨d, hd, hr⟩ := stage_tags e (c := { c with fullMag := [] }) hg hp
      ⟨hf.1, hf.2, hf.3, hf.4, hf.5, hf.6, hf.7, by simp, hf.9, hf.10, hf.11, hf.12, hf.13, hf.14, hf.15, hf.16, hf.17⟩
      h1 h2 h3 h4 h5 h6 h7 rfl
    refine ⟨d, ?_, ⟨hr.1, hr.2, hr.3, hr.4, hr.5, hr.6, hr.7, hr.8, hr.9, hr.10⟩⟩
    refine gives_next e (c1 := { c with fullMag := [] }) (s := bytes "COM full mag " ++ c.fullMag ++ [10]) hg hp ?_ (trim_end _) hd
    unfold getLine
    have hl : (bytes "COM full mag " ++ c.fullMag ++ [10]).length < 221 := by
      have a := hf.fullMag
      have l1 : (bytes "COM full mag ").length = 13 := by decide
      simp only [List.length_append, l1, List.length_singleton]
      omega
    simp only [h1, h2, h3, h4, h5, h6, h7, h8, ne_eq, not_true_eq_false, or_self, if_false, not_false_eq_true,
      if_true, fit_ok hl, Outcome.bind, hg]

theorem stage_exact (e : Ext) {c : Ctx} (hg : c.getting = true) (hp : c.passed = false) (hf : Fits c) (h1 : c.rmsRa = []) (h2 : c.trkSub = [])
    (h3 : c.obsId = []) (h4 : c.trkId = []) :
    ∃ d, Gives e c 7 (exactLine c ++ (magLine c ++ (tagLine c ++ (velLine c ++ (firstCard c ++ secondCard c))))) d ∧ Rest c d := by
  unfold exactLine
  by_cases h5 : c.fullRa = [] ∧ c.fullDec = [] ∧ c.t2k = none
  · rw [if_pos h5]
    obtain ⟨d, hd, hr⟩ := stage_mag e hg hp hf h1 h2 h3 h4 h5.1 h5.2.1 h5.2.2
    exact ⟨d, gives_mono hd (by omega), hr⟩
  · rw [if_neg h5]
    have h5' : c.fullRa ≠ [] ∨ c.fullDec ≠ [] ∨ c.t2k ≠ none := by
      by_contra h
      apply h5
      push Not at h
      exact h
    obtain ⟨d, hd, hr⟩ := stage_mag e (c := { c with fullRa := [], fullDec := [], t2k := none }) hg hp
      ⟨hf.1, hf.2, hf.3, hf.4, hf.5, by simp, by simp, hf.8, hf.9, hf.10, hf.11, hf.12, hf.13, hf.14, hf.15, by simp, hf.17⟩
      h1 h2 h3 h4 rfl rfl rfl
    refine ⟨d, ?_, ⟨hr.1, hr.2, hr.3, hr.4, hr.5, hr.6, hr.7, hr.8, hr.9, hr.10⟩⟩
    refine gives_next e (c1 := { c with fullRa := [], fullDec := [], t2k := none })
      (s := bytes "COM RA/dec " ++ (if c.fullRa ≠ [] then c.fullRa else [45]) ++ 32 :: (if c.fullDec ≠ [] then c.fullDec else [45]) ++
        (c.t2k.elim [] fun x => 32 :: Time.fmtFixed 15 x) ++ [10]) hg hp ?_ ?_ hd
    · unfold getLine
      have hl : (bytes "COM RA/dec " ++ (if c.fullRa ≠ [] then c.fullRa else [45]) ++ 32 :: (if c.fullDec ≠ [] then c.fullDec else [45]) ++
        (c.t2k.elim [] fun x => 32 :: Time.fmtFixed 15 x) ++ [10]).length < 221 := by
        have a := hf.fullRa
        have b := hf.fullDec
        have l1 : (bytes "COM RA/dec ").length = 11 := by decide
        have l2 : (if c.fullRa ≠ [] then c.fullRa else [45]).length < 26 := by
          split_ifs
          · exact a
          · simp
        have l3 : (if c.fullDec ≠ [] then c.fullDec else [45]).length < 26 := by
          split_ifs
          · exact b
          · simp
        have l4 : (c.t2k.elim [] fun x => 32 :: Time.fmtFixed 15 x).length ≤ 151 := by
          cases ht : c.t2k with
          | none => simp
          | some x => have := hf.time x ht; simpa using this
        simp only [List.length_append, List.length_cons, l1, List.length_nil]
        omega
      simp only [h1, h2, h3, h4, not_true_eq_false, or_self, if_false, ne_eq, hg] at hl ⊢
      rw [if_pos h5', fit_ok hl]
      rfl
    · rw [trim_end]
      simp only [ne_eq, ite_not]

theorem stage_ids (e : Ext) {c : Ctx} (hg : c.getting = true) (hp : c.passed = false) (hf : Fits c) (h1 : c.rmsRa = []) :
    ∃ d, Gives e c 8 (idLine c ++ (exactLine c ++ (magLine c ++ (tagLine c ++ (velLine c ++ (firstCard c ++ secondCard c)))))) d ∧ Rest c d := by
  unfold idLine
  by_cases h2 : c.trkSub = [] ∧ c.obsId = [] ∧ c.trkId = []
  · rw [if_pos h2]
    obtain ⟨d, hd, hr⟩ := stage_exact e hg hp hf h1 h2.1 h2.2.1 h2.2.2
    exact ⟨d, gives_mono hd (by omega), hr⟩
  · rw [if_neg h2]
    have h2' : c.trkSub ≠ [] ∨ c.obsId ≠ [] ∨ c.trkId ≠ [] := by
      by_contra h
      apply h2
      push Not at h
      exact h
    obtain ⟨d, hd, hr⟩ := stage_exact e (c := { c with trkSub := [], obsId := [], trkId := [] }) hg hp
      ⟨hf.1, hf.2, hf.3, hf.4, hf.5, hf.6, hf.7, hf.8, hf.9, hf.10, by simp, by simp, by simp, hf.14, hf.15, hf.16, hf.17⟩
      h1 rfl rfl rfl
    refine ⟨d, ?_, ⟨hr.1, hr.2, hr.3, hr.4, hr.5, hr.6, hr.7, hr.8, hr.9, hr.10⟩⟩
    refine gives_next e (c1 := { c with trkSub := [], obsId := [], trkId := [] })
      (s := bytes "COM IDs" ++ opt " trkSub:" c.trkSub ++ opt " obsID:" c.obsId ++ opt " trkID:" c.trkId ++ [10]) hg hp ?_ (trim_end _) hd
    unfold getLine
    have hl : (bytes "COM IDs" ++ opt " trkSub:" c.trkSub ++ opt " obsID:" c.obsId ++ opt " trkID:" c.trkId ++ [10]).length < 221 := by
      have a := hf.trkSub
      have b := hf.obsId
      have d := hf.trkId
      have l1 : (bytes "COM IDs").length = 7 := by decide
      have l2 := labelled_length " trkSub:" c.trkSub
      have l3 := labelled_length " obsID:" c.obsId
      have l4 := labelled_length " trkID:" c.trkId
      have k2 : (bytes " trkSub:").length = 8 := by decide
      have k3 : (bytes " obsID:").length = 7 := by decide
      have k4 : (bytes " trkID:").length = 7 := by decide
      simp only [opt_labelled, List.length_append, l1, List.length_singleton]
      omega
    simp only [h1, not_true_eq_false, if_false, ne_eq, hg]
    rw [if_pos h2', fit_ok hl]
    rfl

/-- C86: called again and again, `fgets_with_ades_xlation` gives out for an observation exactly the lines `report`, in this
    order, each once, in at most nine rounds, and is then ready for the next one. -/
theorem C86_drains (e : Ext) {c : Ctx} (hg : c.getting = true) (hp : c.passed = false) (hf : Fits c) :
    ∃ d, (∀ n b, 9 ≤ n → rounds e n c b = some (.ok (d, (report c).map fun l => (trim l, (1 : Int))))) ∧ Rest c d := by
  suffices h : ∃ d, Gives e c 9 (sigmaLine c ++ (idLine c ++ (exactLine c ++ (magLine c ++ (tagLine c ++ (velLine c ++
      (firstCard c ++ secondCard c))))))) d ∧ Rest c d by
    obtain ⟨d, hd, hr⟩ := h
    refine ⟨d, ?_, hr⟩
    intro n b hn
    rw [hd n b hn]
    simp [report]
  unfold sigmaLine
  by_cases h1 : c.rmsRa = []
  · rw [if_pos h1]
    obtain ⟨d, hd, hr⟩ := stage_ids e hg hp hf h1
    exact ⟨d, gives_mono hd (by omega), hr⟩
  · rw [if_neg h1]
    obtain ⟨d, hd, hr⟩ := stage_ids e (c := { c with rmsRa := [], rmsMag := [], rmsTime := [] }) hg hp
      ⟨by simp, hf.2, hf.3, by simp, by simp, hf.6, hf.7, hf.8, hf.9, hf.10, hf.11, hf.12, hf.13, hf.14, hf.15, hf.16, hf.17⟩ rfl
    refine ⟨d, ?_, ⟨hr.1, hr.2, hr.3, hr.4, hr.5, hr.6, hr.7, hr.8, by rw [hr.9, if_neg h1]; rfl, by rw [hr.10, if_neg h1]; rfl⟩⟩
    refine gives_next e (c1 := { c with rmsRa := [], rmsMag := [], rmsTime := [] })
      (s := bytes "COM Sigmas " ++ c.rmsRa ++
        (if c.rmsRa ≠ c.rmsDec then 120 :: c.rmsDec ++ (if MpcLine.atof c.corr ≠ 0 then 44 :: c.corr else []) else []) ++
        opt " m:" c.rmsMag ++ opt " t:" c.rmsTime ++ [10]) hg hp ?_ ?_ hd
    · unfold getLine
      have hl : (bytes "COM Sigmas " ++ c.rmsRa ++
        (if c.rmsRa ≠ c.rmsDec then 120 :: c.rmsDec ++ (if MpcLine.atof c.corr ≠ 0 then 44 :: c.corr else []) else []) ++
        opt " m:" c.rmsMag ++ opt " t:" c.rmsTime ++ [10]).length < 221 := by
        have a := hf.1
        have b := hf.2
        have d := hf.3
        have f := hf.4
        have g := hf.5
        have l1 : (bytes "COM Sigmas ").length = 11 := by decide
        have l2 := labelled_length " m:" c.rmsMag
        have l3 := labelled_length " t:" c.rmsTime
        have k2 : (bytes " m:").length = 3 := by decide
        have k3 : (bytes " t:").length = 3 := by decide
        have l4 : (if c.rmsRa ≠ c.rmsDec then 120 :: c.rmsDec ++ (if MpcLine.atof c.corr ≠ 0 then 44 :: c.corr else []) else []).length ≤ 52 := by
          split_ifs <;> simp <;> omega
        simp only [opt_labelled, List.length_append, l1, List.length_singleton]
        omega
      simp only [hg]
      rw [if_pos h1, fit_ok hl]
      rfl
    · rw [trim_end]
      simp only [ne_eq, ite_not, opt_labelled]

/-- C86: an 80-column line with a second line whose centre takes more than eight bytes ends the program. -/
theorem C86_long_center {c : Ctx} (h1 : c.rmsRa = []) (h2 : c.trkSub = []) (h3 : c.obsId = []) (h4 : c.trkId = []) (h5 : c.fullRa = [])
    (h6 : c.fullDec = []) (h7 : c.t2k = none) (h8 : c.fullMag = []) (h9 : ¬ HasTags c) (h10 : c.vel = (0, 0, 0)) (h11 : c.line 0 ≠ 0)
    (h12 : c.line2 0 ≠ 0) (hc : 8 < (decInt c.center).length) : getLine c = .abort := by
  have h9' : ¬ (at? c.band 1 ≠ 0 ∨ (32 < at? c.notes 0 ∧ at? c.notes 0 < 128) ∨ (32 ≤ at? c.prog 0 ∧ at? c.prog 0 < 128)) := by
    unfold HasTags Visible at h9; intro h; apply h9; omega
  have hs : second c = .abort := by
    unfold second
    have : c.center ≠ 399 := by
      intro h
      rw [h] at hc
      exact absurd hc (by decide)
    simp only [this, ne_eq, not_false_eq_true, true_and, hc, if_true]
  unfold getLine
  simp only [h1, h2, h3, h4, h5, h6, h7, h8, h10, h11, h12, ne_eq, not_true_eq_false, or_self, if_false, if_neg h9', not_false_eq_true,
    if_true, hs, Outcome.bind]

/-- C86: the uncertainties come out only when there is one for the right ascension. -/
theorem C86_sigmas_dropped {c : Ctx} (h : c.rmsRa = []) : sigmaLine c = [] := by
  unfold sigmaLine; rw [if_pos h]

/-- C86 (finding): the correlation of one observation is told again with the next one, if that has none of its own. -/
theorem C86_stale_correlation (e : Ext) {c : Ctx} (hg : c.getting = true) (hp : c.passed = false) (hf : Fits c)
    (hc : MpcLine.atof c.corr ≠ 0) {ra dec : List Nat} (h0 : ra ≠ []) (hne : ra ≠ dec) :
    ∃ d, (∀ n b, 9 ≤ n → rounds e n c b = some (.ok (d, (report c).map fun l => (trim l, (1 : Int))))) ∧
      ∃ tail, sigmaLine { setup d with rmsRa := ra, rmsDec := dec } = [bytes "COM Sigmas " ++ ra ++ (120 :: dec ++ 44 :: c.corr) ++ tail] := by
  obtain ⟨d, hd, hr⟩ := C86_drains e hg hp hf
  refine ⟨d, hd, labelled " m:" d.rmsMag ++ labelled " t:" d.rmsTime, ?_⟩
  have : d.corr = c.corr := hr.corr
  unfold sigmaLine setup
  simp only [this, if_neg h0, if_neg hne, if_neg hc, List.append_assoc]

/-- C86 (finding): an uncertainty of the magnitude or the time without one of the right ascension comes out with a later
    observation. -/
theorem C86_stale_magnitude (e : Ext) {c : Ctx} (hg : c.getting = true) (hp : c.passed = false) (hf : Fits c)
    (h1 : c.rmsRa = []) {ra : List Nat} (h0 : ra ≠ []) :
    ∃ d, (∀ n b, 9 ≤ n → rounds e n c b = some (.ok (d, (report c).map fun l => (trim l, (1 : Int))))) ∧
      sigmaLine { setup d with rmsRa := ra, rmsDec := ra } =
        [bytes "COM Sigmas " ++ ra ++ labelled " m:" c.rmsMag ++ labelled " t:" c.rmsTime] := by
  obtain ⟨d, hd, hr⟩ := C86_drains e hg hp hf
  refine ⟨d, hd, ?_⟩
  have e1 := hr.rmsMag
  have e2 := hr.rmsTime
  rw [if_pos h1] at e1 e2
  unfold sigmaLine setup
  simp only [e1, e2, if_neg h0, if_true, List.append_nil]

/-- An observation with uncertainties and a tracklet name, ready to be given out. -/
def sampleCtx : Ctx := { setup init with rmsRa := bytes "0.05", rmsDec := bytes "0.03", corr := bytes "0.5", trkSub := bytes "abc", getting := true }

theorem sample_fits : Fits sampleCtx := by
  refine ⟨by decide, by decide, by decide, by decide, by decide, by decide, by decide, by decide, by decide, by decide, by decide,
    by decide, by decide, by decide, by decide, ?_, ?_⟩
  · intro x h
    cases (h : (none : Option ℚ) = some x)
  · intro l h
    have : velLine sampleCtx = [] := if_pos rfl
    rw [this] at h
    simp at h

example (e : Ext) : ∃ d, (∀ n b, 9 ≤ n → rounds e n sampleCtx b = some (.ok (d, (report sampleCtx).map fun l => (trim l, (1 : Int))))) ∧
    Rest sampleCtx d ∧ (report sampleCtx).length = 3 := by
  obtain ⟨d, hd, hr⟩ := C86_drains e (c := sampleCtx) rfl rfl sample_fits
  exact ⟨d, hd, hr, by decide⟩

end Verif.Props
