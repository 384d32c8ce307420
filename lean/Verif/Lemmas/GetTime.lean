import Verif.Model.GetTime
import Verif.Lemmas.Scan
import Verif.Lemmas.Digits
import Mathlib.Tactic.SplitIfs

/-! # The time reader on plain texts -/

namespace Verif.GetTime

open Verif Verif.Time Verif.Date Verif.Scan Verif.Spec

theorem removeSub_none {sub s : List Nat} {c : Nat} (h : c ∈ sub) (h' : c ∉ s) : removeSub sub s = none := by
  induction s with
  | nil => rfl
  | cons x s ih =>
    have hp : ¬ sub.isPrefixOf (x :: s) = true := by
      intro hp
      rw [List.isPrefixOf_iff_prefix] at hp
      exact h' (hp.subset h)
    rw [removeSub, if_neg hp, ih (fun h => h' (by simp [h]))]
    rfl

theorem trimEnd_of {s : List Nat} (h : ∀ x ∈ s.getLast?, x ≠ 32) : trimEnd s = s := by
  unfold trimEnd
  rcases List.eq_nil_or_concat s with rfl | ⟨t, x, rfl⟩
  · rfl
  · have : x ≠ 32 := h x (by simp)
    simp [this]

theorem trimStart_of {s : List Nat} (h : at? s 0 ≠ 32) : trimStart s = s := by
  unfold trimStart
  cases s with
  | nil => rfl
  | cons c s =>
    have : c ≠ 32 := h
    simp [this]

theorem last_at (s : List Nat) (h : s ≠ []) : s.getLast? = some (at? s (s.length - 1)) := by
  rw [List.getLast?_eq_getElem?]
  have hl : s.length ≠ 0 := by simpa using h
  rw [List.getElem?_eq_getElem (by omega)]
  simp [at?, List.getD_eq_getElem?_getD, List.getElem?_eq_getElem (show s.length - 1 < s.length by omega)]

/-- The last byte is not one of the units of an offset. -/
def NoUnit (s : List Nat) : Prop := at? s (s.length - 1) ∉ bytes "smhdwlyc"

variable {K : Type} [Field K] [LinearOrder K] [IsStrictOrderedRing K] [FloorRing K]

theorem lookup_none {c : Nat} (h : c ∉ bytes "smhdwlyc") : (scales (K := K)).lookup c = none := by
  have h' : ∀ k ∈ bytes "smhdwlyc", (c == k) = false := by
    intro k hk; rw [beq_eq_false_iff_ne]; rintro rfl; exact h hk
  unfold scales
  simp only [List.lookup]
  rw [h' 115 (by decide), h' 109 (by decide), h' 104 (by decide), h' 100 (by decide), h' 119 (by decide), h' 108 (by decide),
    h' 121 (by decide), h' 99 (by decide)]

theorem collectOffset_none {s : List Nat} (h : NoUnit s ∨ at? s (s.length - 2) ≠ 32) (h1 : at? s 0 ≠ 45) (h2 : at? s 0 ≠ 43) :
    collectOffset (K := K) s = (0, s) := by
  unfold collectOffset
  rw [if_neg (show ¬ (at? s 0 = 45 ∨ at? s 0 = 43) by tauto)]
  split
  · rcases h with h | h
    · rw [lookup_none h]
    · split
      · rename_i heq
        exact absurd heq h
      · rfl
  · rfl

theorem offsets_none {s : List Nat} (h : NoUnit s ∨ at? s (s.length - 2) ≠ 32) (h1 : at? s 0 ≠ 45) (h2 : at? s 0 ≠ 43) (n : Nat) :
    offsets (K := K) (n + 1) 0 s = .ok (0, s) := by
  rw [offsets]
  simp only [collectOffset_none h h1 h2, if_true]
  split <;> rfl

/-- The text does not begin with a keyword. -/
structure NoKeyword (s : List Nat) : Prop where
  y : at? s 0 ≠ 121
  j : at? s 0 = 106 → at? s 1 ≠ 100 ∧ 97 ≤ at? s 1 ∧ at? s 1 ≤ 122
  mjd : (bytes "mjd").isPrefixOf s = false
  gps : (bytes "gps ").isPrefixOf s = false
  unix : (bytes "unix ").isPrefixOf s = false
  now : (bytes "now").isPrefixOf s = false

theorem strtold_letter {s : List Nat} (h : 97 ≤ at? s 0 ∧ at? s 0 ≤ 122) : strtold (K := K) s = (0, s) := by
  have h1 : skipSpace s = s := skipSpace_of (by simp [isSpace]; omega)
  have h2 : sign s = (false, s) := sign_of (by omega) (by omega)
  cases s with
  | nil => simp [at?] at h
  | cons c s =>
    have h' : 97 ≤ c ∧ c ≤ 122 := h
    have hd : isDigit c = false := by simp [isDigit]; omega
    have h46 : c ≠ 46 := by omega
    have hm : mantissa (c :: s) = none := by
      unfold mantissa
      simp only [digitCount, hd, Bool.false_eq_true, if_false, List.drop_zero]
      rw [if_neg (show ¬ at? (c :: s) 0 = 46 from h46), if_pos trivial]
    unfold strtold
    simp only [h1, h2, hm]

theorem keywords_none (env : Env K) (s : St K) (hne : s.str ≠ []) (h : NoKeyword s.str) (hr : s.rval = -2451545) : keywords env s = s := by
  obtain ⟨rval, str, flag, init⟩ := s
  subst hr
  simp only at h hne
  have e1 : kwJd (⟨-2451545, str, flag, init⟩ : St K) = ⟨-2451545, str, flag, init⟩ := by
    unfold kwJd
    by_cases h0 : at? str 0 = 106
    · obtain ⟨h1, h2⟩ := h.j h0
      have : strtold (K := K) (str.drop 1) = (0, str.drop 1) := by
        apply strtold_letter
        simpa [at?] using h2
      simp only [h0, if_true, if_neg h1, this]
      simp
    · rw [if_neg h0]
  have e2 : kwYear (⟨-2451545, str, flag, init⟩ : St K) = ⟨-2451545, str, flag, init⟩ := if_neg h.y
  have e3 : kwMjd (⟨-2451545, str, flag, init⟩ : St K) = ⟨-2451545, str, flag, init⟩ := by
    unfold kwMjd; rw [h.mjd]; rfl
  have e4 : kwGps (⟨-2451545, str, flag, init⟩ : St K) = ⟨-2451545, str, flag, init⟩ := by
    unfold kwGps; rw [h.gps]; rfl
  have e5 : kwUnix (⟨-2451545, str, flag, init⟩ : St K) = ⟨-2451545, str, flag, init⟩ := by
    unfold kwUnix; rw [h.unix]; rfl
  have e6 : kwNow env (⟨-2451545, str, flag, init⟩ : St K) = ⟨-2451545, str, flag, init⟩ := by
    unfold kwNow; rw [h.now]; rfl
  unfold keywords
  rw [e1, e2, e3, e4, e5, e6]
  exact if_neg hne

/-- Neither an era nor a lunar phase in the text. -/
structure Quiet (s : List Nat) : Prop where
  ad : removeSub (bytes "ad") s = none
  a_d : removeSub (bytes "a.d.") s = none
  bc : removeSub (bytes "bc") s = none
  b_c : removeSub (bytes "b.c.") s = none
  last : at? s (s.length - 1) ≠ 109 ∧ at? s (s.length - 1) ≠ 113 ∧ at? s (s.length - 1) ≠ 32
  first : at? s 0 ≠ 32 ∧ at? s 0 ≠ 43 ∧ at? s 0 ≠ 45
  keyword : NoKeyword s
  unit : NoUnit s ∨ at? s (s.length - 2) ≠ 32

theorem checkBc_quiet {s : List Nat} (h : Quiet s) : checkBc s = (false, s) := by
  unfold checkBc
  simp only [h.ad, Option.getD_none, h.a_d, h.bc, h.b_c]
  rw [trimStart_of h.first.1, trimEnd_of]
  intro x hx
  by_cases hs : s = []
  · subst hs; simp at hx
  · rw [last_at s hs] at hx
    simp only [Option.mem_def, Option.some.injEq] at hx
    exact hx ▸ h.last.2.2

theorem phase_none {a b : Nat} (h1 : b ≠ 109) (h2 : b ≠ 113) : phaseIdx a b = none := by
  unfold phaseIdx
  rw [if_neg (by tauto), if_neg (by tauto), if_neg (by tauto), if_neg (by tauto)]

/-- A text without offsets, eras, phases and keywords goes to the date and time part. -/
theorem getTime_plain (env : Env K) (f : Fmt) (init : K) {text str : List Nat} (hne : text ≠ []) (hlen : text.length < 80)
    (h0 : at? text 0 ≠ 32) (hn : normalise text = .ok str) (hs : str ≠ []) (hq : Quiet str) :
    getTimeFromString env f init text = dateAndTime env f false 0 ⟨-2451545, str, 0, init⟩ := by
  unfold getTimeFromString
  rw [getTime]
  simp only [trimStart_of h0]
  have htrim : trimEnd str = str := by
    apply trimEnd_of
    intro x hx
    rw [last_at str hs] at hx
    simp only [Option.mem_def, Option.some.injEq] at hx
    exact hx ▸ hq.last.2.2
  rw [if_neg (by simp only [not_or]; exact ⟨by omega, hne⟩), hn]
  simp only [Run.bind, htrim, offsets_none hq.unit hq.first.2.2 hq.first.2.1, phase_none hq.last.1 hq.last.2.1, ite_self, checkBc_quiet hq]
  rw [keywords_none env _ hs hq.keyword rfl]
  simp

/-! ## The time of day at the end -/

theorem tailLen_append {pre time : List Nat} (h : ∀ c ∈ time, c ≠ 32 ∧ isAlpha c = false) :
    tailLen (pre ++ 32 :: time) = time.length := by
  unfold tailLen
  rw [List.reverse_append, List.reverse_cons, List.append_assoc, List.takeWhile_append_of_pos]
  · simp
  · intro c hc
    obtain ⟨h1, h2⟩ := h c (by simpa using hc)
    simp [h1, h2]

theorem amPm_none {s : List Nat} (h1 : removeSub (bytes " am") s = none) (h2 : removeSub (bytes " a.m.") s = none)
    (h3 : removeSub (bytes " pm") s = none) (h4 : removeSub (bytes " p.m.") s = none) : amPm s = (0, s) := by
  unfold amPm
  rw [h1, h2, h3, h4]

/-- A date, a blank and a time of day with a colon. -/
theorem dateAndTime_timed (env : Env K) (f : Fmt) (bc : Bool) (off init : K) (flag : Int) (date time : List Nat)
    (hdots : dots (date ++ 32 :: time) = date ++ 32 :: time) (hf : isFits (date ++ 32 :: time) = false)
    (ham : amPm (date ++ 32 :: time) = (0, date ++ 32 :: time)) (ht : ∀ c ∈ time, c ≠ 32 ∧ isAlpha c = false)
    (h58 : 58 ∈ time) (h0 : at? time 0 ≠ 58) :
    dateAndTime env f bc off ⟨-2451545, date ++ 32 :: time, flag, init⟩ =
      dateOnly env f bc off init flag ⟨(env.split init).year, (env.split init).month, (env.split init).day⟩ date
        (scanHms (K := K) time).1 0 ((scanHms (K := K) time).2.2 + (scanHms (K := K) time).2.1 * 60) := by
  unfold dateAndTime
  have hlen : (date ++ 32 :: time).length - time.length = date.length + 1 := by simp; omega
  have hdrop : (date ++ 32 :: time).drop (date.length + 1) = time := by
    rw [show date ++ 32 :: time = (date ++ [32]) ++ time by simp]
    exact List.drop_left' (by simp)
  have htake : (date ++ 32 :: time).take (date.length + 1 - 1) = date := by simp
  have hcont : time.contains 58 = true := by simpa using h58
  have hne : time ≠ [58] := by rintro rfl; exact h0 rfl
  simp only [hdots, hf, ham, ite_self, tailLen_append ht, hlen, hdrop, hcont, if_true, htake, Bool.false_eq_true, if_false]
  unfold timeOfDay
  simp only [if_neg hne, hcont, if_true, if_pos h0]
  simp

end Verif.GetTime
