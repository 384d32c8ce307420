import Verif.Props.TimeOffset
import Verif.Props.Calendars
import Verif.Props.TimeNames

/-!
# Property theorems: weekdays (C66), FITS times (C67), Julian Dates and other counts (C68)
-/

namespace Verif.Props
open Verif Verif.GetTime Verif.Spec Verif.Time Verif.Date Verif.Scan

variable {K : Type} [Field K] [LinearOrder K] [IsStrictOrderedRing K] [FloorRing K]

/-- Nothing at the ends of the text, no letters a and b. -/
structure Calm (s : List Nat) : Prop where
  a : 97 ∉ s
  b : 98 ∉ s
  last : at? s (s.length - 1) ≠ 109 ∧ at? s (s.length - 1) ≠ 113 ∧ at? s (s.length - 1) ≠ 32
  first : at? s 0 ≠ 32 ∧ at? s 0 ≠ 43 ∧ at? s 0 ≠ 45
  unit : NoUnit s ∨ at? s (s.length - 2) ≠ 32

theorem Calm.trimEnd {s : List Nat} (h : Calm s) : trimEnd s = s := by
  apply trimEnd_of
  intro x hx
  by_cases hs : s = []
  · subst hs; simp at hx
  · rw [last_at s hs] at hx
    simp only [Option.mem_def, Option.some.injEq] at hx
    exact hx ▸ h.last.2.2

theorem Calm.bc {s : List Nat} (h : Calm s) : checkBc s = (false, s) := by
  unfold checkBc
  simp only [removeSub_none (sub := bytes "ad") (by decide) h.a, Option.getD_none, removeSub_none (sub := bytes "a.d.") (by decide) h.a,
    removeSub_none (sub := bytes "bc") (by decide) h.b, removeSub_none (sub := bytes "b.c.") (by decide) h.b]
  rw [trimStart_of h.first.1, h.trimEnd]

/-- Up to the keywords. -/
theorem getTime_calm (env : Env K) (f : Fmt) (init : K) {text str : List Nat} (hne : text ≠ []) (h0 : at? text 0 ≠ 32)
    (htext : spacedOut text = str) (hl : str.length < 80) (hc : Calm str) :
    getTimeFromString env f init text =
      if (keywords env ⟨-2451545, str, 0, init⟩).rval ≠ -2451545 then
        .ok ((keywords env ⟨-2451545, str, 0, init⟩).rval, (keywords env ⟨-2451545, str, 0, init⟩).flag)
      else dateAndTime env f false 0 (keywords env ⟨-2451545, str, 0, init⟩) := by
  subst htext
  have hlen := spacedOut_length text
  unfold getTimeFromString
  rw [getTime_succ, trimStart_of h0, if_neg (by simp only [not_or]; exact ⟨by omega, hne⟩), normalise_short hne hl]
  simp only [Run.bind, hc.trimEnd, offsets_none hc.unit hc.first.2.2 hc.first.2.1, afterOffsets, phase_none hc.last.1 hc.last.2.1, ite_self, hc.bc,
    add_zero]

/-- A letter at the beginning and a number at the end. -/
theorem calm_number {k ds : List Nat} {v : K} {dec : Bool} (hd : NumField ds v dec) (hk : ∀ c ∈ k, c ≠ 97 ∧ c ≠ 98)
    (h0 : 97 ≤ at? (k ++ ds) 0) : Calm (k ++ ds) := by
  have hb : ∀ c ∈ ds, c ≠ 97 ∧ c ≠ 98 := fun c hc => by have := hd.bytes c hc; omega
  have hm := last_at ds hd.ne_nil
  have hlb := hd.bytes _ (List.mem_of_getLast? hm)
  have hlast : at? (k ++ ds) ((k ++ ds).length - 1) = at? ds (ds.length - 1) := last_append hd.ne_nil
  refine ⟨?_, ?_, ?_, by omega, ?_⟩
  · intro h; rcases List.mem_append.1 h with h | h
    · exact (hk _ h).1 rfl
    · exact (hb _ h).1 rfl
  · intro h; rcases List.mem_append.1 h with h | h
    · exact (hk _ h).2 rfl
    · exact (hb _ h).2 rfl
  · rw [hlast]; omega
  · left
    unfold NoUnit
    rw [hlast]
    intro hmem
    have : ∀ c ∈ bytes "smhdwlyc", 58 < c := by decide
    have := this _ hmem
    omega

theorem strtold_blank {ds : List Nat} {v : K} {dec : Bool} (hd : NumField ds v dec) : strtold (K := K) (32 :: ds) = (v, []) := by
  have h1 := hd.strtold (rest := []) stops_nil
  rw [List.append_nil] at h1
  have h2 : skipSpace (32 :: ds) = skipSpace ds := by rw [skipSpace, if_pos (by rfl)]
  have hh := hd.head
  have h3 : skipSpace ds = ds := skipSpace_of (by simp [isSpace]; omega)
  have hm : mantissa ds ≠ none := by
    rcases hd with ⟨-, a, b, -⟩ | ⟨-, xs, fs, a, b, c, -, rfl, -⟩
    · have := mantissa_digits (rest := []) a b rfl (by simp [at?])
      rw [List.append_nil] at this
      rw [this]; simp
    · have := mantissa_decimal (rest := []) a c (Or.inl b) rfl
      rw [List.append_nil] at this
      rw [this]; simp
  have h4 : sign ds = (false, ds) := sign_of (by omega) (by omega)
  unfold strtold at *
  rw [h3, h4] at h1
  rw [h2, h3, h4]
  simp only at h1 ⊢
  cases hq : mantissa ds with
  | none => exact absurd hq hm
  | some q => rw [hq] at h1; exact h1

/-- **C68.** "JD" or "J" and a number other than 0: that Julian Date, marked as universal time. -/
theorem C68_jd (env : Env K) (f : Fmt) (init v : K) (dec : Bool) (k ds text : List Nat) (hk : k = bytes "jd " ∨ k = bytes "j ")
    (hd : Decimal v dec ds) (hv : v ≠ 0) (h0 : at? text 0 ≠ 32) (htext : spacedOut text = k ++ ds) (hl : (k ++ ds).length < 80) :
    getTimeFromString env f init text = .ok (v - 2451545, 1) := by
  have hne : text ≠ [] := by rintro rfl; have := congrArg List.length htext; rcases hk with rfl | rfl <;> simp [spacedOut, bytes] at this
  have hn := hd.numField
  rw [getTime_calm env f init hne h0 htext hl (calm_number hn (by rcases hk with rfl | rfl <;> decide) (by rcases hk with rfl | rfl <;> simp [at?, bytes]))]
  have hr : v - 2451545 ≠ -2451545 := by intro h; apply hv; linarith
  have hst := strtold_blank hn
  have hkw : keywords env ⟨-2451545, k ++ ds, 0, init⟩ = ⟨v - 2451545, (if k = bytes "jd " then bytes "d " else bytes "j ") ++ ds, 1, init⟩ := by
    rcases hk with rfl | rfl
    · have e : bytes "jd " ++ ds = 106 :: 100 :: 32 :: ds := rfl
      have e' : bytes "d " ++ ds = 100 :: 32 :: ds := rfl
      rw [if_pos rfl, e, e']
      simp [keywords, kwJd, kwYear, kwMjd, kwGps, kwUnix, kwNow, kwEmpty, at?, bytes, List.isPrefixOf, hst, hr]
    · have e : bytes "j " ++ ds = 106 :: 32 :: ds := rfl
      rw [if_neg (by decide), e]
      simp [keywords, kwJd, kwYear, kwMjd, kwGps, kwUnix, kwNow, kwEmpty, at?, bytes, List.isPrefixOf, hst, hr]
  rw [hkw]
  simp only
  rw [if_pos hr]

theorem Decimal.nonneg {v : K} {dec : Bool} {s : List Nat} (h : Decimal v dec s) : 0 ≤ v := by
  cases dec with
  | false => obtain ⟨n, -, rfl⟩ := h; positivity
  | true => obtain ⟨n, k, a, b, -, -, -, rfl⟩ := h; positivity

/-- **C68.** "MJD" and a number: that Modified Julian Date, marked as universal time. -/
theorem C68_mjd (env : Env K) (f : Fmt) (init v : K) (dec : Bool) (ds text : List Nat)
    (hd : Decimal v dec ds) (h0 : at? text 0 ≠ 32) (htext : spacedOut text = bytes "mjd " ++ ds) (hl : (bytes "mjd " ++ ds).length < 80) :
    getTimeFromString env f init text = .ok (v + (2400000 + 1 / 2) - 2451545, 1) := by
  have hne : text ≠ [] := by rintro rfl; have := congrArg List.length htext; simp [spacedOut, bytes] at this
  have hn := hd.numField
  have hv := hd.nonneg
  rw [getTime_calm env f init hne h0 htext hl (calm_number hn (by decide) (by simp [at?, bytes]))]
  have hst := strtold_blank hn
  have e : bytes "mjd " ++ ds = 109 :: 106 :: 100 :: 32 :: ds := rfl
  have hkw : keywords env ⟨-2451545, bytes "mjd " ++ ds, 0, init⟩ = ⟨v + 4800001 / 2 - 2451545, bytes "mjd " ++ ds, 1, init⟩ := by
    rw [e]
    simp [keywords, kwJd, kwYear, kwMjd, kwGps, kwUnix, kwNow, kwEmpty, at?, bytes, List.isPrefixOf, hst]
  rw [hkw]
  simp only
  rw [if_pos (by intro h; linarith)]
  congr 2
  ring

/-- **C68.** "y" and a number: Julian years of 365.25 days from 2000 January 1.0. -/
theorem C68_year (env : Env K) (f : Fmt) (init v : K) (dec : Bool) (ds text : List Nat)
    (hd : Decimal v dec ds) (h0 : at? text 0 ≠ 32) (htext : spacedOut text = bytes "y " ++ ds) (hl : (bytes "y " ++ ds).length < 80) :
    getTimeFromString env f init text = .ok ((v - 2000) * (365 + 1 / 4) - 1 / 2, 0) := by
  have hne : text ≠ [] := by rintro rfl; have := congrArg List.length htext; simp [spacedOut, bytes] at this
  have hn := hd.numField
  have hv := hd.nonneg
  rw [getTime_calm env f init hne h0 htext hl (calm_number hn (by decide) (by simp [at?, bytes]))]
  have hst := strtold_blank hn
  have e : bytes "y " ++ ds = 121 :: 32 :: ds := rfl
  have hkw : keywords env ⟨-2451545, bytes "y " ++ ds, 0, init⟩ = ⟨(v - 2000) * (1461 / 4) - 1 / 2, bytes "y " ++ ds, 0, init⟩ := by
    rw [e]
    simp [keywords, kwJd, kwYear, kwMjd, kwGps, kwUnix, kwNow, kwEmpty, at?, bytes, List.isPrefixOf, hst]
  rw [hkw]
  simp only
  rw [if_pos (by intro h; linarith)]
  congr 2
  ring

/-- **C68.** "unix" and a number: seconds since 1970 January 1.0. -/
theorem C68_unix (env : Env K) (f : Fmt) (init v : K) (dec : Bool) (ds text : List Nat)
    (hd : Decimal v dec ds) (h0 : at? text 0 ≠ 32) (htext : spacedOut text = bytes "unix " ++ ds) (hl : (bytes "unix " ++ ds).length < 80) :
    getTimeFromString env f init text = .ok ((gregorian.dayNumber 1 1 1970 : K) - 1 / 2 - 2451545 + v / 86400, 0) := by
  have hne : text ≠ [] := by rintro rfl; have := congrArg List.length htext; simp [spacedOut, bytes] at this
  have hn := hd.numField
  have hv := hd.nonneg
  rw [getTime_calm env f init hne h0 htext hl (calm_number hn (by decide) (by simp [at?, bytes]))]
  have hst := hn.strtold (rest := []) stops_nil
  rw [List.append_nil] at hst
  have e : bytes "unix " ++ ds = 117 :: 110 :: 105 :: 120 :: 32 :: ds := rfl
  have hkw : keywords env ⟨-2451545, bytes "unix " ++ ds, 0, init⟩ = ⟨v / 86400 + (4881175 / 2 - 2451545), bytes "unix " ++ ds, 0, init⟩ := by
    rw [e]
    simp [keywords, kwJd, kwYear, kwMjd, kwGps, kwUnix, kwNow, kwEmpty, at?, bytes, List.isPrefixOf, hst]
  rw [hkw]
  have hj : gregorian.dayNumber 1 1 1970 = 2440588 := by decide +kernel
  simp only [hj]
  have hv' : 0 ≤ v / 86400 := by positivity
  rw [if_pos (by intro h; linarith)]
  refine congrArg (fun z => Run.ok (z, (0 : Int))) ?_
  push_cast
  ring

/-- **C68.** "gps", four digits of the GPS week and one for the day of the week: days from 1980 January 6.0. -/
theorem C68_gps (env : Env K) (f : Fmt) (init : K) (week day : Nat) (ds text : List Nat) (hw : week < 10000) (hday : day < 10)
    (hd : Padded 5 (week * 10 + day) ds) (h0 : at? text 0 ≠ 32) (htext : spacedOut text = bytes "gps " ++ ds) :
    getTimeFromString env f init text = .ok ((gregorian.dayNumber 6 1 1980 : K) - 1 / 2 - 2451545 + week * 7 + day, 0) := by
  have hne : text ≠ [] := by rintro rfl; have := congrArg List.length htext; simp [spacedOut, bytes] at this
  obtain ⟨a1, a2, a3⟩ := padded_field hd (by omega)
  have hn : NumField ds ((week * 10 + day : Nat) : K) false := Or.inl ⟨rfl, a1, a2, by rw [a3]⟩
  have hl : (bytes "gps " ++ ds).length < 80 := by rw [List.length_append, hd.width]; decide
  rw [getTime_calm env f init hne h0 htext hl (calm_number hn (by decide) (by simp [at?, bytes]))]
  have e : bytes "gps " ++ ds = 103 :: 112 :: 115 :: 32 :: ds := rfl
  have htake : ds.take 5 = ds := List.take_of_length_le (by rw [hd.width])
  have hc : digitCount ds = 5 := by
    have := (digits_span (rest := []) a1 rfl 0).1
    rw [List.append_nil] at this
    rw [this, hd.width]
  have hr : readDigits 0 ds = week * 10 + day := by
    rw [readDigits_value 0 ds a1, a3]; simp
  have hkw : keywords env ⟨-2451545, bytes "gps " ++ ds, 0, init⟩ =
      ⟨((week * 7 + day : Int) : K) + 4888489 / 2 - 2451545, bytes "gps " ++ ds, 0, init⟩ := by
    rw [e]
    simp only [keywords, kwJd, kwYear, kwMjd, kwGps, kwUnix, kwNow, kwEmpty]
    simp [at?, bytes, List.isPrefixOf, htake, hc, hr]
    have ht1' : ((week : Int) * 10 + day).tdiv 10 = week := by rw [Int.tdiv_eq_ediv_of_nonneg (by omega)]; omega
    have ht2' : ((week : Int) * 10 + day).tmod 10 = day := by rw [Int.tmod_eq_emod_of_nonneg (by omega)]; omega
    rw [ht1', ht2']
    push_cast
    ring
  rw [hkw]
  have hv' : (0 : K) ≤ ((week * 7 + day : Int) : K) := by positivity
  have hj : gregorian.dayNumber 6 1 1980 = 2444245 := by decide +kernel
  simp only [hj]
  rw [if_pos (by intro h; linarith)]
  refine congrArg (fun z => Run.ok (z, (0 : Int))) ?_
  push_cast
  ring

/-- **C68.** "now" is the clock. -/
theorem C68_now (env : Env K) (f : Fmt) (init : K) (hnow : 0 ≤ env.now) (text : List Nat) (htext : spacedOut text = bytes "now") (h0 : at? text 0 ≠ 32) :
    getTimeFromString env f init text = .ok ((gregorian.dayNumber 1 1 1970 : K) - 1 / 2 - 2451545 + (env.now : K) / 86400, 0) := by
  have hne : text ≠ [] := by rintro rfl; have := congrArg List.length htext; simp [spacedOut, bytes] at this
  rw [getTime_calm env f init hne h0 htext (by decide) ⟨by decide, by decide, by decide, by decide, Or.inr (by decide)⟩]
  have hkw : keywords env ⟨-2451545, bytes "now", 0, init⟩ =
      ⟨4881175 / 2 - 2451545 + (env.now : K) / 86400, [], 0, 4881175 / 2 - 2451545 + (env.now : K) / 86400⟩ := by
    simp [keywords, kwJd, kwYear, kwMjd, kwGps, kwUnix, kwNow, kwEmpty, at?, bytes, List.isPrefixOf, trimStart]
  rw [hkw]
  have hv' : (0 : K) ≤ (env.now : K) / 86400 := by
    have : (0 : K) ≤ (env.now : K) := by exact_mod_cast hnow
    positivity
  have hj : gregorian.dayNumber 1 1 1970 = 2440588 := by decide +kernel
  simp only [hj]
  rw [if_pos (by intro h; linarith)]
  refine congrArg (fun z => Run.ok (z, (0 : Int))) ?_
  push_cast
  ring

/-! ## FITS times -/

/-- "YYYY-MM-DDT" as it is in the buffer. -/
def fitsText (yyyy mm dd : List Nat) : List Nat := yyyy ++ 45 :: (mm ++ 45 :: (dd ++ [32, 116]))

theorem clock_parts {p n : Nat} {time : List Nat} (h : TimeOfDay true .seconds p n time) :
    ∃ a b rest, time = a :: b :: 58 :: rest ∧ 5 ≤ rest.length ∧ ClockText time ((n : K) / (Clock.seconds.perDay * 10 ^ p)) := by
  obtain ⟨b, t, e, hb, hc⟩ := after_split (K := K) (by decide) h
  obtain ⟨v, frac, hf, hour, m, sec, hh, mm, ss, ph, pm, ps, -, -, -, -, rfl⟩ := h
  have ph : Padded 2 hour hh := by simpa [TwoBytes] using ph
  obtain ⟨x, y, rfl⟩ : ∃ x y, hh = [x, y] := by
    have := ph.width
    match hh, this with
    | [x, y], _ => exact ⟨x, y, rfl⟩
  have hx := ph.1 x (by simp)
  have hb' : b = [] := by
    rcases hb with rfl | rfl
    · rfl
    · exfalso
      simp at e
      omega
  subst hb'
  simp only [List.nil_append, List.cons.injEq, true_and] at e
  refine ⟨x, y, mm ++ 58 :: ss ++ frac, by simp, ?_, ?_⟩
  · simp [pm.width, ps.width]; omega
  · rw [e]; exact hc

theorem four {s : List Nat} (h : s.length = 4) : ∃ a b c d, s = [a, b, c, d] := by
  match s, h with
  | [a, b, c, d], _ => exact ⟨a, b, c, d, rfl⟩

theorem two {s : List Nat} (h : s.length = 2) : ∃ a b, s = [a, b] := by
  match s, h with
  | [a, b], _ => exact ⟨a, b, rfl⟩

/-- The texts of this section have digits, dashes, colons, dots, blanks and a t. -/
theorem calm_fits {yyyy mm dd rest : List Nat} (hy : AllDigits yyyy) (hy0 : yyyy ≠ []) (hm : AllDigits mm) (hd : AllDigits dd) (hr0 : rest ≠ [])
    (hr : ∀ c ∈ rest, c ≠ 97 ∧ c ≠ 98 ∧ c ≠ 112)
    (hlast : at? rest (rest.length - 1) = 122 ∨ (46 ≤ at? rest (rest.length - 1) ∧ at? rest (rest.length - 1) ≤ 58)) :
    Calm (fitsText yyyy mm dd ++ rest) ∧ NoKeyword (fitsText yyyy mm dd ++ rest) ∧ amPm (fitsText yyyy mm dd ++ rest) = (0, fitsText yyyy mm dd ++ rest) := by
  have hmem : ∀ c ∈ fitsText yyyy mm dd ++ rest, c ≠ 97 ∧ c ≠ 98 ∧ c ≠ 112 := by
    intro c hc
    simp only [fitsText, List.mem_append, List.mem_cons, List.not_mem_nil, or_false] at hc
    rcases hc with (h | h | h | h | h | h | h) | h
    · have := hy c h; omega
    · omega
    · have := hm c h; omega
    · omega
    · have := hd c h; omega
    · omega
    · omega
    · exact hr c h
  have ha : 97 ∉ fitsText yyyy mm dd ++ rest := fun h => (hmem _ h).1 rfl
  have hp : 112 ∉ fitsText yyyy mm dd ++ rest := fun h => (hmem _ h).2.2 rfl
  have h0 : at? (fitsText yyyy mm dd ++ rest) 0 = at? yyyy 0 := by
    rw [fitsText, List.append_assoc, at_append_left hy0]
  have hh := head_digit hy hy0
  have hl : at? (fitsText yyyy mm dd ++ rest) ((fitsText yyyy mm dd ++ rest).length - 1) = at? rest (rest.length - 1) := last_append hr0
  have hx : ∀ p, 58 < at? p 0 → p.isPrefixOf (fitsText yyyy mm dd ++ rest) = false := by
    intro p hp
    generalize fitsText yyyy mm dd ++ rest = s at h0
    cases s with
    | nil => rw [← h0] at hh; simp [at?] at hh
    | cons c t =>
      cases p with
      | nil => simp [at?] at hp
      | cons k ks =>
        have h1 : k ≠ c := by
          have h2 : at? (c :: t) 0 = c := rfl
          have h3 : at? (k :: ks) 0 = k := rfl
          omega
        simp [List.isPrefixOf, h1]
  refine ⟨⟨ha, fun h => (hmem _ h).2.1 rfl, by rw [hl]; omega, by omega, ?_⟩, ⟨by omega, by omega, hx _ (by decide), hx _ (by decide), hx _ (by decide), hx _ (by decide)⟩, ?_⟩
  · left
    unfold NoUnit
    rw [hl]
    intro hmem
    have : ∀ c ∈ bytes "smhdwlyc", 58 < c ∧ c < 122 := by decide
    have := this _ hmem
    omega
  · exact amPm_none (removeSub_none (c := 97) (by decide) ha) (removeSub_none (c := 97) (by decide) ha)
      (removeSub_none (c := 112) (by decide) hp) (removeSub_none (c := 112) (by decide) hp)

theorem fits_parts {y m d : Nat} {yyyy mm dd : List Nat} (hy : Padded 4 y yyyy) (hm : Padded 2 m mm) (hd : Padded 2 d dd) {a b : Nat} {rest : List Nat}
    (hr : 3 ≤ rest.length) (mo : Moment K) :
    isFits (fitsText yyyy mm dd ++ 32 :: a :: b :: 58 :: rest) = true ∧
    dots (fitsText yyyy mm dd ++ 32 :: a :: b :: 58 :: rest) = fitsText yyyy mm dd ++ 32 :: a :: b :: 58 :: rest ∧
    fitsDate (fitsText yyyy mm dd ++ 32 :: a :: b :: 58 :: rest) mo = { mo with year := y, month := m, day := d } := by
  obtain ⟨y1, y2, y3⟩ := padded_field hy (by omega)
  obtain ⟨m1, m2, m3⟩ := padded_field hm (by omega)
  obtain ⟨d1, d2, d3⟩ := padded_field hd (by omega)
  refine ⟨?_, ?_, ?_⟩
  · obtain ⟨a1, a2, a3, a4, rfl⟩ := four hy.width
    obtain ⟨b1, b2, rfl⟩ := two hm.width
    obtain ⟨c1, c2, rfl⟩ := two hd.width
    simp [isFits, fitsText, at?]
    omega
  · have hn : NumField yyyy ((value yyyy : Nat) : ℚ) false := Or.inl ⟨rfl, y1, y2, rfl⟩
    have := dots_field hn (sep := 45) (by omega) (mm ++ 45 :: (dd ++ [32, 116]) ++ 32 :: a :: b :: 58 :: rest)
    simpa [fitsText] using this
  · have e : fitsText yyyy mm dd ++ 32 :: a :: b :: 58 :: rest = yyyy ++ 45 :: (mm ++ 45 :: (dd ++ 32 :: 116 :: 32 :: a :: b :: 58 :: rest)) := by
      simp [fitsText]
    rw [e]
    unfold fitsDate
    rw [scanInt_digits y1 y2 rfl]
    simp only
    rw [scanInt_digits m1 m2 rfl]
    simp only
    rw [scanInt_digits d1 d2 rfl]
    simp [y3, m3, d3]

/-- **C67.** "YYYY-MM-DDTHH:MM:SS" with any number of decimals is read as that date and time whatever the format, the
    initial time, the names and the clock: year, month and day in this order even if the format says otherwise. -/
theorem C67_fits (env : Env K) (f : Fmt) (init : K) (y m d p n : Nat) (yyyy mm dd time text : List Nat) (hy : Padded 4 y yyyy)
    (hm : Padded 2 m mm) (hd : Padded 2 d dd) (ht : TimeOfDay true .seconds p n time) (h0 : at? text 0 ≠ 32)
    (htext : spacedOut text = fitsText yyyy mm dd ++ 32 :: time) (hl : (spacedOut text).length < 80)
    (z : Int) (hz : dmyToDay d m y f.calendar = some z) :
    getTimeFromString env f init text = .ok ((z : K) - 2451545 - 1 / 2 + (n : K) / (86400 * 10 ^ p), 0) := by
  obtain ⟨a, b, rest, rfl, hlen, hc⟩ := clock_parts (K := K) ht
  have hne : text ≠ [] := by rintro rfl; have := congrArg List.length htext; simp [spacedOut] at this
  obtain ⟨y1, y2, y3⟩ := padded_field hy (by omega)
  obtain ⟨m1, m2, m3⟩ := padded_field hm (by omega)
  obtain ⟨d1, d2, d3⟩ := padded_field hd (by omega)
  have hm' := last_at _ hc.ne_nil
  have hlb := hc.bytes _ (List.mem_of_getLast? hm')
  obtain ⟨c1, c2, c3⟩ := calm_fits (rest := 32 :: a :: b :: 58 :: rest) y1 y2 m1 d1 (by simp)
    (fun c hcm => by
      rw [List.mem_cons] at hcm
      rcases hcm with h | h
      · omega
      · have := hc.bytes c h; omega)
    (Or.inr (by
      have := last_append (a := [32]) hc.ne_nil
      rw [List.singleton_append] at this
      rw [this]; omega))
  obtain ⟨e1, e2, e3⟩ := fits_parts hy hm hd (a := a) (b := b) (rest := rest) (by omega) (env.split init)
  rw [getTime_calm env f init hne h0 htext (by rw [← htext]; exact hl) c1, keywords_none env _ (by simp [fitsText]) c2 rfl]
  simp only [ne_eq, not_true_eq_false, if_false]
  have htl : tailLen (fitsText yyyy mm dd ++ 32 :: a :: b :: 58 :: rest) = (a :: b :: 58 :: rest).length := by
    apply tailLen_append
    intro c hcm
    have := hc.bytes c hcm
    refine ⟨by omega, ?_⟩
    rw [Bool.eq_false_iff, ne_eq, isAlpha_iff]
    omega
  have hdrop : (fitsText yyyy mm dd ++ 32 :: a :: b :: 58 :: rest).drop
      ((fitsText yyyy mm dd ++ 32 :: a :: b :: 58 :: rest).length - (a :: b :: 58 :: rest).length) = a :: b :: 58 :: rest := by
    rw [show fitsText yyyy mm dd ++ 32 :: a :: b :: 58 :: rest = (fitsText yyyy mm dd ++ [32]) ++ (a :: b :: 58 :: rest) by simp]
    exact List.drop_left' (by simp; omega)
  have hcont : (a :: b :: 58 :: rest).contains 58 = true := by simp
  have h58 : at? (a :: b :: 58 :: rest) 0 ≠ 58 := by have := hc.head; omega
  have hne58 : (a :: b :: 58 :: rest) ≠ [58] := by simp
  unfold dateAndTime
  simp only [e2, e1, if_true, e3, c3, ite_self, htl, hdrop]
  unfold timeOfDay
  simp only [if_neg hne58, hcont, if_true, if_pos h58]
  have := hc.value
  have hz' : dmyToDay (trunc ((d : Int) : K)) m y f.calendar = some z := by
    rw [show trunc ((d : Int) : K) = d by rw [trunc, if_pos (by positivity), Int.floor_intCast]]; exact hz
  have hfin := finish_value f (⟨(y : Int), (m : Int), ((d : Int) : K)⟩ : Ymd K) (scanHms (K := K) (a :: b :: 58 :: rest)).1 _ _ this z hz'
  simp only [OfNat.ofNat_ne_zero, false_and, if_false, OfNat.zero_ne_ofNat, zero_ne_one]
  rw [hfin]
  have htr : trunc ((d : Int) : K) = d := by rw [trunc, if_pos (by positivity), Int.floor_intCast]
  simp only [Run.bind, htr]
  congr 2
  simp [Clock.perDay]

/-- **C67.** Finding: with a Z for universal time at the end ("2009-03-05T12:30:00Z") the time of day is lost. -/
theorem C67_zulu (env : Env K) (f : Fmt) (init : K) (y m d p n : Nat) (yyyy mm dd time text : List Nat) (hy : Padded 4 y yyyy)
    (hm : Padded 2 m mm) (hd : Padded 2 d dd) (ht : TimeOfDay true .seconds p n time) (h0 : at? text 0 ≠ 32)
    (htext : spacedOut text = fitsText yyyy mm dd ++ 32 :: (time ++ [32, 122])) (hl : (spacedOut text).length < 80)
    (z : Int) (hz : dmyToDay d m y f.calendar = some z) :
    getTimeFromString env f init text = .ok ((z : K) - 2451545 - 1 / 2, 0) := by
  obtain ⟨a, b, rest, rfl, hlen, hc⟩ := clock_parts (K := K) ht
  have hne : text ≠ [] := by rintro rfl; have := congrArg List.length htext; simp [spacedOut] at this
  obtain ⟨y1, y2, y3⟩ := padded_field hy (by omega)
  obtain ⟨m1, m2, m3⟩ := padded_field hm (by omega)
  obtain ⟨d1, d2, d3⟩ := padded_field hd (by omega)
  have e : 32 :: (a :: b :: 58 :: rest ++ [32, 122]) = 32 :: a :: b :: 58 :: (rest ++ [32, 122]) := by simp
  rw [e] at htext
  obtain ⟨c1, c2, c3⟩ := calm_fits (rest := 32 :: a :: b :: 58 :: (rest ++ [32, 122])) y1 y2 m1 d1 (by simp)
    (fun c hcm => by
      rw [← e] at hcm
      simp only [List.mem_cons, List.mem_append, List.not_mem_nil, or_false] at hcm
      rcases hcm with h | (h | h | h | h) | h | h
      · omega
      · have := hc.bytes c (by simp [h]); omega
      · have := hc.bytes c (by simp [h]); omega
      · omega
      · have := hc.bytes c (by simp [h]); omega
      · omega
      · omega)
    (Or.inl (by
      rw [show 32 :: a :: b :: 58 :: (rest ++ [32, 122]) = (32 :: a :: b :: 58 :: rest) ++ [32, 122] by simp]
      exact (last_two _ _ _).1))
  obtain ⟨e1, e2, e3⟩ := fits_parts hy hm hd (a := a) (b := b) (rest := rest ++ [32, 122]) (by simp; omega) (env.split init)
  rw [getTime_calm env f init hne h0 htext (by rw [← htext]; exact hl) c1, keywords_none env _ (by simp [fitsText]) c2 rfl]
  simp only [ne_eq, not_true_eq_false, if_false]
  have htl : tailLen (fitsText yyyy mm dd ++ 32 :: a :: b :: 58 :: (rest ++ [32, 122])) = 0 := by
    unfold tailLen
    rw [show fitsText yyyy mm dd ++ 32 :: a :: b :: 58 :: (rest ++ [32, 122]) = (fitsText yyyy mm dd ++ 32 :: a :: b :: 58 :: (rest ++ [32])) ++ [122] by simp,
      List.reverse_append]
    simp [isAlpha, isUpper, isLower]
  unfold dateAndTime
  simp only [e2, e1, if_true, e3, c3, ite_self, htl, Nat.sub_zero, List.drop_length]
  unfold timeOfDay
  have htr : trunc ((d : Int) : K) = d := by rw [trunc, if_pos (by positivity), Int.floor_intCast]
  have hfin := finish_value f (⟨(y : Int), (m : Int), ((d : Int) : K)⟩ : Ymd K) 0 0 0 (by simp) z (by simp only [htr]; exact hz)
  simp only [List.contains_nil, Bool.false_eq_true, if_false, List.nil_eq, List.cons_ne_self, reduceCtorEq]
  rw [hfin]
  simp only [Run.bind, htr]
  congr 2
  simp

/-! ## Weekdays -/

/-- The English names, Sunday first. -/
def weekdays : List (List Nat) :=
  [bytes "sunday", bytes "monday", bytes "tuesday", bytes "wednesday", bytes "thursday", bytes "friday", bytes "saturday"]

/-- `w` is the name of weekday `k` in full or the first three letters of it. -/
def EnglishDay (k : Nat) (w : List Nat) : Prop := ∃ full, weekdays[k]? = some full ∧ (w = full ∨ w = full.take 3)

/-- The seven names begin as in English, in upper or lower case. -/
def EnglishDays (names : Int → Option (List Nat)) : Prop :=
  ∀ (k : Nat) full, weekdays[k]? = some full → ∃ n, names (k : Int) = some n ∧ (n.take 3).map lower = full.take 3

theorem weekdays_text : ∀ full ∈ weekdays, NameText full ∧ NameText (full.take 3) := by decide +kernel
theorem weekdays_lower : ∀ full ∈ weekdays, (full.take 3).map toLower = full.take 3 ∧ 3 ≤ full.length := by decide +kernel
theorem weekdays_distinct : ∀ i < 7, ∀ j < 7, i ≠ j → (weekdays[i]?.map (List.take 3)) ≠ (weekdays[j]?.map (List.take 3)) := by decide +kernel
theorem weekdays_last : ∀ full ∈ weekdays, ∀ w ∈ [full, full.take 3],
    dots w = w ∧ isFits w = false ∧ tailLen w = 0 ∧ amPm w = (0, w) ∧ w.all (fun c => !isSep c) := by decide +kernel
theorem weekdays_spaced : ∀ full ∈ weekdays, ∀ w ∈ [full, full.take 3], w ≠ [] ∧ w.length < 80 := by decide +kernel

theorem EnglishDay.lt {k : Nat} {w : List Nat} (h : EnglishDay k w) : k < 7 := by
  obtain ⟨full, h, -⟩ := h
  exact (List.getElem?_eq_some_iff.1 h).1

theorem EnglishDay.three {k : Nat} {w : List Nat} (h : EnglishDay k w) :
    ∃ full, weekdays[k]? = some full ∧ w.take 3 = full.take 3 ∧ (w.take 3).map toLower = w.take 3 ∧ 3 ≤ w.length ∧ w ∈ [full, full.take 3] ∧ NameText w := by
  obtain ⟨full, hf, hw⟩ := h
  have hm := List.mem_of_getElem? hf
  obtain ⟨l1, l2⟩ := weekdays_lower full hm
  obtain ⟨t1, t2⟩ := weekdays_text full hm
  rcases hw with rfl | rfl
  · exact ⟨w, hf, rfl, l1, l2, by simp, t1⟩
  · exact ⟨full, hf, by rw [List.take_take]; rfl, by rw [List.take_take]; exact l1, by rw [List.length_take]; omega, by simp, t2⟩

theorem EnglishDay.index {env : Env K} (hn : EnglishDays env.days) {k : Nat} {w : List Nat} (h : EnglishDay k w) : dowIndex env w = some (k : Int) := by
  have hk := h.lt
  obtain ⟨full, hf, h3, hl, h3l, -, -⟩ := h.three
  have key : ∀ n : List Nat, nameMatches n w = ((n.take 3).map lower == full.take 3) := by
    intro n
    unfold nameMatches
    rw [show min 3 w.length = 3 by omega, hl, h3, show toLower = lower by funext c; exact toLower_eq c]
  apply nameIndex_first (by omega) (by omega)
  · obtain ⟨n, h1, h2⟩ := hn k full hf
    exact ⟨n, h1, by rw [key, h2]; simp⟩
  · intro j hj1 hj2
    obtain ⟨i, rfl⟩ := Int.eq_ofNat_of_zero_le hj1
    have hi : i < weekdays.length := by have : weekdays.length = 7 := rfl; omega
    obtain ⟨n, h1, h2⟩ := hn i weekdays[i] (List.getElem?_eq_getElem hi)
    refine ⟨n, h1, ?_⟩
    rw [key, h2, beq_eq_false_iff_ne]
    intro he
    have := weekdays_distinct i (by omega) k hk (by omega)
    rw [List.getElem?_eq_getElem hi, hf] at this
    exact this (by simp [he])

theorem EnglishDay.noMonth {env : Env K} {k : Nat} {w : List Nat} (h : EnglishDay k w)
    (hm : ∀ i n, env.months i = some n → (n.take 3).map lower ≠ w.take 3) : monthIndex env w = none := by
  obtain ⟨full, hf, h3, hl, h3l, -, -⟩ := h.three
  have key : ∀ i n, env.months i = some n → nameMatches n w = false := by
    intro i n hn
    unfold nameMatches
    rw [show min 3 w.length = 3 by omega, hl, beq_eq_false_iff_ne, show toLower = lower by funext c; exact toLower_eq c]
    exact hm i n hn
  unfold monthIndex
  generalize (1 : Int) = i
  generalize 13 = c
  induction c generalizing i with
  | zero => rfl
  | succ c ih =>
    rw [nameIndex]
    cases hi : env.months i with
    | none => exact ih _
    | some n => simp only [key i n hi, Bool.false_eq_true, if_false]; exact ih _

/-- What a weekday does, before looking at which day it is. -/
theorem read_weekday (env : Env K) (hdays : EnglishDays env.days) (f : Fmt) (hf : f.calendar = GREGORIAN) (init : K) (k : Nat) (w text : List Nat)
    (hw : EnglishDay k w) (hm : ∀ i n, env.months i = some n → (n.take 3).map lower ≠ w.take 3) (h0 : at? text 0 ≠ 32) (htext : spacedOut text = w)
    (today : Int) (hex : gregorian.Exists (env.split init).day (env.split init).month (env.split init).year)
    (ht : gregorian.dayNumber (env.split init).day (env.split init).month (env.split init).year = today) (hv : -6 ≤ weekday init k) :
    getTimeFromString env f init text = .ok (((today + weekday init k : Int) : K) - 2451545 - 1 / 2, 0) := by
  have hidx := hw.index hdays
  have hno := hw.noMonth hm
  obtain ⟨full, hfull, -, -, h3, hmem, hname⟩ := hw.three
  obtain ⟨d1, d2, d3, d4, d5⟩ := weekdays_last full (List.mem_of_getElem? hfull) w hmem
  obtain ⟨n1, n2⟩ := weekdays_spaced full (List.mem_of_getElem? hfull) w hmem
  have hne : text ≠ [] := by rintro rfl; apply n1; rw [← htext]; rfl
  have hlen := spacedOut_length text
  have hq : Quiet w := by
    have hnil : Plain [] := fun c hc => by simp at hc
    have := Around.quiet (pre := []) (w := w) (post := []) ⟨hname, hnil, hnil, Or.inl rfl, Or.inl rfl, fun h => absurd rfl h⟩
    simpa using this
  rw [getTime_plain env f init hne (by rw [← htext] at n2; omega) h0 (by rw [normalise_short hne (by rw [htext]; exact n2), htext]) n1 hq]
  unfold dateAndTime
  simp only [d1, d2, d3, d4, ite_self, Bool.false_eq_true, if_false, Nat.sub_zero, List.drop_length, timeOfDay, List.contains_nil, reduceCtorEq]
  have hff : firstField w = (w, []) := by
    cases w with
    | nil => exact absurd rfl n1
    | cons c t =>
      simp only [List.all_cons, Bool.and_eq_true] at d5
      have h := d5.2
      rw [List.all_eq_true] at h
      have ht := takeWhile_field (t := t) (rest := []) (p := fun c => !isSep c) h (Or.inl rfl)
      rw [List.append_nil] at ht
      rw [firstField, ht.1, ht.2]
  unfold dateOnly
  have hz : at? [] 0 = 0 := rfl
  have h13 := Exists.month_le gregorian_wf hex
  have hd1 := hex.2.1
  have htr : trunc ((((env.split init).day : Int) : K) + (weekday init k : K)) = (env.split init).day + weekday init k := by
    rw [← Int.cast_add, trunc]; split_ifs <;> simp
  have hday : dmyToDay ((env.split init).day + weekday init k) (env.split init).month (env.split init).year f.calendar = some (today + weekday init k) := by
    rw [hf, gregorian_refines.dmyToDay (by omega) (by omega), ← ht]
    unfold Calendar.dayNumber
    congr 1
    ring
  simp only [hff, lone, if_neg n1, hno, hidx, hz, OfNat.zero_ne_ofNat, or_self, if_false]
  rw [finish_value f _ 0 0 0 (by simp) (today + weekday init k) (by simp only [htr]; exact hday)]
  simp only [Run.bind, htr]
  refine congrArg (fun z => Run.ok (z, (0 : Int))) ?_
  push_cast
  ring

theorem weekday_after (init : K) (h : -(13 / 2) ≤ init) (k : Nat) (hk : k < 7) :
    -3 ≤ weekday init k ∧ weekday init k ≤ 3 ∧ (⌊init + 1 / 2⌋ + 2451545 + weekday init k + 1) % 7 = k := by
  have h1 : trunc (init + 13 / 2) = ⌊init + 1 / 2⌋ + 6 := by
    rw [trunc, if_pos (by linarith), show init + 13 / 2 = init + 1 / 2 + (6 : Int) by push_cast; ring, Int.floor_add_intCast]
  have h2 : 0 ≤ ⌊init + 1 / 2⌋ + 6 := by
    have : (-6 : Int) ≤ ⌊init + 1 / 2⌋ := Int.le_floor.2 (by push_cast; linarith)
    omega
  unfold weekday
  rw [h1, Int.tmod_eq_emod_of_nonneg h2]
  generalize ⌊init + 1 / 2⌋ = n at *
  simp only
  split_ifs <;> omega

/-- **C66.** The name of a weekday means the nearest such day, at most three days away, at midnight.  This needs a start
    not before 1999 December 25. -/
theorem C66_weekday (env : Env K) (hdays : EnglishDays env.days) (f : Fmt) (hf : f.calendar = GREGORIAN) (init : K) (k : Nat) (w text : List Nat)
    (hw : EnglishDay k w) (hm : ∀ i n, env.months i = some n → (n.take 3).map lower ≠ w.take 3) (h0 : at? text 0 ≠ 32) (htext : spacedOut text = w)
    (hex : gregorian.Exists (env.split init).day (env.split init).month (env.split init).year)
    (ht : gregorian.dayNumber (env.split init).day (env.split init).month (env.split init).year = ⌊init + 1 / 2⌋ + 2451545)
    (hi : -(13 / 2) ≤ init) :
    ∃ j : Int, getTimeFromString env f init text = .ok ((j : K) - 2451545 - 1 / 2, 0) ∧ (j + 1) % 7 = k ∧
      |j - (⌊init + 1 / 2⌋ + 2451545)| ≤ 3 := by
  obtain ⟨a, b, c⟩ := weekday_after init hi k hw.lt
  refine ⟨_, read_weekday env hdays f hf init k w text hw hm h0 htext _ hex ht (by omega), c, ?_⟩
  rw [abs_le]
  omega

theorem weekday_before (init : K) (h : init < -(13 / 2)) (hn : init + 1 / 2 ≠ (⌊init + 1 / 2⌋ : K)) (k : Nat) (hk : k < 7) :
    -3 ≤ weekday init k ∧ weekday init k ≤ 5 ∧ (⌊init + 1 / 2⌋ + 2451545 + weekday init k + 1 + 1) % 7 = k := by
  have h1 : trunc (init + 13 / 2) = ⌊init + 1 / 2⌋ + 7 := by
    rw [trunc, if_neg (by linarith), Int.ceil_eq_iff]
    have a1 := Int.floor_le (init + 1 / 2)
    have a2 := Int.lt_floor_add_one (init + 1 / 2)
    have a3 : (⌊init + 1 / 2⌋ : K) < init + 1 / 2 := lt_of_le_of_ne a1 (Ne.symm hn)
    push_cast
    constructor <;> linarith
  have h2 : ⌊init + 1 / 2⌋ + 7 ≤ 0 := by
    have : ⌊init + 1 / 2⌋ < -6 := Int.floor_lt.2 (by push_cast; linarith)
    omega
  unfold weekday
  rw [h1]
  have h3 : (⌊init + 1 / 2⌋ + 7).tmod 7 = -((-(⌊init + 1 / 2⌋ + 7)) % 7) := by
    rw [← Int.tmod_eq_emod_of_nonneg (by omega), Int.neg_tmod, neg_neg]
  rw [h3]
  generalize ⌊init + 1 / 2⌋ = n at *
  simp only
  split_ifs <;> omega

/-- **C66.** Finding: before that the remainder is taken of a negative number rounded towards zero, and the name of a weekday
    means the day before such a day, up to five days away. -/
theorem C66_before (env : Env K) (hdays : EnglishDays env.days) (f : Fmt) (hf : f.calendar = GREGORIAN) (init : K) (k : Nat) (w text : List Nat)
    (hw : EnglishDay k w) (hm : ∀ i n, env.months i = some n → (n.take 3).map lower ≠ w.take 3) (h0 : at? text 0 ≠ 32) (htext : spacedOut text = w)
    (hex : gregorian.Exists (env.split init).day (env.split init).month (env.split init).year)
    (ht : gregorian.dayNumber (env.split init).day (env.split init).month (env.split init).year = ⌊init + 1 / 2⌋ + 2451545)
    (hi : init < -(13 / 2)) (hn : init + 1 / 2 ≠ (⌊init + 1 / 2⌋ : K)) :
    ∃ j : Int, getTimeFromString env f init text = .ok ((j : K) - 2451545 - 1 / 2, 0) ∧ (j + 1 + 1) % 7 = k ∧ (j + 1) % 7 ≠ k ∧
      -3 ≤ j - (⌊init + 1 / 2⌋ + 2451545) ∧ j - (⌊init + 1 / 2⌋ + 2451545) ≤ 5 := by
  obtain ⟨a, b, c⟩ := weekday_before init hi hn k hw.lt
  refine ⟨_, read_weekday env hdays f hf init k w text hw hm h0 htext _ hex ht (by omega), c, ?_, by omega, by omega⟩
  omega

/-! ## Cases -/

/-- "JD 2451545.25" -/
example : getTimeFromString exampleEnv exampleFmt 0 (bytes "JD 2451545.25") = .ok (2451545 + 25 / 10 ^ 2 - 2451545, 1) :=
  C68_jd exampleEnv exampleFmt 0 _ true (bytes "jd ") (bytes "2451545.25") _ (Or.inl rfl)
    ⟨2451545, 25, bytes "2451545", bytes "25", by unfold Whole AllDigits value; decide, by unfold Whole AllDigits value; decide, by decide,
      by rw [show (bytes "25").length = 2 by decide]; norm_num⟩ (by norm_num) (by decide) (by decide) (by decide)

example : getTimeFromString exampleEnv exampleFmt 0 (bytes "MJD51544") = .ok ((51544 : ℕ) + (2400000 + 1 / 2) - 2451545, 1) :=
  C68_mjd exampleEnv exampleFmt 0 _ false (bytes "51544") _ ⟨51544, by unfold Whole AllDigits value; decide, rfl⟩ (by decide) (by decide) (by decide)

example : getTimeFromString exampleEnv exampleFmt 0 (bytes "Y2009") = .ok (((2009 : ℕ) - 2000) * (365 + 1 / 4) - 1 / 2, 0) :=
  C68_year exampleEnv exampleFmt 0 _ false (bytes "2009") _ ⟨2009, by unfold Whole AllDigits value; decide, rfl⟩ (by decide) (by decide) (by decide)

example : getTimeFromString exampleEnv exampleFmt 0 (bytes "unix 86401") =
    .ok ((gregorian.dayNumber 1 1 1970 : ℚ) - 1 / 2 - 2451545 + (86401 : ℕ) / 86400, 0) :=
  C68_unix exampleEnv exampleFmt 0 _ false (bytes "86401") _ ⟨86401, by unfold Whole AllDigits value; decide, rfl⟩ (by decide) (by decide) (by decide)

example : getTimeFromString exampleEnv exampleFmt 0 (bytes "GPS15254") =
    .ok ((gregorian.dayNumber 6 1 1980 : ℚ) - 1 / 2 - 2451545 + (1525 : ℕ) * 7 + (4 : ℕ), 0) :=
  C68_gps exampleEnv exampleFmt 0 1525 4 (bytes "15254") _ (by decide) (by decide) ⟨by unfold AllDigits; decide, by decide, by decide⟩ (by decide) (by decide)

example : getTimeFromString exampleEnv exampleFmt 0 (bytes "Now") =
    .ok ((gregorian.dayNumber 1 1 1970 : ℚ) - 1 / 2 - 2451545 + ((0 : ℤ) : ℚ) / 86400, 0) :=
  C68_now exampleEnv exampleFmt 0 (by decide) _ (by decide) (by decide)

theorem exampleClock : TimeOfDay true .seconds 1 450005 (bytes "12:30:00.5") :=
  ⟨5, bytes ".5", Or.inr ⟨by decide, bytes "5", ⟨by unfold AllDigits; decide, by decide, by decide⟩, by decide⟩, 12, 30, 0, bytes "12", bytes "30", bytes "00",
    ⟨by unfold AllDigits; decide, by decide, by decide⟩, ⟨by unfold AllDigits; decide, by decide, by decide⟩,
    ⟨by unfold AllDigits; decide, by decide, by decide⟩, by decide, by decide, by decide, by decide, by decide⟩

example : getTimeFromString exampleEnv exampleFmt 0 (bytes "2009-03-05T12:30:00.5") =
    .ok (((2454896 : ℤ) : ℚ) - 2451545 - 1 / 2 + (450005 : ℕ) / (86400 * 10 ^ 1), 0) :=
  C67_fits exampleEnv exampleFmt 0 2009 3 5 1 450005 (bytes "2009") (bytes "03") (bytes "05") _ _ ⟨by unfold AllDigits; decide, by decide, by decide⟩
    ⟨by unfold AllDigits; decide, by decide, by decide⟩ ⟨by unfold AllDigits; decide, by decide, by decide⟩ exampleClock (by decide) (by decide)
    (by decide) 2454896 (by decide +kernel)

example : getTimeFromString exampleEnv exampleFmt 0 (bytes "2009-03-05T12:30:00.5Z") = .ok (((2454896 : ℤ) : ℚ) - 2451545 - 1 / 2, 0) :=
  C67_zulu exampleEnv exampleFmt 0 2009 3 5 1 450005 (bytes "2009") (bytes "03") (bytes "05") (bytes "12:30:00.5") _
    ⟨by unfold AllDigits; decide, by decide, by decide⟩ ⟨by unfold AllDigits; decide, by decide, by decide⟩
    ⟨by unfold AllDigits; decide, by decide, by decide⟩ exampleClock (by decide) (by decide) (by decide) 2454896 (by decide +kernel)

theorem exampleEnv_days : EnglishDays exampleEnv.days := by
  intro k full h
  have hk : k < 7 := (List.getElem?_eq_some_iff.1 h).1
  have : ∀ k < 7, ∃ n, exampleEnv.days ((k : Nat) : Int) = some n ∧ some ((n.take 3).map lower) = weekdays[k]?.map (List.take 3) := by
    intro k hk
    interval_cases k
    all_goals exact ⟨_, rfl, by decide⟩
  obtain ⟨n, h1, h2⟩ := this k hk
  rw [h] at h2
  exact ⟨n, h1, by simpa using h2⟩

theorem exampleEnv_noDay (w : List Nat) (h : w.take 3 = bytes "wed") : ∀ i n, exampleEnv.months i = some n → (n.take 3).map lower ≠ w.take 3 := by
  intro i n hn
  rw [h]
  have : ∀ m ∈ [bytes "Jan", bytes "Feb", bytes "Mar", bytes "Apr", bytes "May", bytes "Jun", bytes "Jul", bytes "Aug", bytes "Sep",
      bytes "Oct", bytes "Nov", bytes "Dec"], (m.take 3).map lower ≠ bytes "wed" := by decide +kernel
  exact this n (List.mem_of_getElem? hn)

/-- "Wednesday" on Saturday 2000 January 1. -/
example : ∃ j : Int, getTimeFromString exampleEnv exampleFmt 0 (bytes "Wednesday") = .ok ((j : ℚ) - 2451545 - 1 / 2, 0) ∧ (j + 1) % 7 = (3 : ℕ) ∧
    |j - (⌊(0 : ℚ) + 1 / 2⌋ + 2451545)| ≤ 3 :=
  C66_weekday exampleEnv exampleEnv_days exampleFmt rfl 0 3 (bytes "wednesday") _ ⟨bytes "wednesday", rfl, Or.inl rfl⟩
    (exampleEnv_noDay _ (by decide)) (by decide) (by decide)
    (by rw [show exampleEnv.split 0 = ⟨2000, 1, 1 + ⌊(0 : ℚ) + 1 / 2⌋, 12, 0, 0⟩ from rfl, show ⌊(0 : ℚ) + 1 / 2⌋ = 0 by norm_num]
        exact ⟨by decide, by decide, 31, by decide +kernel, by decide⟩)
    (by rw [show exampleEnv.split 0 = ⟨2000, 1, 1 + ⌊(0 : ℚ) + 1 / 2⌋, 12, 0, 0⟩ from rfl, show ⌊(0 : ℚ) + 1 / 2⌋ = 0 by norm_num]
        decide +kernel) (by norm_num)

/-- Names as before, now noon of 1999 March 5. -/
def exampleOld : Env ℚ := { exampleEnv with split := fun _ => ⟨1999, 3, 5, 12, 0, 0⟩ }

/-- "Wed" on Friday 1999 March 5 gives a Tuesday. -/
example : ∃ j : Int, getTimeFromString exampleOld exampleFmt (-302) (bytes "Wed") = .ok ((j : ℚ) - 2451545 - 1 / 2, 0) ∧ (j + 1 + 1) % 7 = (3 : ℕ) ∧
    (j + 1) % 7 ≠ (3 : ℕ) ∧ -3 ≤ j - (⌊(-302 : ℚ) + 1 / 2⌋ + 2451545) ∧ j - (⌊(-302 : ℚ) + 1 / 2⌋ + 2451545) ≤ 5 :=
  C66_before exampleOld exampleEnv_days exampleFmt rfl (-302) 3 (bytes "wed") _ ⟨bytes "wednesday", rfl, Or.inr (by decide)⟩
    (exampleEnv_noDay _ (by decide)) (by decide) (by decide) ⟨by decide, by decide, 31, by decide +kernel, by decide⟩
    (by rw [show ⌊(-302 : ℚ) + 1 / 2⌋ = -302 by rw [Int.floor_eq_iff]; norm_num]; decide +kernel) (by norm_num)
    (by rw [show ⌊(-302 : ℚ) + 1 / 2⌋ = -302 by rw [Int.floor_eq_iff]; norm_num]; norm_num)

end Verif.Props
