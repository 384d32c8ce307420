import Verif.Lemmas.GetTimeFields
import Verif.Props.TimeText
import Verif.Spec.Stamp

/-! # Reading texts of digits -/

namespace Verif.GetTime

open Verif Verif.Time Verif.Date Verif.Scan Verif.Spec Verif.Props

variable {K : Type} [Field K] [LinearOrder K] [IsStrictOrderedRing K] [FloorRing K]

/-- Digits and the punctuation of dates and times. -/
def Plain (s : List Nat) : Prop := ∀ c ∈ s, (46 ≤ c ∧ c ≤ 58) ∨ c = 32 ∨ c = 45

theorem Plain.append {a b : List Nat} (ha : Plain a) (hb : Plain b) : Plain (a ++ b) := by
  intro c hc
  rcases List.mem_append.1 hc with h | h
  · exact ha c h
  · exact hb c h

theorem Plain.cons {c : Nat} {b : List Nat} (hc : (46 ≤ c ∧ c ≤ 58) ∨ c = 32 ∨ c = 45) (hb : Plain b) : Plain (c :: b) := by
  intro x hx
  rcases List.mem_cons.1 hx with rfl | h
  · exact hc
  · exact hb x h

theorem plain_digits {s : List Nat} (h : AllDigits s) : Plain s := by
  intro c hc; have := h c hc; omega

theorem NumField.plain {t : List Nat} {v : K} {dot : Bool} (h : NumField t v dot) : Plain t := by
  intro c hc; have := h.bytes c hc; omega

theorem spacedOut_plain {s : List Nat} (h : Plain s) : spacedOut s = s := by
  cases s with
  | nil => rfl
  | cons a s =>
    rw [spacedOut_cons]
    have ha := h a (by simp)
    have : ∀ (s : List Nat) (a : Nat), Plain (a :: s) → spacedRest a s = s := by
      intro s
      induction s with
      | nil => intro a _; rfl
      | cons b s ih =>
        intro a hs
        have h1 := hs a (by simp)
        have h2 := hs b (by simp)
        rw [spacedRest, ih b (fun c hc => hs c (by simp [hc])), if_neg, lower, if_neg (by omega)]
        unfold Boundary Letter Figure
        omega
    rw [this s a h, lower, if_neg (by omega)]

theorem normalise_plain {s : List Nat} (h : Plain s) (hne : s ≠ []) (hl : s.length < 80) : normalise s = .ok s := by
  rw [C62_copied s hne (by rw [spacedOut_plain h]; omega), spacedOut_plain h]

theorem Plain.noLetter {s : List Nat} (h : Plain s) {c : Nat} (hc : 58 < c) : c ∉ s := by
  intro hs; have := h c hs; omega

theorem quiet_plain {s : List Nat} (h : Plain s) (hne : s ≠ []) (h0 : 48 ≤ at? s 0) (hl : at? s (s.length - 1) ≠ 32) : Quiet s := by
  have hle : ∀ i, at? s i ≤ 58 := by
    intro i
    unfold at?
    rw [List.getD_eq_getElem?_getD]
    cases hi : s[i]? with
    | none => simp
    | some c => have := h c (List.mem_of_getElem? hi); simp; omega
  refine ⟨removeSub_none (c := 97) (by decide) (h.noLetter (by decide)), removeSub_none (c := 97) (by decide) (h.noLetter (by decide)),
    removeSub_none (c := 98) (by decide) (h.noLetter (by decide)), removeSub_none (c := 98) (by decide) (h.noLetter (by decide)), ?_, ?_, ?_, ?_⟩
  · have := hle (s.length - 1); omega
  · omega
  · have h0 := hle 0
    have hx : ∀ p, (58 < at? p 0) → p.isPrefixOf s = false := by
      intro p hp
      cases s with
      | nil => exact absurd rfl hne
      | cons c t =>
        cases p with
        | nil => simp [at?] at hp
        | cons k ks =>
          have h1 : k ≠ c := by
            have h2 : at? (c :: t) 0 = c := rfl
            have h3 : at? (k :: ks) 0 = k := rfl
            omega
          simp [List.isPrefixOf, h1]
    exact ⟨by omega, by omega, hx _ (by decide), hx _ (by decide), hx _ (by decide), hx _ (by decide)⟩
  · left
    have h1 := hle (s.length - 1)
    intro hm
    have : ∀ c ∈ bytes "smhdwlyc", 58 < c := by decide
    have := this _ hm
    omega

theorem amPm_plain {s : List Nat} (h : Plain s) : amPm s = (0, s) :=
  amPm_none (removeSub_none (c := 97) (by decide) (h.noLetter (by decide))) (removeSub_none (c := 97) (by decide) (h.noLetter (by decide)))
    (removeSub_none (c := 112) (by decide) (h.noLetter (by decide))) (removeSub_none (c := 112) (by decide) (h.noLetter (by decide)))

theorem isFits_plain {s : List Nat} (h : Plain s) : isFits s = false := by
  have : at? s 11 ≠ 116 := by
    unfold at?
    rw [List.getD_eq_getElem?_getD]
    cases hi : s[11]? with
    | none => simp
    | some c => have := h c (List.mem_of_getElem? hi); simp; omega
  simp [isFits, this]

theorem dots_field {t : List Nat} {v : K} {dot : Bool} (h : NumField t v dot) {sep : Nat} (hsep : sep = 45 ∨ sep = 32 ∨ sep = 47) (rest : List Nat) :
    dots (t ++ sep :: rest) = t ++ sep :: rest := by
  have hd : isDigit (at? (sep :: rest) 0) = false := by rcases hsep with rfl | rfl | rfl <;> rfl
  have h46 : sep ≠ 46 := by omega
  rcases h with ⟨-, h1, h2, -⟩ | ⟨-, ds, fs, h1, h2, h3, h4, rfl, -⟩
  · unfold dots
    rw [scanInt_digits h1 h2 hd]
    split
    · rename_i heq
      simp only [Option.some.injEq, Prod.mk.injEq, List.cons.injEq] at heq
      exact absurd heq.2.1 h46
    · rfl
  · unfold dots
    rw [List.append_assoc, List.cons_append, scanInt_digits h1 h2 (by rfl)]
    simp only
    rw [scanInt_digits h3 h4 hd]
    split
    · rename_i heq
      simp only [Option.some.injEq, Prod.mk.injEq, List.cons.injEq] at heq
      exact absurd heq.2.1 h46
    · rfl

/-- A date of three fields. -/
def joined (sep : Nat) (a b c : List Nat) : List Nat := a ++ sep :: (b ++ sep :: c)

/-- `x` days since midnight are read from the time of day. -/
structure ClockText (t : List Nat) (x : K) : Prop where
  bytes : ∀ c ∈ t, (48 ≤ c ∧ c ≤ 58) ∨ c = 46
  colon : 58 ∈ t
  head : 48 ≤ at? t 0 ∧ at? t 0 ≤ 57
  value : ((scanHms (K := K) t).1 : K) * 60 / 1440 + ((scanHms (K := K) t).2.2 + (scanHms (K := K) t).2.1 * 60) / 86400 = x

/-- What follows the date: nothing, or a blank and a time of day. -/
inductive After : List Nat → K → Prop where
  | none : After [] 0
  | time {t : List Nat} {x : K} (h : ClockText t x) : After (32 :: t) x

theorem After.plain {t : List Nat} {x : K} (h : After t x) : Plain t := by
  cases h with
  | none => intro c hc; simp at hc
  | time h => exact Plain.cons (by omega) (fun c hc => by have := h.bytes c hc; omega)

theorem ClockText.ne_nil {t : List Nat} {x : K} (h : ClockText t x) : t ≠ [] := by
  intro h'; have := h.colon; rw [h'] at this; simp at this

/-- How the text of the time of day enters the result. -/
theorem timeOfDay_after {t : List Nat} {x : K} (h : After t x) (env : Env K) (f : Fmt) (bc : Bool) (init : K) {date : List Nat}
    (hc : 58 ∉ date) (hdots : dots (date ++ t) = date ++ t) (hf : isFits (date ++ t) = false) (ham : amPm (date ++ t) = (0, date ++ t)) :
    ∃ (h : Int) (s : K), (h : K) * 60 / 1440 + s / 86400 = x ∧
      dateAndTime env f bc 0 ⟨-2451545, date ++ t, 0, init⟩ =
        dateOnly env f bc 0 init 0 ⟨(env.split init).year, (env.split init).month, (env.split init).day⟩ date h 0 s := by
  cases h with
  | none =>
    refine ⟨0, 0, by simp, ?_⟩
    rw [List.append_nil] at *
    unfold dateAndTime
    have h58 : ((date.drop (date.length - tailLen date)).contains 58) = false := by
      rw [Bool.eq_false_iff]
      simp only [ne_eq, List.contains_iff_mem]
      exact fun h => hc (List.mem_of_mem_drop h)
    have hne : date.drop (date.length - tailLen date) ≠ [58] := by
      intro h; rw [h] at h58; simp at h58
    simp only [hdots, hf, ham, ite_self, h58, Bool.false_eq_true, if_false]
    unfold timeOfDay
    simp only [if_neg hne, h58, Bool.false_eq_true, if_false]
  | time h =>
    rename_i t
    refine ⟨_, _, h.value, ?_⟩
    refine dateAndTime_timed env f bc 0 init 0 date t hdots hf ham ?_ h.colon (by have := h.head; omega)
    intro c hc
    have := h.bytes c hc
    refine ⟨by omega, ?_⟩
    rw [Bool.eq_false_iff, ne_eq, isAlpha_iff]
    omega

theorem last_append {a b : List Nat} (h : b ≠ []) : at? (a ++ b) ((a ++ b).length - 1) = at? b (b.length - 1) := by
  have h1 := last_at (a ++ b) (by simp [h])
  have h2 := last_at b h
  rw [List.getLast?_append_of_ne_nil a h, h2] at h1
  exact (Option.some.inj h1).symm

/-- Three fields, perhaps something after a blank, perhaps a time of day. -/
theorem date_fields {env : Env K} (f : Fmt) (bc : Bool) (init : K) {a b c rest t : List Nat} {va vb vc x : K} {ma mb mc da db dc : Bool} {sep : Nat}
    (ha : FieldText env a va ma da) (hb : MidField env b vb mb db) (hc : FieldText env c vc mc dc)
    (hsep : sep = 45 ∨ sep = 32 ∨ sep = 47) (hr : rest = [] ∨ at? rest 0 = 32) (hr58 : 58 ∉ rest) (ht : After t x)
    (hdots : dots ((joined sep a b c ++ rest) ++ t) = (joined sep a b c ++ rest) ++ t)
    (hf : isFits ((joined sep a b c ++ rest) ++ t) = false)
    (ham : amPm ((joined sep a b c ++ rest) ++ t) = (0, (joined sep a b c ++ rest) ++ t)) :
    ∃ (cur : Ymd K) (h : Int) (s : K), (h : K) * 60 / 1440 + s / 86400 = x ∧
      dateAndTime env f bc 0 ⟨-2451545, (joined sep a b c ++ rest) ++ t, 0, init⟩ =
        (separated env f bc ⟨[va, vb, vc], if mc then 3 else if mb then 2 else if ma then 1 else 0,
          if dc then 3 else if db then 2 else if da then 1 else 0, 0⟩ cur).bind fun d =>
        (finish f bc d h 0 s 0).bind fun t => .ok (t, 0) := by
  have h58 : 58 ∉ joined sep a b c ++ rest := by
    intro hm
    simp only [joined, List.mem_append, List.mem_cons] at hm
    rcases hm with (h | h | h | h | h) | h
    · have := ha.bytes 58 h; omega
    · omega
    · have := hb.bytes 58 h; omega
    · omega
    · have := hc.bytes 58 h; omega
    · exact hr58 h
  obtain ⟨h, s, hx, he⟩ := timeOfDay_after ht env f bc init h58 hdots hf ham
  refine ⟨⟨(env.split init).year, (env.split init).month, (env.split init).day⟩, h, s, hx, ?_⟩
  rw [he]
  have e : joined sep a b c ++ rest = a ++ sep :: (b ++ sep :: (c ++ rest)) := by simp [joined]
  rw [e, dateOnly_three env f bc 0 init 0 _ h 0 s ha hb hc hsep hr]

theorem read_fields {env : Env K} (f : Fmt) (init : K) {text a b c rest t : List Nat} {va vb vc x : K} {ma mb mc da db dc : Bool} {sep : Nat}
    (ha : FieldText env a va ma da) (hb : MidField env b vb mb db) (hc : FieldText env c vc mc dc)
    (hsep : sep = 45 ∨ sep = 32 ∨ sep = 47) (hr : rest = [] ∨ at? rest 0 = 32) (hr58 : 58 ∉ rest) (ht : After t x)
    (h0 : text ≠ []) (hl : text.length < 80) (h32 : at? text 0 ≠ 32)
    (hn : normalise text = .ok ((joined sep a b c ++ rest) ++ t)) (hq : Quiet ((joined sep a b c ++ rest) ++ t))
    (hdots : dots ((joined sep a b c ++ rest) ++ t) = (joined sep a b c ++ rest) ++ t)
    (hf : isFits ((joined sep a b c ++ rest) ++ t) = false)
    (ham : amPm ((joined sep a b c ++ rest) ++ t) = (0, (joined sep a b c ++ rest) ++ t)) :
    ∃ (cur : Ymd K) (h : Int) (s : K), (h : K) * 60 / 1440 + s / 86400 = x ∧
      getTimeFromString env f init text =
        (separated env f false ⟨[va, vb, vc], if mc then 3 else if mb then 2 else if ma then 1 else 0,
          if dc then 3 else if db then 2 else if da then 1 else 0, 0⟩ cur).bind fun d =>
        (finish f false d h 0 s 0).bind fun t => .ok (t, 0) := by
  rw [getTime_plain env f init h0 hl h32 hn (by simp [joined]) hq]
  exact date_fields f false init ha hb hc hsep hr hr58 ht hdots hf ham

/-- Any text of three numbers, perhaps followed by a time of day. -/
theorem read_plain {env : Env K} (hn : LetterNames env.months) (f : Fmt) (init : K) {a b c rest t : List Nat} {va vb vc x : K} {ma da db dc : Bool} {sep : Nat}
    (ha : NumField a va da) (hb : MidField env b vb ma db) (hbp : Plain b) (hc : NumField c vc dc) (hsep : sep = 45 ∨ sep = 32 ∨ sep = 47)
    (hr : rest = [] ∨ at? rest 0 = 32) (hr58 : 58 ∉ rest) (hrp : Plain rest) (ht : After t x)
    (hlast : t = [] → rest ≠ [] → at? rest (rest.length - 1) ≠ 32)
    (hl : ((joined sep a b c ++ rest) ++ t).length < 80) :
    ∃ (cur : Ymd K) (h : Int) (s : K), (h : K) * 60 / 1440 + s / 86400 = x ∧
      getTimeFromString env f init ((joined sep a b c ++ rest) ++ t) =
        (separated env f false ⟨[va, vb, vc], if ma then 2 else 0, if dc then 3 else if db then 2 else if da then 1 else 0, 0⟩ cur).bind fun d =>
        (finish f false d h 0 s 0).bind fun t => .ok (t, 0) := by
  have hs1 : (46 ≤ sep ∧ sep ≤ 58) ∨ sep = 32 ∨ sep = 45 := by omega
  have hpd : Plain (joined sep a b c) := ha.plain.append (Plain.cons hs1 (hbp.append (Plain.cons hs1 hc.plain)))
  have hp := (hpd.append hrp).append ht.plain
  have hne : (joined sep a b c ++ rest) ++ t ≠ [] := by simp [joined]
  have h0 : at? ((joined sep a b c ++ rest) ++ t) 0 = at? a 0 := by
    rw [joined, List.append_assoc, List.append_assoc, at_append_left ha.ne_nil]
  have hhd := ha.head
  have hlast' : at? ((joined sep a b c ++ rest) ++ t) (((joined sep a b c ++ rest) ++ t).length - 1) ≠ 32 := by
    cases ht with
    | none =>
      rw [List.append_nil]
      by_cases hre : rest = []
      · subst hre
        rw [List.append_nil, joined, show a ++ sep :: (b ++ sep :: c) = (a ++ sep :: (b ++ [sep])) ++ c by simp, last_append hc.ne_nil]
        have hm := last_at c hc.ne_nil
        have := hc.bytes _ (List.mem_of_getLast? hm)
        omega
      · rw [last_append hre]
        exact hlast rfl hre
    | time h =>
      rename_i t
      rw [show (joined sep a b c ++ rest) ++ 32 :: t = ((joined sep a b c ++ rest) ++ [32]) ++ t by simp, last_append h.ne_nil]
      have hm := last_at t h.ne_nil
      have := h.bytes _ (List.mem_of_getLast? hm)
      omega
  have hdots : dots ((joined sep a b c ++ rest) ++ t) = (joined sep a b c ++ rest) ++ t := by
    rw [joined, List.append_assoc, List.append_assoc, List.cons_append]
    exact dots_field ha hsep _
  simpa using read_fields f init (.number ha hn) hb (.number hc hn) hsep hr hr58 ht hne hl (by omega) (normalise_plain hp hne hl)
    (quiet_plain hp hne (by omega) hlast') hdots (isFits_plain hp) (amPm_plain hp)

/-- Putting date and time together. -/
theorem finish_value (f : Fmt) (d : Ymd K) (h : Int) (s x : K) (hx : (h : K) * 60 / 1440 + s / 86400 = x) (z : Int)
    (hz : dmyToDay (trunc d.dday) d.month d.year f.calendar = some z) :
    finish f false d h 0 s 0 = .ok ((z : K) - 2451545 + (d.dday - trunc d.dday) - 1 / 2 + x) := by
  unfold finish
  simp only [Bool.false_eq_true, if_false, hz]
  rw [← hx]
  congr 1
  push_cast
  ring

/-! ## Times of day -/

theorem padded_field {w n : Nat} {s : List Nat} (h : Padded w n s) (hw : 0 < w) : AllDigits s ∧ s ≠ [] ∧ value s = n := by
  refine ⟨h.1, ?_, h.value⟩
  intro hs
  have := h.width
  rw [hs] at this
  simp at this
  omega

theorem stops_colon (s : List Nat) : Stops (58 :: s) := ⟨rfl, by simp [at?], by simp [at?], by simp [at?]⟩
theorem stops_nil : Stops [] := ⟨rfl, by decide, by decide, by decide⟩

/-- A number with or without decimals. -/
theorem decimals_field {ds frac : List Nat} {p v n : Nat} (h : Padded 2 n ds) (hf : Decimals p v frac) :
    ∃ dot, NumField (ds ++ frac) ((n : K) + (v : K) / 10 ^ p) dot := by
  obtain ⟨h1, h2, h3⟩ := padded_field h (by omega)
  rcases hf with ⟨rfl, rfl, rfl⟩ | ⟨hp, fs, hfs, rfl⟩
  · refine ⟨false, Or.inl ⟨rfl, by simpa using h1, by simpa using h2, ?_⟩⟩
    simp [h3]
  · obtain ⟨g1, g2, g3⟩ := padded_field hfs hp
    refine ⟨true, Or.inr ⟨rfl, ds, fs, h1, h2, g1, g2, rfl, ?_⟩⟩
    rw [h3, g3, hfs.width]

theorem pow_ten_ne (p : Nat) : (10 : K) ^ p ≠ 0 := pow_ne_zero p (by norm_num)

theorem clockText_seconds {p v h m sec : Nat} {hh mm ss frac : List Nat} (hf : Decimals p v frac) (a1 : AllDigits hh) (a2 : hh ≠ [])
    (a3 : value hh = h) (pm : Padded 2 m mm) (ps : Padded 2 sec ss) :
    ClockText (hh ++ 58 :: mm ++ 58 :: ss ++ frac) (((((h * 60 + m) * 60 + sec) * 10 ^ p + v : Nat) : K) / (86400 * 10 ^ p)) := by
  obtain ⟨dot, hnum⟩ := decimals_field (K := K) ps hf
  obtain ⟨b1, b2, b3⟩ := padded_field pm (by omega)
  have e : hh ++ 58 :: mm ++ 58 :: ss ++ frac = hh ++ 58 :: (mm ++ 58 :: (ss ++ frac)) := by simp
  have hs : scanHms (K := K) (hh ++ 58 :: (mm ++ 58 :: (ss ++ frac))) = ((h : Int), (m : K), (sec : K) + (v : K) / 10 ^ p) := by
    unfold scanHms
    rw [scanInt_digits a1 a2 rfl]
    simp only
    unfold scanMinSec
    rw [scanReal_digits b1 b2 (stops_colon _)]
    simp only
    have := hnum.scanReal stops_nil
    rw [List.append_nil] at this
    rw [this]
    simp [a3, b3]
  rw [e]
  refine ⟨?_, by simp, ?_, ?_⟩
  · intro c hc
    simp only [List.mem_append, List.mem_cons] at hc
    rcases hc with h | h | h | h | h
    · have := a1 c h; omega
    · omega
    · have := b1 c h; omega
    · omega
    · have := hnum.bytes c (by simpa using h); omega
  · rw [at_append_left a2]; exact head_digit a1 a2
  · rw [hs]
    have := pow_ten_ne (K := K) p
    push_cast
    field_simp
    ring

theorem clockText_minutes {p v h m : Nat} {hh mm frac : List Nat} (hf : Decimals p v frac) (a1 : AllDigits hh) (a2 : hh ≠ [])
    (a3 : value hh = h) (pm : Padded 2 m mm) :
    ClockText (hh ++ 58 :: mm ++ frac) ((((h * 60 + m) * 10 ^ p + v : Nat) : K) / (1440 * 10 ^ p)) := by
  obtain ⟨dot, hnum⟩ := decimals_field (K := K) pm hf
  have e : hh ++ 58 :: mm ++ frac = hh ++ 58 :: (mm ++ frac) := by simp
  have hs : scanHms (K := K) (hh ++ 58 :: (mm ++ frac)) = ((h : Int), (m : K) + (v : K) / 10 ^ p, 0) := by
    unfold scanHms
    rw [scanInt_digits a1 a2 rfl]
    simp only
    unfold scanMinSec
    have := hnum.scanReal stops_nil
    rw [List.append_nil] at this
    rw [this]
    simp [a3]
  rw [e]
  refine ⟨?_, by simp, ?_, ?_⟩
  · intro c hc
    simp only [List.mem_append, List.mem_cons] at hc
    rcases hc with h | h | h
    · have := a1 c h; omega
    · omega
    · have := hnum.bytes c (by simpa using h); omega
  · rw [at_append_left a2]; exact head_digit a1 a2
  · rw [hs]
    have := pow_ten_ne (K := K) p
    push_cast
    field_simp
    ring

/-- Two bytes, the first of which may be a blank. -/
theorem twoBytes_split {z : Bool} {n : Nat} {s : List Nat} (h : TwoBytes z n s) :
    ∃ b ds, s = b ++ ds ∧ (b = [] ∨ b = [32]) ∧ AllDigits ds ∧ ds ≠ [] ∧ value ds = n := by
  unfold TwoBytes at h
  split_ifs at h with hn
  · obtain ⟨a1, a2, a3⟩ := padded_field h (by omega)
    exact ⟨[], s, rfl, Or.inl rfl, a1, a2, a3⟩
  · refine ⟨[32], [48 + n], h, Or.inr rfl, ?_, by simp, ?_⟩
    · intro c hc
      simp only [List.mem_singleton] at hc
      simp only [not_or] at hn
      omega
    · simp [value]

/-- A time of day after a blank: one more blank may be before the time. -/
theorem after_split {z : Bool} {c : Clock} (hc : c ≠ .hours) {p n : Nat} {s : List Nat} (h : TimeOfDay z c p n s) :
    ∃ b t, 32 :: s = b ++ 32 :: t ∧ (b = [] ∨ b = [32]) ∧ ClockText t ((n : K) / (c.perDay * 10 ^ p)) := by
  obtain ⟨v, frac, hf, h⟩ := h
  cases c with
  | seconds =>
    obtain ⟨h, m, sec, hh, mm, ss, ph, pm, ps, h1, h2, h3, rfl, rfl⟩ := h
    obtain ⟨b, ds, rfl, hb, a1, a2, a3⟩ := twoBytes_split ph
    refine ⟨b, ds ++ 58 :: mm ++ 58 :: ss ++ frac, ?_, hb, by simpa [Clock.perDay] using clockText_seconds (K := K) hf a1 a2 a3 pm ps⟩
    rcases hb with rfl | rfl <;> simp
  | minutes =>
    obtain ⟨h, m, hh, mm, ph, pm, h1, h2, rfl, rfl⟩ := h
    obtain ⟨b, ds, rfl, hb, a1, a2, a3⟩ := twoBytes_split ph
    refine ⟨b, ds ++ 58 :: mm ++ frac, ?_, hb, by simpa [Clock.perDay] using clockText_minutes (K := K) hf a1 a2 a3 pm⟩
    rcases hb with rfl | rfl <;> simp
  | hours => exact absurd rfl hc

end Verif.GetTime
