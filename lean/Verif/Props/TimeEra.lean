import Verif.Props.TimeKeys

/-!
# Property theorems: eras, a.m. and p.m., phases of the moon (C69)
-/

namespace Verif.Props
open Verif Verif.GetTime Verif.Spec Verif.Time Verif.Date Verif.Scan

variable {K : Type} [Field K] [LinearOrder K] [IsStrictOrderedRing K] [FloorRing K]

/-! ## Words after the date -/

theorem removeSub_after {c : Nat} {sub p x : List Nat} (hp : c ∉ p) :
    removeSub (c :: sub) (p ++ x) = (removeSub (c :: sub) x).map (p ++ ·) := by
  induction p with
  | nil => cases h : removeSub (c :: sub) x <;> simp [h]
  | cons a p ih =>
    have h1 : c ≠ a := fun h => hp (by simp [h])
    have h2 : ¬ (c :: sub).isPrefixOf (a :: (p ++ x)) = true := by simp [List.isPrefixOf, h1]
    rw [List.cons_append, removeSub, if_neg h2, ih (fun h => hp (by simp [h]))]
    cases removeSub (c :: sub) x <;> simp

/-- The word is found after text without its second byte. -/
theorem removeSub_word {a b : Nat} {sub p x : List Nat} (ha : b ∉ p) (hx : at? x 0 ≠ b) :
    removeSub (a :: b :: sub) (p ++ x) = (removeSub (a :: b :: sub) x).map (p ++ ·) := by
  induction p with
  | nil => cases h : removeSub (a :: b :: sub) x <;> simp [h]
  | cons c p ih =>
    have h2 : ¬ (a :: b :: sub).isPrefixOf (c :: (p ++ x)) = true := by
      intro h
      simp only [List.isPrefixOf, Bool.and_eq_true, beq_iff_eq] at h
      obtain ⟨-, h⟩ := h
      cases p with
      | nil =>
        cases x with
        | nil => simp [List.isPrefixOf] at h
        | cons y x => simp [List.isPrefixOf] at h; exact hx h.1.symm
      | cons y p => simp [List.isPrefixOf] at h; exact ha (by simp [h.1])
    rw [List.cons_append, removeSub, if_neg h2, ih (fun h => ha (by simp [h]))]
    cases removeSub (a :: b :: sub) x <;> simp

/-- How an era is written, and whether it is before Christ. -/
inductive Era : List Nat → Bool → Prop where
  | ad : Era (bytes "ad") false
  | a_d : Era (bytes "a.d.") false
  | bc : Era (bytes "bc") true
  | b_c : Era (bytes "b.c.") true

/-- How the halves of the day are written, and whether it is the second. -/
inductive Half : List Nat → Bool → Prop where
  | am : Half (bytes "am") false
  | a_m : Half (bytes "a.m.") false
  | pm : Half (bytes "pm") true
  | p_m : Half (bytes "p.m.") true

theorem checkBc_era {p e : List Nat} {bc : Bool} (hp : Plain p) (h0 : at? p 0 ≠ 32) (hne : p ≠ []) (hl : at? p (p.length - 1) ≠ 32)
    (he : Era e bc) : checkBc (p ++ 32 :: e) = (bc, p) := by
  have ha : 97 ∉ p := hp.noLetter (by omega)
  have hb : 98 ∉ p := hp.noLetter (by omega)
  have r1 : ∀ x, removeSub (bytes "ad") (p ++ x) = (removeSub (bytes "ad") x).map (p ++ ·) := fun x => removeSub_after ha
  have r2 : ∀ x, removeSub (bytes "a.d.") (p ++ x) = (removeSub (bytes "a.d.") x).map (p ++ ·) := fun x => removeSub_after ha
  have r3 : ∀ x, removeSub (bytes "bc") (p ++ x) = (removeSub (bytes "bc") x).map (p ++ ·) := fun x => removeSub_after hb
  have r4 : ∀ x, removeSub (bytes "b.c.") (p ++ x) = (removeSub (bytes "b.c.") x).map (p ++ ·) := fun x => removeSub_after hb
  have htrim : trimEnd (trimStart (p ++ [32])) = p := by
    rw [trimStart_of (by rw [at_append_left hne]; exact h0)]
    have := trimEnd_of (s := p) (fun x hx => by rw [last_at p hne] at hx; simp at hx; exact hx ▸ hl)
    unfold trimEnd at *
    simpa using this
  unfold checkBc
  cases he
  · simp only [r1, show removeSub (bytes "ad") (32 :: bytes "ad") = some [32] by decide, Option.map_some, Option.getD_some, r2, r3, r4,
      show removeSub (bytes "a.d.") [32] = none by decide, show removeSub (bytes "bc") [32] = none by decide,
      show removeSub (bytes "b.c.") [32] = none by decide, Option.map_none, Option.getD_none, htrim]
  · simp only [r1, show removeSub (bytes "ad") (32 :: bytes "a.d.") = none by decide, Option.map_some, Option.getD_some, r2, r3, r4,
      show removeSub (bytes "a.d.") (32 :: bytes "a.d.") = some [32] by decide, show removeSub (bytes "bc") [32] = none by decide,
      show removeSub (bytes "b.c.") [32] = none by decide, Option.map_none, Option.getD_none, htrim]
  · simp only [r1, show removeSub (bytes "ad") (32 :: bytes "bc") = none by decide, Option.map_some, r2, r3,
      show removeSub (bytes "a.d.") (32 :: bytes "bc") = none by decide, show removeSub (bytes "bc") (32 :: bytes "bc") = some [32] by decide,
      Option.map_none, Option.getD_none, htrim]
  · simp only [r1, show removeSub (bytes "ad") (32 :: bytes "b.c.") = none by decide, Option.map_some, r2, r3, r4,
      show removeSub (bytes "a.d.") (32 :: bytes "b.c.") = none by decide, show removeSub (bytes "bc") (32 :: bytes "b.c.") = none by decide,
      show removeSub (bytes "b.c.") (32 :: bytes "b.c.") = some [32] by decide,
      Option.map_none, Option.getD_none, htrim]

/-- A date or time in digits with an era after it. -/
theorem getTime_era (env : Env K) (f : Fmt) (init : K) {text p e : List Nat} {bc : Bool} (hp : Plain p) (h0 : 48 ≤ at? p 0) (hne : p ≠ [])
    (hl : at? p (p.length - 1) ≠ 32) (he : Era e bc) (ht0 : at? text 0 ≠ 32) (htext : spacedOut text = p ++ 32 :: e)
    (hlen : (spacedOut text).length < 80) :
    getTimeFromString env f init text = dateAndTime env f bc 0 ⟨-2451545, p, 0, init⟩ := by
  have htn : text ≠ [] := by rintro rfl; have := congrArg List.length htext; simp [spacedOut] at this
  have hl1 := spacedOut_length text
  have hh : at? (p ++ 32 :: e) 0 = at? p 0 := at_append_left hne
  have hlast : ∃ q u v, p ++ 32 :: e = q ++ [u, v] ∧ v ≠ 32 ∧ u ≠ 32 ∧ v ≠ 109 ∧ v ≠ 113 := by
    cases he
    · exact ⟨p ++ [32], 97, 100, by simp [bytes], by decide⟩
    · exact ⟨p ++ [32, 97, 46], 100, 46, by simp [bytes], by decide⟩
    · exact ⟨p ++ [32], 98, 99, by simp [bytes], by decide⟩
    · exact ⟨p ++ [32, 98, 46], 99, 46, by simp [bytes], by decide⟩
  obtain ⟨q, u, v, hq, hv, hu, hv1, hv2⟩ := hlast
  have l2 := last_two q u v
  rw [← hq] at l2
  have htrim : trimEnd (p ++ 32 :: e) = p ++ 32 :: e := by
    rw [hq, show q ++ [u, v] = (q ++ [u]) ++ [v] by simp]
    exact trimEnd_unit hv
  unfold getTimeFromString
  rw [getTime_succ, trimStart_of ht0, if_neg (by simp only [not_or]; exact ⟨by omega, htn⟩), normalise_short htn hlen, htext]
  simp only [Run.bind, htrim]
  rw [offsets_none (Or.inr (by rw [l2.2]; exact hu)) (by omega) (by omega)]
  simp only [afterOffsets, l2.1, l2.2, phase_none hv1 hv2, ite_self, checkBc_era hp (by omega) hne hl he]
  rw [keywords_none env _ hne (quiet_plain hp hne h0 hl).keyword rfl]
  simp

/-- **C69.** A.D. makes no difference. -/
theorem C69_ad (env : Env K) (f : Fmt) (init : K) (p e text : List Nat) (hp : ∀ c ∈ p, (46 ≤ c ∧ c ≤ 58) ∨ c = 32 ∨ c = 45) (h0 : 48 ≤ at? p 0)
    (hne : p ≠ []) (hl : at? p (p.length - 1) ≠ 32) (he : Era e false) (ht0 : at? text 0 ≠ 32) (htext : spacedOut text = p ++ 32 :: e)
    (hlen : (spacedOut text).length < 80) : getTimeFromString env f init text = getTimeFromString env f init p := by
  have hlp : p.length < 80 := by rw [htext] at hlen; simp at hlen; omega
  rw [getTime_era env f init hp h0 hne hl he ht0 htext hlen,
    getTime_plain env f init hne hlp (by omega) (normalise_plain hp hne hlp) hne (quiet_plain hp hne h0 hl)]

/-! ## Dates before Christ -/

theorem date3 (env : Env K) (hn : NoDigitNames env.months) (f : Fmt) (bc : Bool) (init : K) (sep : Nat)
    (hsep : sep = 45 ∨ sep = 32 ∨ sep = 47) {a b c t : List Nat} {va vb vc x : K} {da db dc : Bool}
    (ha : NumField a va da) (hb : NumField b vb db) (hc : NumField c vc dc) (ht : Tod t x) {k : Nat}
    (hk : (if dc then 3 else if db then 2 else if da then 1 else 0) = k) :
    (Plain (a ++ sep :: (b ++ sep :: c) ++ t) ∧ 48 ≤ at? (a ++ sep :: (b ++ sep :: c) ++ t) 0 ∧
      at? (a ++ sep :: (b ++ sep :: c) ++ t) ((a ++ sep :: (b ++ sep :: c) ++ t).length - 1) ≠ 32) ∧
    ∃ (cur : Ymd K) (h : Int) (s : K), (h : K) * 60 / 1440 + s / 86400 = x ∧
      dateAndTime env f bc 0 ⟨-2451545, a ++ sep :: (b ++ sep :: c) ++ t, 0, init⟩ =
        (separated env f bc ⟨[va, vb, vc], 0, k, 0⟩ cur).bind fun d =>
        (finish f bc d h 0 s 0).bind fun t => .ok (t, 0) := by
  obtain ⟨r, t', rfl, hr, ha'⟩ := ht.after
  have hs1 : (46 ≤ sep ∧ sep ≤ 58) ∨ sep = 32 ∨ sep = 45 := by omega
  have hrp : Plain r := fun c hc => by rcases hr with rfl | ⟨rfl, -⟩ <;> simp at hc; omega
  have hp : Plain (joined sep a b c ++ r ++ t') := ((ha.plain.append (Plain.cons hs1 (hb.plain.append (Plain.cons hs1 hc.plain)))).append hrp).append ha'.plain
  have e : a ++ sep :: (b ++ sep :: c) ++ (r ++ t') = joined sep a b c ++ r ++ t' := by simp [joined]
  have h0 : at? (joined sep a b c ++ r ++ t') 0 = at? a 0 := by
    rw [joined, List.append_assoc, List.append_assoc, at_append_left ha.ne_nil]
  have hhd := ha.head
  have hlast : at? (joined sep a b c ++ r ++ t') ((joined sep a b c ++ r ++ t').length - 1) ≠ 32 := by
    cases ha' with
    | none =>
      have hr' : r = [] := by
        rcases hr with h | ⟨-, h⟩
        · exact h
        · exact absurd rfl h
      subst hr'
      rw [List.append_nil, List.append_nil, joined, show a ++ sep :: (b ++ sep :: c) = (a ++ sep :: (b ++ [sep])) ++ c by simp, last_append hc.ne_nil]
      have hm := last_at c hc.ne_nil
      have := hc.bytes _ (List.mem_of_getLast? hm)
      omega
    | time h =>
      rename_i t
      rw [show (joined sep a b c ++ r) ++ 32 :: t = ((joined sep a b c ++ r) ++ [32]) ++ t by simp, last_append h.ne_nil]
      have hm := last_at t h.ne_nil
      have := h.bytes _ (List.mem_of_getLast? hm)
      omega
  have hdots : dots (joined sep a b c ++ r ++ t') = joined sep a b c ++ r ++ t' := by
    rw [joined, List.append_assoc, List.append_assoc, List.cons_append]
    exact dots_field ha hsep _
  rw [e]
  refine ⟨⟨hp, by omega, hlast⟩, ?_⟩
  have := date_fields (env := env) f bc init (.number ha hn.letter) (.text (.number hb hn.letter)) (.number hc hn.letter) hsep
    (hr.imp id (fun h => by rw [h.1]; rfl)) (by rcases hr with rfl | ⟨rfl, -⟩ <;> simp) ha' hdots (isFits_plain hp) (amPm_plain hp)
  simp only [Bool.false_eq_true, if_false, hk] at this
  exact this

theorem date_order (env : Env K) (hn : NoDigitNames env.months) (f : Fmt) (bc : Bool) (init : K) (o : Order) (sep : Nat)
    (hsep : sep = 45 ∨ sep = 32 ∨ sep = 47) {y m d x : K} {dec : Bool} {yt mt dt t : List Nat}
    (hy : NumField yt y false) (hm : NumField mt m false) (hd : NumField dt d dec) (ht : Tod t x) :
    (Plain (o.text sep yt mt dt ++ t) ∧ 48 ≤ at? (o.text sep yt mt dt ++ t) 0 ∧
      at? (o.text sep yt mt dt ++ t) ((o.text sep yt mt dt ++ t).length - 1) ≠ 32) ∧
    ∃ (cur : Ymd K) (h : Int) (s : K), (h : K) * 60 / 1440 + s / 86400 = x ∧
      dateAndTime env f bc 0 ⟨-2451545, o.text sep yt mt dt ++ t, 0, init⟩ =
        (separated env f bc ⟨o.arrange y m d fun a b c => [a, b, c], 0, o.dot dec, 0⟩ cur).bind fun d =>
        (finish f bc d h 0 s 0).bind fun t => .ok (t, 0) := by
  cases o <;> simp only [Order.text, Order.arrange]
  · exact date3 env hn f bc init sep hsep hy hm hd ht (by simp [Order.dot])
  · exact date3 env hn f bc init sep hsep hy hd hm ht (by simp [Order.dot])
  · exact date3 env hn f bc init sep hsep hm hd hy ht (by simp [Order.dot])
  · exact date3 env hn f bc init sep hsep hd hm hy ht (by simp [Order.dot])
  · exact date3 env hn f bc init sep hsep hm hy hd ht (by simp [Order.dot])
  · exact date3 env hn f bc init sep hsep hd hy hm ht (by simp [Order.dot])

/-- Before Christ no century is added. -/
theorem separated_bc (env : Env K) (f : Fmt) (g : Fields K) (cur : Ymd K) :
    separated env f true g cur = separated env { f with twoDigitYear := false } false g cur := by
  have : ∀ y, twoDigit env f true y = twoDigit env { f with twoDigitYear := false } false y := by
    intro y
    simp [twoDigit]
  unfold separated
  simp only [this]
  rfl

theorem finish_bc (f : Fmt) (d : Ymd K) (h : Int) (s : K) : finish f true d h 0 s 0 = finish f false { d with year := 1 - d.year } h 0 s 0 := by
  simp [finish]

/-- **C69.** A date before Christ in any order of fields: year `y` is the year `1 - y`, and no century is added to it. -/
theorem C69_bc (env : Env K) (hn : NoDigitNames env.months) (f : Fmt) (init : K) (o : Order) (sep : Nat)
    (hsep : sep = 45 ∨ sep = 32 ∨ sep = 47) (y m : Nat) (d x : K) (dec : Bool) (yt mt dt t e text : List Nat)
    (hy : Whole y yt) (hm : Whole m mt) (hd : Decimal d dec dt) (ht : Tod t x) (he : Era e true)
    (hm' : m ≤ lastMonth f) (hd1 : 0 ≤ d) (hd2 : d < 32) (ho : o.Clear f y d dec)
    (z : Int) (hz : dmyToDay ⌊d⌋ m (1 - y) f.calendar = some z) (ht0 : at? text 0 ≠ 32)
    (htext : spacedOut text = o.text sep yt mt dt ++ t ++ 32 :: e) (hlen : (spacedOut text).length < 80) :
    getTimeFromString env f init text = .ok ((z : K) + Int.fract d + x - 2451545 - 1 / 2, 0) := by
  obtain ⟨⟨p1, p2, p3⟩, cur, h, s, hx, he'⟩ := date_order env hn f true init o sep hsep (hy.numField (K := K)) (hm.numField (K := K)) hd.numField ht
  have hne : o.text sep yt mt dt ++ t ≠ [] := by
    intro h; rw [h] at p2; simp [at?] at p2
  rw [getTime_era env f init p1 p2 hne p3 he ht0 htext hlen, he', separated_bc,
    separated_clear env { f with twoDigitYear := false } o y m d dec cur hm' hd1 hd2 ho (Or.inl rfl), Run.bind, finish_bc]
  have htr : trunc d = ⌊d⌋ := by rw [trunc, if_pos hd1]
  rw [finish_value f _ h s x hx z (by rw [htr]; exact hz), Run.bind]
  simp only [htr, Int.fract]
  congr 2
  ring

/-! ## Halves of the day -/

theorem noKeyword_digit {s : List Nat} (h : 48 ≤ at? s 0 ∧ at? s 0 ≤ 57) : NoKeyword s := by
  have hx : ∀ p, 58 < at? p 0 → p.isPrefixOf s = false := by
    intro p hp
    cases p with
    | nil => simp [at?] at hp
    | cons k ks => exact not_prefix 0 (by simp) (by omega)
  exact ⟨by omega, by omega, hx _ (by decide), hx _ (by decide), hx _ (by decide), hx _ (by decide)⟩

theorem isFits_noT {s : List Nat} (h : 116 ∉ s) : isFits s = false := by
  by_cases hl : 11 < s.length
  · have : at? s 11 ≠ 116 := fun h' => h (h' ▸ at_mem hl)
    simp [isFits, this]
  · have : ¬ 18 < s.length := by omega
    simp [isFits, this]

theorem amPm_half {p e : List Nat} {pm : Bool} (hp : Plain p) (he : Half e pm) : amPm (p ++ 32 :: e) = (if pm then 2 else 1, p) := by
  have ha : 97 ∉ p := hp.noLetter (by omega)
  have hb : 112 ∉ p := hp.noLetter (by omega)
  have r1 : ∀ x, removeSub (bytes " am") (p ++ 32 :: x) = (removeSub (bytes " am") (32 :: x)).map (p ++ ·) :=
    fun x => removeSub_word (a := 32) (b := 97) (sub := [109]) ha (by simp [at?])
  have r2 : ∀ x, removeSub (bytes " a.m.") (p ++ 32 :: x) = (removeSub (bytes " a.m.") (32 :: x)).map (p ++ ·) :=
    fun x => removeSub_word (a := 32) (b := 97) (sub := [46, 109, 46]) ha (by simp [at?])
  have r3 : ∀ x, removeSub (bytes " pm") (p ++ 32 :: x) = (removeSub (bytes " pm") (32 :: x)).map (p ++ ·) :=
    fun x => removeSub_word (a := 32) (b := 112) (sub := [109]) hb (by simp [at?])
  have r4 : ∀ x, removeSub (bytes " p.m.") (p ++ 32 :: x) = (removeSub (bytes " p.m.") (32 :: x)).map (p ++ ·) :=
    fun x => removeSub_word (a := 32) (b := 112) (sub := [46, 109, 46]) hb (by simp [at?])
  unfold amPm
  cases he
  · simp [r1, show removeSub (bytes " am") (32 :: bytes "am") = some [] by decide]
  · simp [r1, r2, show removeSub (bytes " am") (32 :: bytes "a.m.") = none by decide, show removeSub (bytes " a.m.") (32 :: bytes "a.m.") = some [] by decide]
  · simp [r1, r2, r3, show removeSub (bytes " am") (32 :: bytes "pm") = none by decide, show removeSub (bytes " a.m.") (32 :: bytes "pm") = none by decide,
      show removeSub (bytes " pm") (32 :: bytes "pm") = some [] by decide]
  · simp [r1, r2, r3, r4, show removeSub (bytes " am") (32 :: bytes "p.m.") = none by decide, show removeSub (bytes " a.m.") (32 :: bytes "p.m.") = none by decide,
      show removeSub (bytes " pm") (32 :: bytes "p.m.") = none by decide, show removeSub (bytes " p.m.") (32 :: bytes "p.m.") = some [] by decide]

/-- A date and time in digits with a.m. or p.m. after it. -/
theorem getTime_half (env : Env K) (f : Fmt) (init : K) {text p e : List Nat} {pm : Bool} (hp : Plain p) (h0 : 48 ≤ at? p 0 ∧ at? p 0 ≤ 57) (hne : p ≠ [])
    (he : Half e pm) (ht0 : at? text 0 ≠ 32) (htext : spacedOut text = p ++ 32 :: e) (hlen : (spacedOut text).length < 80) :
    getTimeFromString env f init text = dateAndTime env f false 0 ⟨-2451545, p ++ 32 :: e, 0, init⟩ := by
  have htn : text ≠ [] := by rintro rfl; have := congrArg List.length htext; simp [spacedOut] at this
  have hl1 := spacedOut_length text
  have hh : at? (p ++ 32 :: e) 0 = at? p 0 := at_append_left hne
  have hlast : ∃ q u v, p ++ 32 :: e = q ++ [u, v] ∧ v ≠ 32 ∧ u ≠ 32 ∧ phaseIdx u v = none := by
    cases he
    · exact ⟨p ++ [32], 97, 109, by simp [bytes], by decide⟩
    · exact ⟨p ++ [32, 97, 46], 109, 46, by simp [bytes], by decide⟩
    · exact ⟨p ++ [32], 112, 109, by simp [bytes], by decide⟩
    · exact ⟨p ++ [32, 112, 46], 109, 46, by simp [bytes], by decide⟩
  have hd : 100 ∉ p ++ 32 :: e ∧ 98 ∉ p ++ 32 :: e := by
    have h1 : 100 ∉ p := hp.noLetter (by omega)
    have h2 : 98 ∉ p := hp.noLetter (by omega)
    cases he <;> simp [h1, h2, bytes]
  obtain ⟨q, u, v, hq, hv, hu, hph⟩ := hlast
  have l2 := last_two q u v
  rw [← hq] at l2
  have htrim : trimEnd (p ++ 32 :: e) = p ++ 32 :: e := by
    rw [hq, show q ++ [u, v] = (q ++ [u]) ++ [v] by simp]
    exact trimEnd_unit hv
  have hbc : checkBc (p ++ 32 :: e) = (false, p ++ 32 :: e) := by
    unfold checkBc
    simp only [removeSub_none (sub := bytes "ad") (c := 100) (by decide) hd.1, Option.getD_none,
      removeSub_none (sub := bytes "a.d.") (c := 100) (by decide) hd.1,
      removeSub_none (sub := bytes "bc") (c := 98) (by decide) hd.2, removeSub_none (sub := bytes "b.c.") (c := 98) (by decide) hd.2]
    rw [trimStart_of (by omega), htrim]
  unfold getTimeFromString
  rw [getTime_succ, trimStart_of ht0, if_neg (by simp only [not_or]; exact ⟨by omega, htn⟩), normalise_short htn hlen, htext]
  simp only [Run.bind, htrim]
  rw [offsets_none (Or.inr (by rw [l2.2]; exact hu)) (by omega) (by omega)]
  simp only [afterOffsets, l2.1, l2.2, hph, ite_self, hbc]
  rw [keywords_none env _ (by simp) (noKeyword_digit (by rw [hh]; exact h0)) rfl]
  simp

/-- What the code makes of the hour. -/
def hour12 (pm : Bool) (h : Int) : Int := if pm then (if h = 12 then 12 else h + 12) else if h = 12 then 0 else h

theorem dateAndTime_half (env : Env K) (f : Fmt) (init : K) {date time e : List Nat} {x : K} {pm : Bool} (hp : Plain (date ++ 32 :: time))
    (hdots : dots (date ++ 32 :: time ++ 32 :: e) = date ++ 32 :: time ++ 32 :: e) (he : Half e pm) (hc : ClockText time x) :
    dateAndTime env f false 0 ⟨-2451545, date ++ 32 :: time ++ 32 :: e, 0, init⟩ =
      dateOnly env f false 0 init 0 ⟨(env.split init).year, (env.split init).month, (env.split init).day⟩ date
        (hour12 pm (scanHms (K := K) time).1) 0 ((scanHms (K := K) time).2.2 + (scanHms (K := K) time).2.1 * 60) := by
  have hft : isFits (date ++ 32 :: time ++ 32 :: e) = false := by
    apply isFits_noT
    have h1 : 116 ∉ date ++ 32 :: time := hp.noLetter (by omega)
    cases he <;> simpa [bytes] using h1
  have hl4 : (date ++ 32 :: time ++ 32 :: e).length ≥ 4 := by cases he <;> simp [bytes] <;> omega
  have hlen : (date ++ 32 :: time).length - time.length = date.length + 1 := by simp; omega
  have hdrop : (date ++ 32 :: time).drop (date.length + 1) = time := by
    rw [show date ++ 32 :: time = (date ++ [32]) ++ time by simp]
    exact List.drop_left' (by simp)
  have htake : (date ++ 32 :: time).take (date.length + 1 - 1) = date := by simp
  have hcont : time.contains 58 = true := by simpa using hc.colon
  have h0 : at? time 0 ≠ 58 := by have := hc.head; omega
  have hne : time ≠ [58] := by rintro rfl; exact h0 rfl
  have ht : ∀ c ∈ time, c ≠ 32 ∧ isAlpha c = false := by
    intro c hcm
    have := hc.bytes c hcm
    refine ⟨by omega, ?_⟩
    rw [Bool.eq_false_iff, ne_eq, isAlpha_iff]
    omega
  unfold dateAndTime
  simp only [hdots, hft, if_pos hl4, amPm_half hp he, tailLen_append ht, hlen, hdrop, hcont, if_true, htake, Bool.false_eq_true, if_false]
  unfold timeOfDay
  simp only [if_neg hne, hcont, if_true, if_pos h0]
  have hh : ∀ h : Int, (if (if pm = true then 2 else 1) = 2 ∧ (if (if pm = true then 2 else 1) = 1 ∧ h = 12 then 0 else h) ≠ 12 then
      (if (if pm = true then 2 else 1) = 1 ∧ h = 12 then 0 else h) + 12 else (if (if pm = true then 2 else 1) = 1 ∧ h = 12 then 0 else h)) = hour12 pm h := by
    intro h
    unfold hour12
    cases pm
    · simp
    · by_cases h12 : h = 12 <;> simp [h12]
  rw [hh]

/-- The hour of a time of day. -/
theorem clock_hour {z : Bool} {c : Clock} (hc : c ≠ .hours) {p n : Nat} {s : List Nat} (h : TimeOfDay z c p n s) :
    ∃ b t, 32 :: s = b ++ 32 :: t ∧ (b = [] ∨ b = [32]) ∧ ClockText t ((n : K) / (c.perDay * 10 ^ p)) ∧
      (scanHms (K := K) t).1 = ⌊24 * ((n : K) / (c.perDay * 10 ^ p))⌋ := by
  obtain ⟨v, frac, hf, h⟩ := h
  have hpos : (0 : K) < 10 ^ p := by positivity
  have hv : v < 10 ^ p := by
    rcases hf with ⟨rfl, rfl, -⟩ | ⟨hp0, ds, hds, -⟩
    · simp
    · have := value_cons_lt hds.digits
      rw [hds.width] at this
      obtain ⟨-, -, h3⟩ := padded_field hds hp0
      rw [← h3]; exact this
  have hvK : (v : K) < 10 ^ p := by exact_mod_cast hv
  have hv0 : (0 : K) ≤ v := by positivity
  have hscan : ∀ ds rest, AllDigits ds → ds ≠ [] → (scanHms (K := K) (ds ++ 58 :: rest)).1 = (value ds : Int) := by
    intro ds rest a1 a2
    unfold scanHms
    rw [scanInt_digits a1 a2 rfl]
    simp
  cases c with
  | seconds =>
    obtain ⟨h, m, sec, hh, mm, ss, ph, pm, ps, h1, h2, h3, rfl, rfl⟩ := h
    obtain ⟨b, ds, rfl, hb, a1, a2, a3⟩ := twoBytes_split ph
    refine ⟨b, ds ++ 58 :: mm ++ 58 :: ss ++ frac, ?_, hb, by simpa [Clock.perDay] using clockText_seconds (K := K) hf a1 a2 a3 pm ps, ?_⟩
    · rcases hb with rfl | rfl <;> simp
    · rw [show ds ++ 58 :: mm ++ 58 :: ss ++ frac = ds ++ 58 :: (mm ++ 58 :: (ss ++ frac)) by simp, hscan ds _ a1 a2, a3, eq_comm, Int.floor_eq_iff]
      have e : 24 * (((((h * 60 + m) * 60 + sec) * 10 ^ p + v : Nat) : K) / ((Clock.seconds.perDay : Nat) * 10 ^ p)) =
          h + ((m * 60 + sec : Nat) + (v : K) / 10 ^ p) / 3600 := by
        simp only [Clock.perDay]
        push_cast
        field_simp
        ring
      have b1 : ((m * 60 + sec : Nat) : K) + 1 ≤ 3600 := by exact_mod_cast (by omega : m * 60 + sec + 1 ≤ 3600)
      have b2 : (0 : K) ≤ ((m * 60 + sec : Nat) : K) := by positivity
      have b3 : (v : K) / 10 ^ p < 1 := by rw [div_lt_one hpos]; exact hvK
      have b4 : 0 ≤ (v : K) / 10 ^ p := by positivity
      rw [e]
      constructor
      · push_cast at *; linarith
      · push_cast at *; linarith
  | minutes =>
    obtain ⟨h, m, hh, mm, ph, pm, h1, h2, rfl, rfl⟩ := h
    obtain ⟨b, ds, rfl, hb, a1, a2, a3⟩ := twoBytes_split ph
    refine ⟨b, ds ++ 58 :: mm ++ frac, ?_, hb, by simpa [Clock.perDay] using clockText_minutes (K := K) hf a1 a2 a3 pm, ?_⟩
    · rcases hb with rfl | rfl <;> simp
    · rw [show ds ++ 58 :: mm ++ frac = ds ++ 58 :: (mm ++ frac) by simp, hscan ds _ a1 a2, a3, eq_comm, Int.floor_eq_iff]
      have e : 24 * ((((h * 60 + m) * 10 ^ p + v : Nat) : K) / ((Clock.minutes.perDay : Nat) * 10 ^ p)) = h + ((m : K) + (v : K) / 10 ^ p) / 60 := by
        simp only [Clock.perDay]
        push_cast
        field_simp
        ring
      have b1 : (m : K) + 1 ≤ 60 := by exact_mod_cast (by omega : m + 1 ≤ 60)
      have b2 : (0 : K) ≤ (m : K) := by positivity
      have b3 : (v : K) / 10 ^ p < 1 := by rw [div_lt_one hpos]; exact hvK
      have b4 : 0 ≤ (v : K) / 10 ^ p := by positivity
      rw [e]
      constructor
      · push_cast at *; linarith
      · push_cast at *; linarith
  | hours => exact absurd rfl hc

theorem dateOnly_order (env : Env K) (hn : NoDigitNames env.months) (f : Fmt) (init : K) (o : Order) (sep : Nat)
    (hsep : sep = 45 ∨ sep = 32 ∨ sep = 47) {y m d : K} {dec : Bool} {yt mt dt b : List Nat}
    (hy : NumField yt y false) (hm : NumField mt m false) (hd : NumField dt d dec) (hb : b = [] ∨ b = [32]) (h : Int) (s : K) :
    (dateOnly env f false 0 init 0 ⟨(env.split init).year, (env.split init).month, (env.split init).day⟩ (o.text sep yt mt dt ++ b) h 0 s =
        (separated env f false ⟨o.arrange y m d fun a b c => [a, b, c], 0, o.dot dec, 0⟩
          ⟨(env.split init).year, (env.split init).month, (env.split init).day⟩).bind fun d =>
        (finish f false d h 0 s 0).bind fun t => .ok (t, 0)) ∧
    (48 ≤ at? (o.text sep yt mt dt) 0 ∧ at? (o.text sep yt mt dt) 0 ≤ 57) ∧
    ∀ rest, dots (o.text sep yt mt dt ++ rest) = o.text sep yt mt dt ++ rest := by
  have hr : b = [] ∨ at? b 0 = 32 := hb.imp id (fun h => by rw [h]; rfl)
  have key : ∀ {a b' c : List Nat} {va vb vc : K} {da db dc : Bool} {k : Nat}, NumField a va da → NumField b' vb db → NumField c vc dc →
      (if dc then 3 else if db then 2 else if da then 1 else 0) = k →
      (dateOnly env f false 0 init 0 ⟨(env.split init).year, (env.split init).month, (env.split init).day⟩ (a ++ sep :: (b' ++ sep :: c) ++ b) h 0 s =
        (separated env f false ⟨[va, vb, vc], 0, k, 0⟩ ⟨(env.split init).year, (env.split init).month, (env.split init).day⟩).bind fun d =>
        (finish f false d h 0 s 0).bind fun t => .ok (t, 0)) ∧
      (48 ≤ at? (a ++ sep :: (b' ++ sep :: c)) 0 ∧ at? (a ++ sep :: (b' ++ sep :: c)) 0 ≤ 57) ∧
      ∀ rest, dots (a ++ sep :: (b' ++ sep :: c) ++ rest) = a ++ sep :: (b' ++ sep :: c) ++ rest := by
    intro a b' c va vb vc da db dc k ha hb' hc hk
    refine ⟨?_, ?_, ?_⟩
    · have := dateOnly_three env f false 0 init 0 ⟨(env.split init).year, (env.split init).month, (env.split init).day⟩ h 0 s
        (.number ha hn.letter) (.text (.number hb' hn.letter)) (.number hc hn.letter) hsep hr
      simp only [Bool.false_eq_true, if_false, hk] at this
      rw [← this]
      simp
    · rw [at_append_left ha.ne_nil]; exact ha.head
    · intro rest
      rw [List.append_assoc, List.cons_append]
      exact dots_field ha hsep _
  cases o <;> simp only [Order.text, Order.arrange]
  · exact key hy hm hd (by simp [Order.dot])
  · exact key hy hd hm (by simp [Order.dot])
  · exact key hm hd hy (by simp [Order.dot])
  · exact key hd hm hy (by simp [Order.dot])
  · exact key hm hy hd (by simp [Order.dot])
  · exact key hd hy hm (by simp [Order.dot])

/-- The time of day in days that `x` on a twelve-hour clock stands for: from 12 to 1 comes first in each half. -/
def twelve (pm : Bool) (x : K) : K :=
  let first := 1 / 2 ≤ x ∧ x < 13 / 24
  if pm then (if first then x else x + 1 / 2) else if first then x - 1 / 2 else x

/-- **C69.** With a.m. or p.m. after it the time of day is read as on a twelve-hour clock, for dates in any order. -/
theorem C69_half (env : Env K) (hn : NoDigitNames env.months) (f : Fmt) (init : K) (o : Order) (sep : Nat)
    (hsep : sep = 45 ∨ sep = 32 ∨ sep = 47) (y m : Nat) (d : K) (dec : Bool) (yt mt dt : List Nat)
    (hy : Whole y yt) (hm : Whole m mt) (hd : Decimal d dec dt) (zeroes : Bool) (c : Clock) (hc : c ≠ .hours) (p n : Nat) (tod : List Nat)
    (ht : TimeOfDay zeroes c p n tod) (pm : Bool) (e text : List Nat) (he : Half e pm)
    (hm' : m ≤ lastMonth f) (hd1 : 0 ≤ d) (hd2 : d < 32) (ho : o.Clear f y d dec) (h2 : f.twoDigitYear = false ∨ 100 ≤ y)
    (z : Int) (hz : dmyToDay ⌊d⌋ m y f.calendar = some z) (ht0 : at? text 0 ≠ 32)
    (htext : spacedOut text = o.text sep yt mt dt ++ 32 :: tod ++ 32 :: e) (hlen : (spacedOut text).length < 80) :
    getTimeFromString env f init text =
      .ok ((z : K) + Int.fract d + twelve pm ((n : K) / (c.perDay * 10 ^ p)) - 2451545 - 1 / 2, 0) := by
  have hT : Tod (32 :: tod) ((n : K) / (c.perDay * 10 ^ p)) := .time hc ht
  obtain ⟨⟨p1, p2, -⟩, -⟩ := date_order env hn f false init o sep hsep (hy.numField (K := K)) (hm.numField (K := K)) hd.numField hT
  obtain ⟨b, t, hbt, hb, hct, hh⟩ := clock_hour (K := K) hc ht
  obtain ⟨hdate, hhead, hdots⟩ := dateOnly_order env hn f init o sep hsep (hy.numField (K := K)) (hm.numField (K := K)) hd.numField hb
    (hour12 pm (scanHms (K := K) t).1) ((scanHms (K := K) t).2.2 + (scanHms (K := K) t).2.1 * 60)
  have e1 : o.text sep yt mt dt ++ 32 :: tod = o.text sep yt mt dt ++ b ++ 32 :: t := by rw [hbt, List.append_assoc]
  have hnt : o.text sep yt mt dt ≠ [] := by intro h; rw [h] at hhead; simp [at?] at hhead
  have hlow : at? (o.text sep yt mt dt ++ 32 :: tod) 0 ≤ 57 := by rw [at_append_left hnt]; exact hhead.2
  rw [getTime_half env f init p1 ⟨p2, hlow⟩ (by simp) he ht0 htext hlen]
  rw [e1] at p1 ⊢
  rw [dateAndTime_half env f init p1 (by rw [List.append_assoc, List.append_assoc]; exact hdots _) he hct, hdate,
    separated_clear env f o y m d dec _ hm' hd1 hd2 ho h2, Run.bind]
  have htr : trunc d = ⌊d⌋ := by rw [trunc, if_pos hd1]
  have hx := hct.value
  have hx' : ((hour12 pm (scanHms (K := K) t).1 : Int) : K) * 60 / 1440 +
      ((scanHms (K := K) t).2.2 + (scanHms (K := K) t).2.1 * 60) / 86400 = twelve pm ((n : K) / (c.perDay * 10 ^ p)) := by
    generalize (n : K) / (c.perDay * 10 ^ p) = x at *
    have key : (1 / 2 ≤ x ∧ x < 13 / 24) ↔ (scanHms (K := K) t).1 = 12 := by
      rw [hh, Int.floor_eq_iff]
      push_cast
      constructor
      · rintro ⟨a, b⟩; constructor <;> linarith
      · rintro ⟨a, b⟩; constructor <;> linarith
    unfold twelve hour12
    simp only [key]
    cases pm
    · by_cases h12 : (scanHms (K := K) t).1 = 12
      · rw [h12] at hx
        simp [h12]
        push_cast at hx
        linarith
      · simp [h12]
        linarith
    · by_cases h12 : (scanHms (K := K) t).1 = 12
      · rw [h12] at hx
        simp [h12]
        push_cast at hx
        linarith
      · simp [h12]
        linarith
  rw [finish_value f _ _ _ _ hx' z (by rw [htr]; exact hz), Run.bind]
  simp only [htr, Int.fract]
  congr 2
  ring

/-! ## Phases of the moon -/

/-- How the phases are written. -/
inductive Phase : Nat → List Nat → Prop where
  | new : Phase 0 (bytes "nm")
  | first : Phase 1 (bytes "1q")
  | full : Phase 2 (bytes "fm")
  | last : Phase 3 (bytes "3q")

theorem spacedOut_head {s : List Nat} (h : s ≠ []) : at? (spacedOut s) 0 = lower (at? s 0) := by
  cases s with
  | nil => exact absurd rfl h
  | cons a s => rw [spacedOut_cons]; rfl

/-- The text may as well be given in lower case and spaced out. -/
theorem getTime_spaced (env : Env K) (f : Fmt) (n m : Nat) (hn : 41 ≤ n) (hm : 41 ≤ m) (init : K) (base : List Nat) (h0 : at? base 0 ≠ 32)
    (hl : (spacedOut base).length < 80) : getTime env f n init (spacedOut base) = getTime env f m init base := by
  rw [C65_depth env f n hn, C65_depth env f m hm]
  by_cases hb : base = []
  · subst hb; rfl
  · have hlen := spacedOut_length base
    have hne : spacedOut base ≠ [] := by
      cases base with
      | nil => exact absurd rfl hb
      | cons a s => rw [spacedOut_cons]; simp
    have h0' : at? (spacedOut base) 0 ≠ 32 := by
      rw [spacedOut_head hb]
      unfold lower
      split_ifs <;> omega
    rw [getTime_succ, getTime_succ, trimStart_of h0, trimStart_of h0', if_neg (by simp only [not_or]; exact ⟨by omega, hne⟩),
      if_neg (by simp only [not_or]; exact ⟨by omega, hb⟩), normalise_short hb hl, normalise_spaced (spacedOut_spaced base) hne hl]

/-- **C69.** The name of a phase at the end gives the time of that phase nearest to the time of the text before it. -/
theorem C69_phase (env : Env K) (f : Fmt) (init : K) (k : Nat) (name base text : List Nat) (hk : Phase k name)
    (hb : at? base 0 ≠ 32) (h0 : at? text 0 ≠ 32 ∧ at? text 0 ≠ 43 ∧ at? text 0 ≠ 45) (htext : spacedOut text = spacedOut base ++ name)
    (hl : (spacedOut text).length < 80) :
    getTimeFromString env f init text =
      (getTimeFromString env f init base).bind fun q => .ok (env.phase k q.1, if q.1 ≠ -2451545 then 1 else 0) := by
  obtain ⟨u, v, rfl, hu, hv, hph⟩ : ∃ u v, name = [u, v] ∧ u ≠ 32 ∧ v ≠ 32 ∧ phaseIdx u v = some k := by
    cases hk
    · exact ⟨110, 109, rfl, by decide⟩
    · exact ⟨49, 113, rfl, by decide⟩
    · exact ⟨102, 109, rfl, by decide⟩
    · exact ⟨51, 113, rfl, by decide⟩
  have htn : text ≠ [] := by rintro rfl; have := congrArg List.length htext; simp [spacedOut] at this
  have hl1 := spacedOut_length text
  have hhd : at? (spacedOut base ++ [u, v]) 0 ≠ 43 ∧ at? (spacedOut base ++ [u, v]) 0 ≠ 45 := by
    rw [← htext, spacedOut_head htn]
    unfold lower
    split_ifs <;> omega
  have l2 := last_two (spacedOut base) u v
  have htrim : trimEnd (spacedOut base ++ [u, v]) = spacedOut base ++ [u, v] := by
    rw [show spacedOut base ++ [u, v] = (spacedOut base ++ [u]) ++ [v] by simp]
    exact trimEnd_unit hv
  have hlb : (spacedOut base).length < 80 := by rw [htext] at hl; simp at hl; omega
  have htake : (spacedOut base ++ [u, v]).take ((spacedOut base ++ [u, v]).length - 2) = spacedOut base := by simp
  have hgt : (spacedOut base ++ [u, v]).length > 1 := by simp
  unfold getTimeFromString
  rw [getTime_succ, trimStart_of h0.1, if_neg (by simp only [not_or]; exact ⟨by omega, htn⟩), normalise_short htn hl, htext]
  simp only [Run.bind, htrim]
  rw [offsets_none (Or.inr (by rw [l2.2]; exact hu)) hhd.2 hhd.1]
  simp only [afterOffsets, l2.1, l2.2, hph, if_pos hgt, htake, add_zero]
  rw [getTime_spaced env f 79 80 (by omega) (by omega) init base hb hlb]
  rfl

/-! ## Months that do not exist -/

theorem separated_out (env : Env K) (f : Fmt) (o : Order) (hmf : o.monthFirst = true) (y m d : Nat) (cur : Ymd K)
    (hy : 32 < y) (hm1 : lastMonth f < m) (hm2 : m < 32) (hd1 : lastMonth f < d) (hd2 : d < 32) (h2 : f.twoDigitYear = false ∨ 100 ≤ y) :
    separated env f false ⟨o.arrange (y : K) (m : K) (d : K) fun a b c => [a, b, c], 0, o.dot false, 0⟩ cur = .ok ⟨y, m, d⟩ := by
  have m0 : ¬ (m : K) < 0 := not_lt.2 (by positivity)
  have y0 : ¬ (y : K) < 0 := not_lt.2 (by positivity)
  have d0 : ¬ (d : K) < 0 := not_lt.2 (by positivity)
  have m32 : (m : K) < 32 := by exact_mod_cast hm2
  have d32 : (d : K) < 32 := by exact_mod_cast hd2
  have y32 : (32 : K) < y := by exact_mod_cast hy
  have mm : (maxMonth f : K) + 1 / 10000 < m := by
    rw [maxMonth_eq]
    have : ((lastMonth f : K) + 1) ≤ m := by exact_mod_cast hm1
    linarith
  have dd : (maxMonth f : K) + 1 / 10000 < d := by
    rw [maxMonth_eq]
    have : ((lastMonth f : K) + 1) ≤ d := by exact_mod_cast hd1
    linarith
  have m32' := not_lt.2 m32.le
  have d32' := not_lt.2 d32.le
  have y32' := not_lt.2 y32.le
  have htwo : twoDigit env f false (y : Int) = (y : Int) := by
    unfold twoDigit
    rw [if_neg]
    rintro ⟨h1, h3, -, h4⟩
    rcases h2 with h2 | h2
    · rw [h2] at h4; exact absurd h4 (by decide)
    · omega
  have fy := floor_nat_half (K := K) y
  have fm := trunc_nat_half (K := K) m
  generalize (y : K) = vy at *
  generalize (m : K) = vm at *
  generalize (d : K) = vd at *
  unfold separated
  cases o <;> simp only [Order.monthFirst, Bool.false_eq_true] at hmf <;>
    simp [-one_div, Order.arrange, Order.dot, findYear, findDay, threeFields, guess, fill, field, m0, y0, d0, m32', d32', m32, d32, y32, y32', mm, dd,
      Run.bind, fy, fm, htwo]

/-- **C61.** Finding: two numbers too large for a month beside the year ("2009 20 25"): the first is taken for the month
    without a check, and `dmy_to_day` reads outside its table. -/
theorem C61_month_out (env : Env K) (hn : NoDigitNames env.months) (f : Fmt) (hf : f.calendar = GREGORIAN) (init : K) (o : Order)
    (hmf : o.monthFirst = true) (sep : Nat) (hsep : sep = 45 ∨ sep = 32 ∨ sep = 47) (y m d : Nat) (x : K) (yt mt dt t : List Nat)
    (hyt : Whole y yt) (hmt : Whole m mt) (hdt : Whole d dt) (ht : Tod t x) (hy : 32 < y) (hm1 : 15 ≤ m) (hm2 : m < 32) (hd1 : 12 < d) (hd2 : d < 32)
    (h2 : f.twoDigitYear = false ∨ 100 ≤ y) (hl : (o.text sep yt mt dt ++ t).length < 80) :
    getTimeFromString env f init (o.text sep yt mt dt ++ t) = .ub := by
  obtain ⟨⟨p1, p2, p3⟩, cur, h, s, hx, he⟩ := date_order env hn f false init o sep hsep (hyt.numField (K := K)) (hmt.numField (K := K)) (hdt.numField (K := K)) ht
  have hne : o.text sep yt mt dt ++ t ≠ [] := by intro h; rw [h] at p2; simp [at?] at p2
  have hlm : lastMonth f = 12 := by unfold lastMonth; rw [hf]; decide
  rw [getTime_plain env f init hne hl (by omega) (normalise_plain p1 hne hl) hne (quiet_plain p1 hne p2 p3), he,
    separated_out env f o hmf y m d cur hy (by omega) hm2 (by omega) hd2 h2, Run.bind, finish]
  have htr : trunc (d : K) = (d : Int) := by rw [trunc, if_pos (by positivity), Int.floor_natCast]
  have hnone : dmyToDay (d : Int) (m : Int) (y : Int) GREGORIAN = none := by
    unfold dmyToDay
    rw [calendarForDate_of_ne gregorian_refines.notJG, gregorian_refines.data]
    simp only
    rw [if_neg (by omega), if_neg (by omega)]
  simp only [Bool.false_eq_true, if_false, htr, hf, hnone, Run.bind]

/-! ## Cases -/

example : getTimeFromString exampleEnv exampleFmt 0 (Order.ymd.text 32 (bytes "2009") (bytes "20") (bytes "25") ++ []) = .ub :=
  C61_month_out exampleEnv exampleEnv_names exampleFmt rfl 0 .ymd rfl 32 (by decide) 2009 20 25 0 _ _ _ _ (by unfold Whole AllDigits value; decide)
    (by unfold Whole AllDigits value; decide) (by unfold Whole AllDigits value; decide) .midnight (by decide) (by decide) (by decide) (by decide) (by decide)
    (Or.inl rfl) (by decide)

/-- "44-3-15 BC" -/
example : getTimeFromString exampleEnv exampleFmt 0 (bytes "44-3-15 BC") = .ok (((1705428 : ℤ) : ℚ) + Int.fract 15 + 0 - 2451545 - 1 / 2, 0) :=
  C69_bc exampleEnv exampleEnv_names exampleFmt 0 .ymd 45 (by decide) 44 3 15 0 false (bytes "44") (bytes "3") (bytes "15") [] (bytes "bc") _
    (by unfold Whole AllDigits value; decide) (by unfold Whole AllDigits value; decide) ⟨15, by unfold Whole AllDigits value; decide, by norm_num⟩
    .midnight .bc (by decide) (by norm_num) (by norm_num)
    (Or.inl ⟨by norm_num, Or.inr (Or.inl (by norm_num [lastMonth, exampleFmt, isoFmt, GREGORIAN, HEBREW, CHINESE]))⟩)
    1705428 (by rw [show ⌊(15 : ℚ)⌋ = 15 by norm_num]; decide +kernel) (by decide) (by decide) (by decide)

/-- "1066/10/14 A.D." -/
example : getTimeFromString exampleEnv exampleFmt 0 (bytes "1066/10/14 A.D.") = getTimeFromString exampleEnv exampleFmt 0 (bytes "1066/10/14") :=
  C69_ad exampleEnv exampleFmt 0 _ (bytes "a.d.") _ (by decide) (by decide) (by decide) (by decide) .a_d (by decide) (by decide) (by decide)

/-- "2009-3-15 12:30:00.5am" -/
example : getTimeFromString exampleEnv exampleFmt 0 (bytes "2009-3-15 12:30:00.5am") =
    .ok (((2454906 : ℤ) : ℚ) + Int.fract 15 + twelve false ((450005 : ℕ) / ((Clock.seconds).perDay * 10 ^ 1 : ℚ)) - 2451545 - 1 / 2, 0) :=
  C69_half exampleEnv exampleEnv_names exampleFmt 0 .ymd 45 (by decide) 2009 3 15 false (bytes "2009") (bytes "3") (bytes "15")
    (by unfold Whole AllDigits value; decide) (by unfold Whole AllDigits value; decide) ⟨15, by unfold Whole AllDigits value; decide, by norm_num⟩
    true .seconds (by decide) 1 450005 (bytes "12:30:00.5") exampleClock false (bytes "am") _ .am (by decide) (by norm_num) (by norm_num)
    (Or.inl ⟨by norm_num, Or.inr (Or.inl (by norm_num [lastMonth, exampleFmt, isoFmt, GREGORIAN, HEBREW, CHINESE]))⟩) (Or.inl rfl)
    2454906 (by rw [show ⌊(15 : ℚ)⌋ = 15 by norm_num]; decide +kernel) (by decide) (by decide) (by decide)

/-- "2009-3-5 FM" -/
example : getTimeFromString exampleEnv exampleFmt 0 (bytes "2009-3-5 FM") =
    (getTimeFromString exampleEnv exampleFmt 0 (bytes "2009-3-5 ")).bind fun q => .ok (exampleEnv.phase 2 q.1, if q.1 ≠ -2451545 then 1 else 0) :=
  C69_phase exampleEnv exampleFmt 0 2 _ (bytes "2009-3-5 ") _ .full (by decide) (by decide) (by decide) (by decide)

end Verif.Props
