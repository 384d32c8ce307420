import Verif.Lemmas.GetTimeNamed
import Verif.Props.TimeRead
import Mathlib.Tactic.FinCases
import Mathlib.Tactic.IntervalCases
import Mathlib.Data.Fin.VecNotation

/-!
# Property theorems: dates with the name of the month, and dates that abort (C61)
-/

namespace Verif.Props
open Verif Verif.GetTime Verif.Spec Verif.Time Verif.Date

variable {K : Type} [Field K] [LinearOrder K] [IsStrictOrderedRing K] [FloorRing K]

/-- The English names. -/
def english : List (List Nat) :=
  [bytes "january", bytes "february", bytes "march", bytes "april", bytes "may", bytes "june", bytes "july", bytes "august",
   bytes "september", bytes "october", bytes "november", bytes "december"]

/-- `w` is the name of month `m` in full or the first three letters of it. -/
def EnglishMonth (m : Nat) (w : List Nat) : Prop :=
  1 ≤ m ∧ ∃ full, english[m - 1]? = some full ∧ (w = full ∨ w = full.take 3)

/-- The first twelve names begin as in English, in upper or lower case. -/
def EnglishNames (names : Int → Option (List Nat)) : Prop :=
  ∀ (m : Nat) full, english[m]? = some full → ∃ n, names (m + 1 : Int) = some n ∧ (n.take 3).map lower = full.take 3

instance (w : List Nat) : Decidable (NameText w) :=
  decidable_of_iff ((∀ c ∈ w, 97 ≤ c ∧ c ≤ 122) ∧ 3 ≤ w.length ∧ NoPair 97 100 w ∧ NoPair 98 99 w ∧ NoPair 97 109 w ∧ NoPair 112 109 w ∧
    at? w 0 ≠ 121 ∧ (at? w 0 = 106 → at? w 1 ≠ 100) ∧ ¬ (at? w 0 = 109 ∧ at? w 1 = 106) ∧ ¬ (at? w 0 = 103 ∧ at? w 1 = 112) ∧
    ¬ (at? w 0 = 117 ∧ at? w 1 = 110) ∧ ¬ (at? w 0 = 110 ∧ at? w 1 = 111 ∧ at? w 2 = 119) ∧
    (at? w (w.length - 1) ≠ 109 ∧ at? w (w.length - 1) ≠ 113))
    ⟨fun ⟨a, b, c, d, e, f, g, h, i, j, k, l, m⟩ => ⟨a, b, c, d, e, f, g, h, i, j, k, l, m⟩,
     fun ⟨a, b, c, d, e, f, g, h, i, j, k, l, m⟩ => ⟨a, b, c, d, e, f, g, h, i, j, k, l, m⟩⟩

theorem english_text : ∀ full ∈ english, NameText full ∧ NameText (full.take 3) := by decide +kernel

theorem EnglishMonth.text {m : Nat} {w : List Nat} (h : EnglishMonth m w) : NameText w := by
  obtain ⟨-, full, h, rfl | rfl⟩ := h
  · exact (english_text _ (List.mem_of_getElem? h)).1
  · exact (english_text _ (List.mem_of_getElem? h)).2

theorem EnglishMonth.le {m : Nat} {w : List Nat} (h : EnglishMonth m w) : 1 ≤ m ∧ m ≤ 12 := by
  obtain ⟨h1, full, h, -⟩ := h
  have := (List.getElem?_eq_some_iff.1 h).1
  have : english.length = 12 := rfl
  omega

theorem nameIndex_first {names : Int → Option (List Nat)} {s : List Nat} {i m : Int} {k : Nat} (h1 : i ≤ m) (h2 : m < i + k)
    (hm : ∃ n, names m = some n ∧ nameMatches n s = true) (hb : ∀ j, i ≤ j → j < m → ∃ n, names j = some n ∧ nameMatches n s = false) :
    nameIndex names s i k = some m := by
  induction k generalizing i with
  | zero => omega
  | succ k ih =>
    rw [nameIndex]
    by_cases he : i = m
    · subst he
      obtain ⟨n, e1, e2⟩ := hm
      simp only [e1, e2, if_true]
    · obtain ⟨n, e1, e2⟩ := hb i (by omega) (by omega)
      simp only [e1, e2, Bool.false_eq_true, if_false]
      exact ih (by omega) (by omega) (fun j hj hj' => hb j (by omega) hj')

theorem english_distinct : ∀ i < 12, ∀ j < 12, i ≠ j → (english[i]?.map (List.take 3)) ≠ (english[j]?.map (List.take 3)) := by decide +kernel
theorem english_lower : ∀ full ∈ english, (full.take 3).map toLower = full.take 3 ∧ 3 ≤ full.length := by decide +kernel

theorem EnglishMonth.index {env : Env K} (hn : EnglishNames env.months) {m : Nat} {w : List Nat} (h : EnglishMonth m w) :
    monthIndex env w = some (m : Int) := by
  have hle := h.le
  obtain ⟨h1, full, hf, hw⟩ := h
  obtain ⟨l1, l2⟩ := english_lower full (List.mem_of_getElem? hf)
  have hw3 : w.take 3 = full.take 3 ∧ 3 ≤ w.length := by
    rcases hw with rfl | rfl
    · exact ⟨rfl, l2⟩
    · rw [List.take_take, List.length_take]; exact ⟨rfl, by omega⟩
  have key : ∀ n : List Nat, nameMatches n w = ((n.take 3).map lower == full.take 3) := by
    intro n
    unfold nameMatches
    rw [show min 3 w.length = 3 by omega, hw3.1, l1]
    have : toLower = lower := by funext c; exact toLower_eq c
    rw [this]
  have nm : ∀ j : Nat, j < 12 → ∃ n, env.months ((j : Int) + 1) = some n ∧ nameMatches n w = decide (j = m - 1) := by
    intro j hj
    have hj' : j < english.length := hj
    obtain ⟨fj, hfj⟩ : ∃ fj, english[j]? = some fj := ⟨_, List.getElem?_eq_getElem hj'⟩
    obtain ⟨n, e1, e2⟩ := hn j fj hfj
    refine ⟨n, e1, ?_⟩
    rw [key, e2]
    by_cases hjm : j = m - 1
    · rw [hjm, hf] at hfj
      rw [← Option.some.inj hfj]
      simp [hjm]
    · have := english_distinct j hj (m - 1) (by omega) hjm
      rw [hf, hfj] at this
      simp only [Option.map_some, ne_eq, Option.some.injEq] at this
      simp [hjm, this]
  unfold monthIndex
  apply nameIndex_first (by omega) (by omega)
  · obtain ⟨n, e1, e2⟩ := nm (m - 1) (by omega)
    refine ⟨n, ?_, by simpa using e2⟩
    rw [← e1]
    congr 1
    omega
  · intro j hj hj'
    obtain ⟨n, e1, e2⟩ := nm (j - 1).toNat (by omega)
    refine ⟨n, ?_, ?_⟩
    · rw [← e1]; congr 1; omega
    · rw [e2]; simp; omega

theorem EnglishNames.noDigit_aux {n full : List Nat} (h : (n.take 3).map lower = full.take 3) (hf : full ∈ english) :
    ¬ (48 ≤ at? n 0 ∧ at? n 0 ≤ 57) := by
  have hl := (english_text full hf).1.letters
  cases n with
  | nil => simp [at?]
  | cons c n =>
    cases full with
    | nil => simp at h
    | cons f full =>
      simp only [List.take_succ_cons, List.map_cons, List.cons.injEq] at h
      have h1 := hl f (by simp)
      have h2 : at? (c :: n) 0 = c := rfl
      rw [h2]
      have h3 := h.1
      unfold lower at h3
      split_ifs at h3 <;> omega

/-- Which field is which, given the name of the month: a year above 32; or no decimals and the year at the
    other end from the month, or where the format wants it if the month is in the middle. -/
def Order.NamedClear (o : Order) (f : Fmt) (y : Nat) (decimals : Bool) : Prop :=
  32 < y ∨ (decimals = false ∧ (o = .mdy ∨ o = .ydm ∨ (o = .ymd ∧ f.yearFirst = true) ∨ (o = .dmy ∧ f.yearFirst = false)))

/-- The field number of the month. -/
def Order.monthField : Order → Nat
  | .ymd | .dmy => 2
  | .mdy | .myd => 1
  | .ydm | .dym => 3

set_option maxHeartbeats 1000000 in
theorem separated_named (env : Env K) (f : Fmt) (o : Order) (y m : Nat) (d : K) (dot : Bool) (cur : Ymd K)
    (hm : m ≤ 12) (hd1 : 0 ≤ d) (hd2 : d < 32) (ho : o.NamedClear f y dot) (h2 : f.twoDigitYear = false ∨ 100 ≤ y) :
    separated env f false ⟨o.arrange (y : K) (m : K) d fun a b c => [a, b, c], o.monthField, o.dot dot, 0⟩ cur =
      .ok ⟨y, m, d⟩ := by
  have m0 : ¬ (m : K) < 0 := not_lt.2 (by positivity)
  have y0 : ¬ (y : K) < 0 := not_lt.2 (by positivity)
  have d0 : ¬ d < 0 := not_lt.2 hd1
  have m32' : ¬ (32 : K) < (m : K) := by
    rw [not_lt]
    exact_mod_cast (by omega : m ≤ 32)
  have d32 : ¬ (32 : K) < d := not_lt.2 hd2.le
  have hl' : 12 ≤ lastMonth f := by unfold lastMonth; split_ifs <;> omega
  have mm : ¬ (maxMonth f : K) + 1 / 10000 < (m : K) := by
    rw [maxMonth_eq, not_lt]
    have : (m : K) ≤ (lastMonth f : K) := by exact_mod_cast hm.trans hl'
    linarith
  have htwo : twoDigit env f false (y : Int) = (y : Int) := by
    unfold twoDigit
    rw [if_neg]
    rintro ⟨h1, h3, -, h4⟩
    rcases h2 with h2 | h2
    · rw [h2] at h4; exact absurd h4 (by decide)
    · omega
  have fy := floor_nat_half (K := K) y
  have fm := trunc_nat_half (K := K) m
  have hy1 : 32 < y → (32 : K) < (y : K) := fun h => by exact_mod_cast h
  have hy2 : y ≤ 32 → ¬ (32 : K) < (y : K) := fun h => by rw [not_lt]; exact_mod_cast h
  generalize hvy : (y : K) = vy at *
  generalize hvm : (m : K) = vm at *
  clear hvy hvm
  unfold separated
  by_cases hy : 32 < y
  · have hy1 := hy1 hy
    have hy3 : ¬ vy < 32 := not_lt.2 hy1.le
    clear ho
    by_cases hb : (maxMonth f : K) + 1 / 10000 < d <;> cases o <;> cases dot <;>
      simp [-one_div, Order.arrange, Order.dot, Order.monthField, findYear, findDay, threeFields, guess, fill, field, m0, y0, d0, m32', d32, mm,
        hy1, hy3, hb, hd2, Run.bind, fy, fm, htwo]
  · have hy1 := hy2 (by omega)
    rcases ho with h | ⟨rfl, h⟩
    · exact absurd h hy
    · rcases h with rfl | rfl | ⟨rfl, h1⟩ | ⟨rfl, h1⟩ <;>
        simp [-one_div, Order.arrange, Order.dot, Order.monthField, findYear, findDay, threeFields, guess, fill, field, m0, y0, d0, m32', d32,
          hy1, hd2, Run.bind, fy, fm, htwo, *]

/-- Where the name stands in the text, the digits around it, and that it is no FITS time. -/
structure Placed (T : List Nat) (w : List Nat) : Prop where
  around : ∃ pre post, T = pre ++ w ++ post ∧ Around pre w post
  dots : dots T = T
  fits : isFits T = false

theorem named3 (env : Env K) (f : Fmt) (init : K) (sep : Nat)
    (hsep : sep = 45 ∨ sep = 32 ∨ sep = 47) {text w a b c r t : List Nat} {va vb vc x : K} {ma mb mc da db dc : Bool}
    (ha : FieldText env a va ma da) (hb : FieldText env b vb mb db) (hc : FieldText env c vc mc dc) (hr : r = [] ∨ r = [32])
    (ht : After t x)
    (htext : spacedOut text = joined sep a b c ++ r ++ t) (hl : (joined sep a b c ++ r ++ t).length < 80) (h0 : text ≠ []) (h32 : at? text 0 ≠ 32)
    (hp : Placed (joined sep a b c ++ r ++ t) w)
    {k : Nat} (hk : (if dc then 3 else if db then 2 else if da then 1 else 0) = k)
    {l : Nat} (hm : (if mc then 3 else if mb then 2 else if ma then 1 else 0) = l) :
    ∃ (cur : Ymd K) (h : Int) (s : K), (h : K) * 60 / 1440 + s / 86400 = x ∧
      getTimeFromString env f init text =
        (separated env f false ⟨[va, vb, vc], l, k, 0⟩ cur).bind fun d =>
        (finish f false d h 0 s 0).bind fun t => .ok (t, 0) := by
  obtain ⟨pre, post, e, har⟩ := hp.around
  have hlt : text.length < 80 := by
    have : ∀ s : List Nat, s.length ≤ (spacedOut s).length := by
      intro s
      cases s with
      | nil => simp
      | cons a s =>
        rw [spacedOut_cons]
        have : ∀ (s : List Nat) a, s.length ≤ (spacedRest a s).length := by
          intro s
          induction s with
          | nil => simp
          | cons b s ih => intro a; rw [spacedRest]; have := ih b; split_ifs <;> simp <;> omega
        have := this s a
        simp; omega
    have := this text
    rw [htext] at this
    omega
  have hn := C62_copied text h0 (by rw [htext]; omega)
  rw [htext] at hn
  have := read_fields f init ha (.text hb) hc hsep (hr.imp id (fun h => by rw [h]; rfl)) (by rcases hr with rfl | rfl <;> simp) ht
    h0 hlt h32 hn (by rw [e]; exact har.quiet) hp.dots hp.fits (by rw [e]; exact har.amPm)
  rw [hk, hm] at this
  exact this

/-- Only a name in the third place can look like the `T` of a FITS time. -/
theorem no_fits {sep : Nat} {a b c rest : List Nat} (ha : 45 ∉ a) (hb : 45 ∉ b) (hsep : sep = 32 ∨ sep = 47 ∨ (116 ∉ c)) (hc : 45 ∉ c) (hr : Plain rest)
    (hr45 : 45 ∉ rest) : isFits (joined sep a b c ++ rest) = false := by
  rw [Bool.eq_false_iff]
  intro h
  simp only [isFits, Bool.and_eq_true, decide_eq_true_eq, beq_iff_eq] at h
  obtain ⟨⟨⟨⟨hlen, h11⟩, h4⟩, h7⟩, -⟩ := h
  have e : joined sep a b c ++ rest = a ++ sep :: (b ++ sep :: (c ++ rest)) := by simp [joined]
  rw [e] at h11 h4 h7
  have cons_at : ∀ (x : Nat) (s : List Nat) (i : Nat), at? (x :: s) (i + 1) = at? s i := by intros; simp [at?]
  have over : ∀ (s : List Nat) (i : Nat), at? s i ≠ 0 → i < s.length := by
    intro s i h
    by_contra hn
    apply h
    simp [at?, List.getD_eq_getElem?_getD, List.getElem?_eq_none (by omega : s.length ≤ i)]
  -- where a dash can be
  have dash : ∀ i, at? (a ++ sep :: (b ++ sep :: (c ++ rest))) i = 45 → sep = 45 ∧ (i = a.length ∨ i = a.length + 1 + b.length) := by
    intro i hi
    by_cases h1 : i < a.length
    · rw [at_append_lt h1] at hi
      exact absurd (hi ▸ at_mem h1) ha
    · rw [at_append_ge (by omega)] at hi
      obtain ⟨k, hk⟩ : ∃ k, i = a.length + k := ⟨i - a.length, by omega⟩
      subst hk
      rw [Nat.add_sub_cancel_left] at hi
      cases k with
      | zero => exact ⟨hi, Or.inl rfl⟩
      | succ k =>
        rw [cons_at] at hi
        by_cases h2 : k < b.length
        · rw [at_append_lt h2] at hi
          exact absurd (hi ▸ at_mem h2) hb
        · rw [at_append_ge (by omega)] at hi
          obtain ⟨l, hl⟩ : ∃ l, k = b.length + l := ⟨k - b.length, by omega⟩
          subst hl
          rw [Nat.add_sub_cancel_left] at hi
          cases l with
          | zero => exact ⟨hi, Or.inr (by omega)⟩
          | succ l =>
            rw [cons_at] at hi
            have := over _ _ (by rw [hi]; decide)
            have hm := at_mem this
            rw [hi, List.mem_append] at hm
            exact absurd hm (by tauto)
  obtain ⟨hs, h4'⟩ := dash 4 h4
  obtain ⟨-, h7'⟩ := dash 7 h7
  have hl : a.length = 4 ∧ b.length = 2 := by omega
  rw [at_append_ge (by omega), hl.1] at h11
  rw [show 11 - 4 = 6 + 1 by rfl, cons_at, at_append_ge (by omega), hl.2, show 6 - 2 = 3 + 1 by rfl, cons_at] at h11
  have := over _ _ (by rw [h11]; decide)
  have hm := at_mem this
  rw [h11, List.mem_append] at hm
  rcases hm with hm | hm
  · rcases hsep with h | h | h
    · omega
    · omega
    · exact h hm
  · exact absurd hm (hr.noLetter (by omega))

theorem Whole.no45 {n : Nat} {s : List Nat} (h : Whole n s) : 45 ∉ s := fun hs => by have := h.1 45 hs; omega

set_option maxHeartbeats 1000000 in
theorem read_named (env : Env K) (hn : NoDigitNames env.months) (hen : EnglishNames env.months) (f : Fmt) (init : K) (o : Order) (sep : Nat)
    (hsep : sep = 32 ∨ sep = 47 ∨ (sep = 45 ∧ o.monthField ≠ 3)) (y m : Nat) (d x : K) (dec : Bool) (yt mt dt t text : List Nat)
    (hy : Whole y yt) (hm : EnglishMonth m mt) (hd : Decimal d dec dt) (ht : Tod t x)
    (htext : spacedOut text = o.text sep yt mt dt ++ t) (h32 : at? text 0 ≠ 32) (hl : (o.text sep yt mt dt ++ t).length < 80) :
    ∃ (cur : Ymd K) (h : Int) (s : K), (h : K) * 60 / 1440 + s / 86400 = x ∧
      getTimeFromString env f init text =
        (separated env f false ⟨o.arrange (y : K) (m : K) d fun a b c => [a, b, c], o.monthField, o.dot dec, 0⟩ cur).bind fun d =>
        (finish f false d h 0 s 0).bind fun t => .ok (t, 0) := by
  have hyf := hy.numField (K := K)
  have hdf := hd.numField
  have hmt := hm.text
  have hmle := hm.le
  have hy' : FieldText env yt (y : K) false false := .number hyf hn.letter
  have hd' : FieldText env dt d false dec := .number hdf hn.letter
  have hwne : mt ≠ [] := by intro h; have := hmt.long; rw [h] at this; simp at this
  have hm' : FieldText env mt (m : K) true false := by
    have := FieldText.name (K := K) (hm.index hen) hwne hmt.letters
    rwa [Int.cast_natCast] at this
  obtain ⟨r, t', rfl, hr, hta⟩ := ht.after
  have hr' : r = [] ∨ r = [32] := hr.imp id And.left
  have h0 : text ≠ [] := by
    intro h; rw [h] at htext
    have : (0 : Nat) = (o.text sep yt mt dt ++ (r ++ t')).length := by rw [← htext]; rfl
    cases o <;> simp [Order.text, Order.arrange] at this
  have hsep' : sep = 45 ∨ sep = 32 ∨ sep = 47 := by tauto
  have hs1 : (46 ≤ sep ∧ sep ≤ 58) ∨ sep = 32 ∨ sep = 45 := by omega
  have hrp : Plain (r ++ t') := by
    refine Plain.append ?_ hta.plain
    rcases hr' with rfl | rfl <;> intro c hc <;> simp at hc
    omega
  have h45 : 45 ∉ r ++ t' := by
    intro h
    rcases List.mem_append.1 h with h | h
    · rcases hr' with rfl | rfl <;> simp at h
    · cases hta with
      | none => simp at h
      | time hct =>
        rcases List.mem_cons.1 h with h | h
        · omega
        · have := hct.bytes _ h; omega
  have y45 : 45 ∉ yt := hy.no45
  have d45 : 45 ∉ dt := fun h => by have := hdf.bytes _ h; omega
  have m45 : 45 ∉ mt := fun h => by have := hmt.letters _ h; omega
  have y116 : 116 ∉ yt := fun h => by have := hy.1 _ h; omega
  have d116 : 116 ∉ dt := fun h => by have := hdf.bytes _ h; omega
  have hclean : r ++ t' ≠ [] → at? (r ++ t') ((r ++ t').length - 1) ≠ 32 := by
    intro hne
    cases hta with
    | none =>
      rcases hr with rfl | ⟨-, h⟩
      · exact absurd rfl hne
      · exact absurd rfl h
    | time hct =>
      rename_i s
      rw [show r ++ 32 :: s = (r ++ [32]) ++ s by simp, last_append hct.ne_nil]
      have := hct.bytes _ (List.mem_of_getLast? (last_at s hct.ne_nil))
      omega
  have hnext : r ++ t' = [] ∨ (r ++ t').head? = some 32 ∨ (r ++ t').head? = some 45 ∨ (r ++ t').head? = some 47 := by
    cases hta with
    | none =>
      rcases hr with rfl | ⟨-, h⟩
      · exact Or.inl rfl
      · exact absurd rfl h
    | time hct =>
      right; left
      rcases hr' with rfl | rfl <;> rfl
  have lastNum : ∀ (u v : List Nat) (vv : K) (dd : Bool), NumField v vv dd → at? (u ++ v) ((u ++ v).length - 1) ≠ 32 := by
    intro u v vv dd hv
    rw [last_append hv.ne_nil]
    have := hv.bytes _ (List.mem_of_getLast? (last_at v hv.ne_nil))
    omega
  have lastAll : ∀ (u v : List Nat) (vv : K) (dd : Bool), NumField v vv dd →
      at? (u ++ v ++ (r ++ t')) ((u ++ v ++ (r ++ t')).length - 1) ≠ 32 := by
    intro u v vv dd hv
    by_cases hne : r ++ t' = []
    · rw [hne, List.append_nil]; exact lastNum u v vv dd hv
    · rw [last_append hne]; exact hclean hne
  have headSep : ∀ u : List Nat, sep :: u = [] ∨ (sep :: u).head? = some 32 ∨ (sep :: u).head? = some 45 ∨ (sep :: u).head? = some 47 := by
    intro u; right; simp only [List.head?_cons, Option.some.injEq]; omega
  -- the name first
  have first : ∀ (b c : List Nat) (vb vc : K) (db dc : Bool), NumField b vb db → NumField c vc dc → 116 ∉ c → 45 ∉ b → 45 ∉ c →
      Placed (joined sep mt b c ++ r ++ t') mt := by
    intro b c vb vc db dc hb hc h116 hb45 hc45
    refine ⟨⟨[], sep :: (b ++ sep :: c) ++ (r ++ t'), by simp [joined], ⟨hmt, fun c hc => by simp at hc, ?_, Or.inl rfl, headSep _, fun _ => ?_⟩⟩, ?_, ?_⟩
    · exact (Plain.cons hs1 (hb.plain.append (Plain.cons hs1 hc.plain))).append hrp
    · have := lastAll (sep :: (b ++ [sep])) c vc dc hc
      simpa using this
    · rw [joined, List.append_assoc, List.append_assoc]; exact dots_name hmt _
    · rw [List.append_assoc]; exact no_fits m45 hb45 (Or.inr (Or.inr h116)) hc45 hrp h45
  have second : ∀ (a c : List Nat) (va vc : K) (da dc : Bool), NumField a va da → NumField c vc dc → 116 ∉ c → 45 ∉ a → 45 ∉ c →
      Placed (joined sep a mt c ++ r ++ t') mt := by
    intro a c va vc da dc ha hc h116 ha45 hc45
    refine ⟨⟨a ++ [sep], sep :: c ++ (r ++ t'), by simp [joined], ⟨hmt, ha.plain.append (Plain.cons hs1 (fun c hc => by simp at hc)), ?_, Or.inr ?_, headSep _, fun _ => ?_⟩⟩, ?_, ?_⟩
    · exact (Plain.cons hs1 hc.plain).append hrp
    · rw [Scan.at_append_left ha.ne_nil]; exact ha.head.1
    · have := lastAll [sep] c vc dc hc
      simpa using this
    · rw [joined, List.append_assoc, List.append_assoc]; exact dots_field ha hsep' _
    · rw [List.append_assoc]; exact no_fits ha45 m45 (Or.inr (Or.inr h116)) hc45 hrp h45
  have third : ∀ (a b : List Nat) (va vb : K) (da db : Bool), NumField a va da → NumField b vb db → sep = 32 ∨ sep = 47 → 45 ∉ a → 45 ∉ b →
      Placed (joined sep a b mt ++ r ++ t') mt := by
    intro a b va vb da db ha hb hs ha45 hb45
    refine ⟨⟨a ++ sep :: (b ++ [sep]), r ++ t', by simp [joined], ⟨hmt, ha.plain.append (Plain.cons hs1 (hb.plain.append (Plain.cons hs1 (fun c hc => by simp at hc)))), hrp, Or.inr ?_, hnext, hclean⟩⟩, ?_, ?_⟩
    · rw [Scan.at_append_left ha.ne_nil]; exact ha.head.1
    · rw [joined, List.append_assoc, List.append_assoc]; exact dots_field ha hsep' _
    · rw [List.append_assoc]; exact no_fits ha45 hb45 (hs.imp id Or.inl) m45 hrp h45
  rw [← List.append_assoc] at htext hl
  cases o <;> simp only [Order.text, Order.arrange] at htext hl ⊢
  · exact named3 env f init sep hsep' hy' hm' hd' hr' hta htext hl h0 h32 (second yt dt _ _ _ _ hyf hdf d116 y45 d45) (by simp [Order.dot]) rfl
  · exact named3 env f init sep hsep' hy' hd' hm' hr' hta htext hl h0 h32 (third yt dt _ _ _ _ hyf hdf (by simp [Order.monthField] at hsep; exact hsep) y45 d45) (by simp [Order.dot]) rfl
  · exact named3 env f init sep hsep' hm' hd' hy' hr' hta htext hl h0 h32 (first dt yt _ _ _ _ hdf hyf y116 d45 y45) (by simp [Order.dot]) rfl
  · exact named3 env f init sep hsep' hd' hm' hy' hr' hta htext hl h0 h32 (second dt yt _ _ _ _ hdf hyf y116 d45 y45) (by simp [Order.dot]) rfl
  · exact named3 env f init sep hsep' hm' hy' hd' hr' hta htext hl h0 h32 (first yt dt _ _ _ _ hyf hdf d116 y45 d45) (by simp [Order.dot]) rfl
  · exact named3 env f init sep hsep' hd' hy' hm' hr' hta htext hl h0 h32 (third dt yt _ _ _ _ hdf hyf (by simp [Order.monthField] at hsep; exact hsep) d45 y45) (by simp [Order.dot]) rfl

/-- **C61.** With the month by name, in any order: read as that date and time.  (With dashes, the name may not stand
    last; "2009-05-sept 12:30:00" is taken for a FITS time.) -/
theorem C61_month_name (env : Env K) (hn : NoDigitNames env.months) (hen : EnglishNames env.months) (f : Fmt) (init : K) (o : Order) (sep : Nat)
    (hsep : sep = 32 ∨ sep = 47 ∨ (sep = 45 ∧ o.monthField ≠ 3)) (y m : Nat) (d x : K) (dec : Bool) (yt mt dt t text : List Nat)
    (hy : Whole y yt) (hm : EnglishMonth m mt) (hd : Decimal d dec dt) (ht : Tod t x)
    (hd1 : 0 ≤ d) (hd2 : d < 32) (ho : o.NamedClear f y dec) (h2 : f.twoDigitYear = false ∨ 100 ≤ y)
    (z : Int) (hz : dmyToDay ⌊d⌋ m y f.calendar = some z)
    (htext : spacedOut text = o.text sep yt mt dt ++ t) (h32 : at? text 0 ≠ 32) (hl : (o.text sep yt mt dt ++ t).length < 80) :
    getTimeFromString env f init text = .ok ((z : K) + Int.fract d + x - 2451545 - 1 / 2, 0) := by
  obtain ⟨cur, h, s, hx, he⟩ := read_named env hn hen f init o sep hsep y m d x dec yt mt dt t text hy hm hd ht htext h32 hl
  have htr : trunc d = ⌊d⌋ := by rw [trunc, if_pos hd1]
  rw [he, separated_named env f o y m d dec cur hm.le.2 hd1 hd2 ho h2, Run.bind, finish_value f _ h s x hx z (by rw [htr]; exact hz), Run.bind]
  simp only [htr, Int.fract]
  congr 2
  ring

/-- **C61.** Finding: a year of at most 32, the month by name and a day with decimals ("5.5 jan 12") abort the
    program, in whatever order. -/
theorem C61_named_abort (env : Env K) (hn : NoDigitNames env.months) (hen : EnglishNames env.months) (f : Fmt) (init : K) (o : Order) (sep : Nat)
    (hsep : sep = 32 ∨ sep = 47 ∨ (sep = 45 ∧ o.monthField ≠ 3)) (y m : Nat) (d x : K) (yt mt dt t text : List Nat)
    (hy : Whole y yt) (hm : EnglishMonth m mt) (hd : Decimal d true dt) (ht : Tod t x)
    (hd1 : 0 ≤ d) (hd2 : d ≤ 32) (hy32 : y ≤ 32)
    (htext : spacedOut text = o.text sep yt mt dt ++ t) (h32 : at? text 0 ≠ 32) (hl : (o.text sep yt mt dt ++ t).length < 80) :
    getTimeFromString env f init text = .abort := by
  obtain ⟨cur, h, s, hx, he⟩ := read_named env hn hen f init o sep hsep y m d x true yt mt dt t text hy hm hd ht htext h32 hl
  have hmle := hm.le
  have m0 : ¬ (m : K) < 0 := not_lt.2 (by positivity)
  have y0 : ¬ (y : K) < 0 := not_lt.2 (by positivity)
  have d0 : ¬ d < 0 := not_lt.2 hd1
  have m32 : ¬ (32 : K) < (m : K) := by rw [not_lt]; exact_mod_cast (by omega : m ≤ 32)
  have y32 : ¬ (32 : K) < (y : K) := by rw [not_lt]; exact_mod_cast hy32
  have d32 : ¬ (32 : K) < d := not_lt.2 hd2
  have : separated env f false ⟨o.arrange (y : K) (m : K) d fun a b c => [a, b, c], o.monthField, o.dot true, 0⟩ cur = .abort := by
    generalize (y : K) = vy at *
    generalize (m : K) = vm at *
    unfold separated
    cases o <;>
      simp [Order.arrange, Order.dot, Order.monthField, findYear, threeFields, guess, fill, m0, y0, d0, m32, y32, d32, Run.bind]
  rw [he, this]
  rfl

theorem exampleEnv_english : EnglishNames exampleEnv.months := by
  have hx : ∀ m : Nat, m < 12 → ∀ full, english[m]? = some full → ∃ n, exampleEnv.months (m + 1 : Int) = some n ∧ (n.take 3).map lower = full.take 3 := by
    intro m hm
    interval_cases m <;> intro full h <;> simp only [english] at h <;> injection h with h <;> subst h <;> exact ⟨_, rfl, by decide⟩
  intro m full h
  exact hx m (by have := (List.getElem?_eq_some_iff.1 h).1; simpa [english] using this) full h

/-- "5 May 2009" -/
example : getTimeFromString exampleEnv exampleFmt 0 (bytes "5 May 2009") = .ok (((2454957 : ℤ) : ℚ) + Int.fract 5 + 0 - 2451545 - 1 / 2, 0) :=
  C61_month_name exampleEnv exampleEnv_names exampleEnv_english exampleFmt 0 .dmy 32 (Or.inl rfl) 2009 5 5 0 false (bytes "2009") (bytes "may") (bytes "5") []
    (bytes "5 May 2009") (by unfold Whole AllDigits value; decide) ⟨by decide, bytes "may", rfl, Or.inl rfl⟩ ⟨5, by unfold Whole AllDigits value; decide, by norm_num⟩ .midnight
    (by norm_num) (by norm_num) (Or.inl (by decide)) (Or.inl rfl) 2454957 (by rw [show ⌊(5 : ℚ)⌋ = 5 by norm_num]; decide +kernel) (by decide) (by decide) (by decide)

/-- "5.5 jan 12" -/
example : getTimeFromString exampleEnv exampleFmt 0 (bytes "5.5 jan 12") = .abort :=
  C61_named_abort exampleEnv exampleEnv_names exampleEnv_english exampleFmt 0 .dmy 32 (Or.inl rfl) 12 1 (11 / 2) 0 (bytes "12") (bytes "jan") (bytes "5.5") []
    (bytes "5.5 jan 12") (by unfold Whole AllDigits value; decide) ⟨by decide, bytes "january", rfl, Or.inr rfl⟩ ⟨5, 5, bytes "5", bytes "5", by unfold Whole AllDigits value; decide, by unfold Whole AllDigits value; decide, by decide, by rw [show (bytes "5").length = 1 by decide]; norm_num⟩ .midnight
    (by norm_num) (by norm_num) (by decide) (by decide) (by decide) (by decide)

/-! ## Three numbers: exactly when the program aborts -/

/-- Field `i` is taken for the year: above 32, and the first of the largest. -/
def YearField (v : Fin 3 → K) (i : Fin 3) : Prop := 32 < v i ∧ ∀ j, v j ≤ v i ∧ (v j = v i → i ≤ j)

theorem findYear_three (a b c : K) (ha : 0 ≤ a) (hb : 0 ≤ b) (hc : 0 ≤ c) :
    (∃ i : Fin 3, YearField ![a, b, c] i ∧ findYear 0 [a, b, c] 0 0 = i.val + 1) ∨
    (findYear 0 [a, b, c] 0 0 = 0 ∧ a ≤ 32 ∧ b ≤ 32 ∧ c ≤ 32) := by
  have ha' : ¬ a < 0 := not_lt.2 ha
  have hb' : ¬ b < 0 := not_lt.2 hb
  have hc' : ¬ c < 0 := not_lt.2 hc
  have mk : ∀ (i : Fin 3) (h : 32 < ![a, b, c] i) (h' : ∀ j, ![a, b, c] j ≤ ![a, b, c] i ∧ (![a, b, c] j = ![a, b, c] i → i ≤ j)),
      YearField ![a, b, c] i := fun i h h' => ⟨h, h'⟩
  simp only [findYear, ha', hb', hc', if_false, gt_iff_lt, true_or, and_true, Nat.zero_add, Nat.reduceAdd, one_ne_zero, false_or,
    OfNat.ofNat_ne_zero]
  by_cases h1 : 32 < a
  · simp only [h1, if_true]
    by_cases h2 : 32 < b ∧ a < b
    · simp only [h2, and_self, if_true]
      by_cases h3 : 32 < c ∧ b < c
      · left
        refine ⟨2, ⟨h3.1, ?_⟩, by simp [h3]⟩
        intro j; fin_cases j
        · exact ⟨(h2.2.trans h3.2).le, fun h => absurd h (h2.2.trans h3.2).ne⟩
        · exact ⟨h3.2.le, fun h => absurd h h3.2.ne⟩
        · exact ⟨le_refl _, fun _ => le_refl _⟩
      · have hc3 : c ≤ b := by by_contra h; push Not at h; exact h3 ⟨h2.1.trans h, h⟩
        left
        refine ⟨1, ⟨h2.1, ?_⟩, by simp [h3]⟩
        intro j; fin_cases j
        · exact ⟨h2.2.le, fun h => absurd h h2.2.ne⟩
        · exact ⟨le_refl _, fun _ => le_refl _⟩
        · exact ⟨hc3, fun _ => by decide⟩
    · have hb2 : b ≤ a := by by_contra h; push Not at h; exact h2 ⟨h1.trans h, h⟩
      simp only [h2, if_false, one_ne_zero, false_or]
      by_cases h3 : 32 < c ∧ a < c
      · left
        refine ⟨2, ⟨h3.1, ?_⟩, by simp [h3]⟩
        intro j; fin_cases j
        · exact ⟨h3.2.le, fun h => absurd h h3.2.ne⟩
        · exact ⟨(hb2.trans h3.2.le), fun h => absurd h (hb2.trans_lt h3.2).ne⟩
        · exact ⟨le_refl _, fun _ => le_refl _⟩
      · have hc3 : c ≤ a := by by_contra h; push Not at h; exact h3 ⟨h1.trans h, h⟩
        left
        refine ⟨0, ⟨h1, ?_⟩, by simp [h3]⟩
        intro j; fin_cases j
        · exact ⟨le_refl _, fun _ => le_refl _⟩
        · exact ⟨hb2, fun _ => by decide⟩
        · exact ⟨hc3, fun _ => by decide⟩
  · have h1' : a ≤ 32 := not_lt.1 h1
    simp only [h1, if_false, true_or, and_true]
    by_cases h2 : 32 < b
    · simp only [h2, if_true]
      by_cases h3 : 32 < c ∧ b < c
      · left
        refine ⟨2, ⟨h3.1, ?_⟩, by simp [h3]⟩
        intro j; fin_cases j
        · exact ⟨(h1'.trans_lt h3.1).le, fun h => absurd h (h1'.trans_lt h3.1).ne⟩
        · exact ⟨h3.2.le, fun h => absurd h h3.2.ne⟩
        · exact ⟨le_refl _, fun _ => le_refl _⟩
      · have hc3 : c ≤ b := by by_contra h; push Not at h; exact h3 ⟨h2.trans h, h⟩
        left
        refine ⟨1, ⟨h2, ?_⟩, by simp [h3]⟩
        intro j; fin_cases j
        · exact ⟨(h1'.trans_lt h2).le, fun h => absurd h (h1'.trans_lt h2).ne⟩
        · exact ⟨le_refl _, fun _ => le_refl _⟩
        · exact ⟨hc3, fun _ => by decide⟩
    · have h2' : b ≤ 32 := not_lt.1 h2
      simp only [h2, if_false, true_or, and_true]
      by_cases h3 : 32 < c
      · left
        refine ⟨2, ⟨h3, ?_⟩, by simp [h3]⟩
        intro j; fin_cases j
        · exact ⟨(h1'.trans_lt h3).le, fun h => absurd h (h1'.trans_lt h3).ne⟩
        · exact ⟨(h2'.trans_lt h3).le, fun h => absurd h (h2'.trans_lt h3).ne⟩
        · exact ⟨le_refl _, fun _ => le_refl _⟩
      · right
        exact ⟨by simp [h3], h1', h2', not_lt.1 h3⟩

theorem yearField_unique {v : Fin 3 → K} {i j : Fin 3} (hi : YearField v i) (hj : YearField v j) : i = j := by
  have h := le_antisymm (hi.2 j).1 (hj.2 i).1
  exact le_antisymm ((hi.2 j).2 h) ((hj.2 i).2 h.symm)

/-- Between the months and 32. -/
def DayOnly (f : Fmt) (v : K) : Prop := (lastMonth f : K) + 1 / 10000 < v ∧ v < 32

theorem threeFields_abort (f : Fmt) (vals : List K) (year day : Nat) (hy : year ≤ 3) (hd : day ≤ 3) :
    threeFields f vals ⟨year, 0, day⟩ = .abort ↔ year = day ∧ (year = 1 ∨ year = 3) := by
  unfold threeFields
  cases h1 : f.yearFirst <;> cases h2 : f.monthDay <;> interval_cases year <;> interval_cases day <;> simp [guess, fill, h1, h2]

/-- **C61.** Finding, exactly: three numbers abort the program if and only if the first or the last of them is taken
    for the year, is written with decimals while the fields after it are not, and neither of the others can only be
    a day. -/
theorem C61_abort (env : Env K) (hn : NoDigitNames env.months) (f : Fmt) (init : K) (sep : Nat)
    (hsep : sep = 45 ∨ sep = 32 ∨ sep = 47) {a b c t : List Nat} {va vb vc x : K} {da db dc : Bool}
    (ha : Decimal va da a) (hb : Decimal vb db b) (hc : Decimal vc dc c) (ht : Tod t x)
    (hl : (a ++ sep :: (b ++ sep :: c) ++ t).length < 80) :
    getTimeFromString env f init (a ++ sep :: (b ++ sep :: c) ++ t) = .abort ↔
      ∃ i : Fin 3, YearField ![va, vb, vc] i ∧ i ≠ 1 ∧ ![da, db, dc] i = true ∧ (∀ j, i < j → ![da, db, dc] j = false) ∧
        ∀ j, j ≠ i → ¬ DayOnly f (![va, vb, vc] j) := by
  classical
  have nonneg : ∀ {v : K} {dec : Bool} {s : List Nat}, Decimal v dec s → 0 ≤ v := by
    intro v dec s h
    cases dec with
    | false => obtain ⟨n, -, rfl⟩ := h; positivity
    | true => obtain ⟨n, k, a, b, -, -, -, rfl⟩ := h; positivity
  have ha0 := nonneg ha
  have hb0 := nonneg hb
  have hc0 := nonneg hc
  obtain ⟨cur, h, s, hx, he⟩ := plain3 env hn f init sep hsep ha.numField hb.numField hc.numField ht hl rfl
  have hfin : ∀ d : Ymd K, (finish f false d h 0 s 0).bind (fun t => .ok (t, (0 : Int))) ≠ .abort := by
    intro d
    unfold finish
    simp only
    split <;> simp [Run.bind]
  have hsepd : getTimeFromString env f init (a ++ sep :: (b ++ sep :: c) ++ t) = .abort ↔
      separated env f false ⟨[va, vb, vc], 0, if dc then 3 else if db then 2 else if da then 1 else 0, 0⟩ cur = .abort := by
    rw [he]
    cases separated env f false ⟨[va, vb, vc], 0, if dc then 3 else if db then 2 else if da then 1 else 0, 0⟩ cur with
    | ok d => simp only [Run.bind]; constructor
              · intro h'; exact absurd h' (hfin d)
              · intro h'; cases h'
    | abort => simp [Run.bind]
    | ub => simp [Run.bind]
    | hang => simp [Run.bind]
  rw [hsepd]
  unfold separated
  simp only [List.length_cons, List.length_nil, Nat.reduceAdd, Nat.reduceEqDiff, or_false, if_false]
  have bindAbort : ∀ (r : Run (Ymd K)) (g : Ymd K → Ymd K), r.bind (fun d => .ok (g d)) = .abort ↔ r = .abort := by
    intro r g; cases r <;> simp [Run.bind]
  rw [bindAbort]
  have hD : ∀ v : K, (v > (maxMonth f : K) + 1 / 10000 ∧ v < 32) ↔ DayOnly f v := by
    intro v; unfold DayOnly; rw [maxMonth_eq]
  rcases findYear_three va vb vc ha0 hb0 hc0 with ⟨i, hi, hfy⟩ | ⟨hfy, h1, h2, h3⟩
  · rw [hfy]
    simp only [ne_eq, Nat.add_eq_zero_iff, one_ne_zero, and_false, not_false_eq_true, if_true]
    have hday : ∀ k ≤ 3, findDay (maxMonth f : K) (i.val + 1) 0 [va, vb, vc] k ≤ 3 := by
      intro k hk
      simp only [findDay]
      split_ifs <;> omega
    rw [threeFields_abort f _ _ _ (by omega) (hday _ (by split_ifs <;> omega))]
    have hex : (∃ i' : Fin 3, YearField ![va, vb, vc] i' ∧ i' ≠ 1 ∧ ![da, db, dc] i' = true ∧ (∀ j, i' < j → ![da, db, dc] j = false) ∧
        ∀ j, j ≠ i' → ¬ DayOnly f (![va, vb, vc] j)) ↔ (i ≠ 1 ∧ ![da, db, dc] i = true ∧ (∀ j, i < j → ![da, db, dc] j = false) ∧
        ∀ j, j ≠ i → ¬ DayOnly f (![va, vb, vc] j)) := by
      constructor
      · rintro ⟨i', hi', h⟩
        rw [yearField_unique hi hi']; exact h
      · intro h; exact ⟨i, hi, h⟩
    rw [hex]
    simp only [findDay, ← and_assoc, hD, Fin.forall_fin_succ, Fin.isValue]
    clear hex hday hfy hi hsepd he hfin
    by_cases p1 : DayOnly f va <;> by_cases p2 : DayOnly f vb <;> by_cases p3 : DayOnly f vc <;> fin_cases i <;> cases da <;> cases db <;> cases dc <;>
      simp [p1, p2, p3]
  · rw [hfy]
    simp only [ne_eq, not_true_eq_false, if_false]
    rw [threeFields_abort f _ _ _ (by omega) (by split_ifs <;> omega)]
    constructor
    · rintro ⟨-, h⟩; omega
    · rintro ⟨i, ⟨hi, -⟩, -⟩
      fin_cases i
      · exact absurd hi (not_lt.2 h1)
      · exact absurd hi (not_lt.2 h2)
      · exact absurd hi (not_lt.2 h3)

/-- "2009.5 3 4" -/
example : getTimeFromString exampleEnv exampleFmt 0 (bytes "2009.5" ++ 32 :: (bytes "3" ++ 32 :: bytes "4") ++ []) = .abort :=
  (C61_abort exampleEnv exampleEnv_names exampleFmt 0 32 (by decide) (va := 4019 / 2) (vb := 3) (vc := 4) (x := 0) (da := true) (db := false) (dc := false)
    ⟨2009, 5, bytes "2009", bytes "5", by unfold Whole AllDigits value; decide, by unfold Whole AllDigits value; decide, by decide,
      by rw [show (bytes "5").length = 1 by decide]; norm_num⟩
    ⟨3, by unfold Whole AllDigits value; decide, by norm_num⟩ ⟨4, by unfold Whole AllDigits value; decide, by norm_num⟩ .midnight (by decide)).2
    ⟨0, ⟨by norm_num, fun j => by fin_cases j <;> norm_num⟩, by decide, rfl, fun j hj => by fin_cases j <;> simp at hj ⊢,
      fun j hj => by fin_cases j <;> simp [DayOnly, lastMonth, exampleFmt, isoFmt, GREGORIAN, HEBREW, CHINESE] at hj ⊢ <;> norm_num⟩

end Verif.Props
