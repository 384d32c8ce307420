import Verif.Lemmas.GetTime
import Mathlib.Tactic.Linarith

/-! # The fields of a date -/

namespace Verif.GetTime

open Verif Verif.Time Verif.Date Verif.Scan Verif.Spec

variable {K : Type} [Field K] [LinearOrder K] [IsStrictOrderedRing K] [FloorRing K]

/-- A number as a field of a date: digits (`dot = false`), or digits, a point and more digits. -/
def NumField (t : List Nat) (v : K) (dot : Bool) : Prop :=
  (dot = false ∧ AllDigits t ∧ t ≠ [] ∧ v = (value t : K)) ∨
  (dot = true ∧ ∃ ds fs, AllDigits ds ∧ ds ≠ [] ∧ AllDigits fs ∧ fs ≠ [] ∧ t = ds ++ 46 :: fs ∧
    v = (value ds : K) + (value fs : K) / 10 ^ fs.length)

/-- No name begins with a digit. -/
def LetterNames (names : Int → Option (List Nat)) : Prop := ∀ i n, names i = some n → ¬ (48 ≤ at? n 0 ∧ at? n 0 ≤ 57)

theorem NumField.ne_nil {t : List Nat} {v : K} {dot : Bool} (h : NumField t v dot) : t ≠ [] := by
  rcases h with ⟨-, -, h, -⟩ | ⟨-, ds, fs, -, -, -, -, rfl, -⟩
  · exact h
  · simp

theorem NumField.head {t : List Nat} {v : K} {dot : Bool} (h : NumField t v dot) : 48 ≤ at? t 0 ∧ at? t 0 ≤ 57 := by
  rcases h with ⟨-, h1, h, -⟩ | ⟨-, ds, fs, h1, h2, -, -, rfl, -⟩
  · exact head_digit h1 h
  · rw [at_append_left h2]; exact head_digit h1 h2

theorem NumField.bytes {t : List Nat} {v : K} {dot : Bool} (h : NumField t v dot) : ∀ c ∈ t, (48 ≤ c ∧ c ≤ 57) ∨ c = 46 := by
  rcases h with ⟨-, h1, h, -⟩ | ⟨-, ds, fs, h1, h2, h3, -, rfl, -⟩
  · intro c hc; exact Or.inl (h1 c hc)
  · intro c hc
    simp only [List.mem_append, List.mem_cons] at hc
    rcases hc with hc | rfl | hc
    · exact Or.inl (h1 c hc)
    · exact Or.inr rfl
    · exact Or.inl (h3 c hc)

theorem NumField.dot {t : List Nat} {v : K} {dot : Bool} (h : NumField t v dot) : t.contains 46 = dot := by
  rcases h with ⟨rfl, h1, h, -⟩ | ⟨rfl, ds, fs, h1, h2, h3, -, rfl, -⟩
  · rw [Bool.eq_false_iff]
    simp only [ne_eq, List.contains_iff_mem]
    intro h46
    have := h1 46 h46
    omega
  · simp

theorem NumField.scanReal {t : List Nat} {v : K} {dot : Bool} (h : NumField t v dot) {rest : List Nat} (hr : Stops rest) :
    scanReal (K := K) (t ++ rest) = some (v, rest) := by
  rcases h with ⟨-, h1, h, rfl⟩ | ⟨-, ds, fs, h1, h2, h3, -, rfl, rfl⟩
  · exact scanReal_digits h1 h hr
  · exact scanReal_decimal h1 h2 h3 hr

theorem NumField.strtold {t : List Nat} {v : K} {dot : Bool} (h : NumField t v dot) {rest : List Nat} (hr : Stops rest) :
    strtold (K := K) (t ++ rest) = (v, rest) := by
  rcases h with ⟨-, h1, h, rfl⟩ | ⟨-, ds, fs, h1, h2, h3, -, rfl, rfl⟩
  · exact strtold_digits h1 h hr
  · exact strtold_decimal h1 h2 h3 hr

theorem nameMatches_digit {n t : List Nat} (hn : ¬ (48 ≤ at? n 0 ∧ at? n 0 ≤ 57)) (ht : 48 ≤ at? t 0 ∧ at? t 0 ≤ 57) :
    nameMatches n t = false := by
  unfold nameMatches
  rw [beq_eq_false_iff_ne]
  intro h
  obtain ⟨c, t, rfl⟩ : ∃ c t', t = c :: t' := by
    cases t with
    | nil => simp [at?] at ht
    | cons c t => exact ⟨c, t, rfl⟩
  cases n with
  | nil => simp at h
  | cons x n =>
    have hm : min 3 (c :: t).length = (min 2 t.length) + 1 := by simp only [List.length_cons]; omega
    rw [hm, List.take_succ_cons, List.take_succ_cons, List.map_cons, List.map_cons, List.cons.injEq] at h
    have h1 := h.1
    simp only [at?, List.getD_cons_zero] at hn ht
    unfold toLower at h1
    simp only [isUpper, Bool.and_eq_true, decide_eq_true_eq] at h1
    split_ifs at h1 <;> omega

theorem nameIndex_digit {names : Int → Option (List Nat)} (hn : LetterNames names) {t : List Nat}
    (ht : 48 ≤ at? t 0 ∧ at? t 0 ≤ 57) (i : Int) (k : Nat) : nameIndex names t i k = none := by
  induction k generalizing i with
  | zero => rfl
  | succ k ih =>
    rw [nameIndex]
    cases h : names i with
    | none => simp only [ih]
    | some n => simp only [nameMatches_digit (hn i n h) ht, Bool.false_eq_true, if_false, ih]

/-- A number or the name of a month. -/
inductive FieldText (env : Env K) : List Nat → K → Bool → Bool → Prop where
  | number {t : List Nat} {v : K} {dot : Bool} (h : NumField t v dot) (hn : LetterNames env.months) : FieldText env t v false dot
  | name {t : List Nat} {m : Int} (h : monthIndex env t = some m) (hne : t ≠ []) (hl : ∀ c ∈ t, 97 ≤ c ∧ c ≤ 122) :
      FieldText env t (m : K) true false

theorem readField_text {env : Env K} {t : List Nat} {v : K} {mo dot : Bool} (h : FieldText env t v mo dot) (k : Nat) (e : Int) (g : Fields K) :
    readField env k e t g = ⟨g.vals ++ [v], if mo then k else g.month, if dot then k else g.day, g.flag⟩ := by
  unfold readField
  cases h with
  | number h hn =>
    have hm : monthIndex env t = none := nameIndex_digit hn h.head 1 13
    have hs := h.strtold (rest := []) ⟨rfl, by decide, by decide, by decide⟩
    rw [List.append_nil] at hs
    have hne : ¬ [] = t := fun h' => h.ne_nil h'.symm
    simp only [hm, hs, if_neg hne, Bool.false_eq_true, if_false, h.dot]
  | name h hne hl => simp only [h, if_true, Bool.false_eq_true, if_false]

theorem FieldText.ne_nil {env : Env K} {t : List Nat} {v : K} {mo dot : Bool} (h : FieldText env t v mo dot) : t ≠ [] := by
  cases h with
  | number h hn => exact h.ne_nil
  | name h hne hl => exact hne

theorem FieldText.bytes {env : Env K} {t : List Nat} {v : K} {mo dot : Bool} (h : FieldText env t v mo dot) :
    ∀ c ∈ t, (48 ≤ c ∧ c ≤ 57) ∨ c = 46 ∨ (97 ≤ c ∧ c ≤ 122) := by
  cases h with
  | number h hn => intro c hc; have := h.bytes c hc; tauto
  | name h hne hl => intro c hc; exact Or.inr (Or.inr (hl c hc))

theorem takeWhile_field {t rest : List Nat} {p : Nat → Bool} (h : ∀ c ∈ t, p c = true) (h' : rest = [] ∨ p (at? rest 0) = false) :
    (t ++ rest).takeWhile p = t ∧ (t ++ rest).dropWhile p = rest := by
  have hr : rest.takeWhile p = [] ∧ rest.dropWhile p = rest := by
    cases rest with
    | nil => exact ⟨rfl, rfl⟩
    | cons c s =>
      have : p c = false := by rcases h' with h | h; exact absurd h (by simp); exact h
      simp [this]
  rw [List.takeWhile_append_of_pos h, List.dropWhile_append_of_pos h, hr.1, hr.2]
  simp

theorem scanWord_field {t rest : List Nat} (hne : t ≠ []) (h : ∀ c ∈ t, isSpace c = false) (k : Nat) (h' : rest = [] ∨ isSpace (at? rest 0) = true) :
    scanWord (List.replicate k 32 ++ (t ++ rest)) = some t := by
  unfold scanWord
  have h0 : isSpace (at? (t ++ rest) 0) = false := by
    rw [at_append_left hne]
    cases t with
    | nil => exact absurd rfl hne
    | cons c t => exact h c (by simp)
  rw [skipSpace_blanks, skipSpace_of h0, (takeWhile_field (p := fun c => !isSpace c) (fun c hc => by simp [h c hc])
    (h'.imp id (fun h => by simp [h]))).1]
  cases t with
  | nil => exact absurd rfl hne
  | cons c t => rfl

theorem thirdField_text {env : Env K} {t : List Nat} {v : K} {mo dot : Bool} (h : FieldText env t v mo dot) (rest : List Nat)
    (hr : rest = [] ∨ at? rest 0 = 32) (g : Fields K) :
    thirdField env (t ++ rest) g = ⟨g.vals ++ [v], if mo then 3 else g.month, if dot then 3 else g.day, g.flag⟩ := by
  have hsp : ∀ c ∈ t, isSpace c = false := by
    intro c hc
    have := h.bytes c hc
    simp [isSpace]; omega
  have hw := scanWord_field h.ne_nil hsp 0 (rest := rest) (hr.imp id (fun h => by rw [h]; rfl))
  rw [List.replicate_zero, List.nil_append] at hw
  unfold thirdField
  rw [hw]
  cases h with
  | number h hn =>
    have hm : monthIndex env t = none := nameIndex_digit hn h.head 1 13
    have hstop : Stops rest := by
      rcases hr with rfl | hr
      · exact ⟨rfl, by decide, by decide, by decide⟩
      · unfold Stops; rw [hr]; exact ⟨rfl, by decide, by decide, by decide⟩
    have hs := h.strtold hstop
    have hs' := h.scanReal hstop
    have hne : ¬ rest = t ++ rest := by
      intro h'
      have h2 := congrArg List.length h'
      have h3 : t.length ≠ 0 := by simpa using h.ne_nil
      rw [List.length_append] at h2
      omega
    simp only [hm, hs, hs', if_neg hne, Bool.false_eq_true, if_false, h.dot]
    split
    · simp at *
    · rename_i heq
      simp only [Option.some.injEq, Prod.mk.injEq] at heq
      obtain ⟨-, rfl⟩ := heq
      rcases hr with h | h
      · exact absurd h (by simp)
      · simp [at?] at h
    · rename_i heq
      simp only [Option.some.injEq, Prod.mk.injEq] at heq
      rw [heq.1]
  | name h hne hl => simp only [h, if_true, Bool.false_eq_true, if_false]

/-- The field in the middle may also be empty. -/
inductive MidField (env : Env K) : List Nat → K → Bool → Bool → Prop where
  | text {t : List Nat} {v : K} {mo dot : Bool} (h : FieldText env t v mo dot) : MidField env t v mo dot
  | empty {m : Int} (h : monthIndex env [] = some m) : MidField env [] (m : K) true false

theorem readField_mid {env : Env K} {t : List Nat} {v : K} {mo dot : Bool} (h : MidField env t v mo dot) (k : Nat) (e : Int) (g : Fields K) :
    readField env k e t g = ⟨g.vals ++ [v], if mo then k else g.month, if dot then k else g.day, g.flag⟩ := by
  cases h with
  | text h => exact readField_text h k e g
  | empty h =>
    unfold readField
    simp only [h, if_true, Bool.false_eq_true, if_false]

theorem MidField.bytes {env : Env K} {t : List Nat} {v : K} {mo dot : Bool} (h : MidField env t v mo dot) :
    ∀ c ∈ t, (48 ≤ c ∧ c ≤ 57) ∨ c = 46 ∨ (97 ≤ c ∧ c ≤ 122) := by
  cases h with
  | text h => exact h.bytes
  | empty h => simp

/-- Three fields with the same separator. -/
theorem readFields_three {env : Env K} {a b c rest : List Nat} {va vb vc : K} {ma mb mc da db dc : Bool} {sep : Nat}
    (ha : FieldText env a va ma da) (hb : MidField env b vb mb db) (hc : FieldText env c vc mc dc)
    (hsep : sep = 45 ∨ sep = 32 ∨ sep = 47) (hr : rest = [] ∨ at? rest 0 = 32) (flag : Int) :
    readFields env sep a (b ++ sep :: (c ++ rest)) flag =
      ⟨[va, vb, vc], if mc then 3 else if mb then 2 else if ma then 1 else 0, if dc then 3 else if db then 2 else if da then 1 else 0, flag⟩ := by
  unfold readFields
  have hbytes : ∀ x ∈ b, (x != sep && x != 32) = true := by
    intro x hx
    have := hb.bytes x hx
    simp only [Bool.and_eq_true, bne_iff_ne, ne_eq]
    omega
  obtain ⟨h1, h2⟩ := takeWhile_field (rest := sep :: (c ++ rest)) hbytes (Or.inr (by simp [at?]))
  simp only [h1, h2, readField_text ha, readField_mid hb]
  rw [if_pos (by rfl), List.drop_one, List.tail_cons, thirdField_text hc rest hr]
  rfl

/-- The date part of three fields: on to the assignment of the fields. -/
theorem dateOnly_three (env : Env K) (f : Fmt) (bc : Bool) (off init : K) (flag : Int) (cur : Ymd K)
    {a b c rest : List Nat} {va vb vc : K} {ma mb mc da db dc : Bool} {sep : Nat} (hour minute : Int) (sec : K)
    (ha : FieldText env a va ma da) (hb : MidField env b vb mb db) (hc : FieldText env c vc mc dc)
    (hsep : sep = 45 ∨ sep = 32 ∨ sep = 47) (hr : rest = [] ∨ at? rest 0 = 32) :
    dateOnly env f bc off init flag cur (a ++ sep :: (b ++ sep :: (c ++ rest))) hour minute sec =
      (separated env f bc ⟨[va, vb, vc], if mc then 3 else if mb then 2 else if ma then 1 else 0,
        if dc then 3 else if db then 2 else if da then 1 else 0, flag⟩ cur).bind fun d =>
      (finish f bc d hour minute sec off).bind fun t => .ok (t, flag) := by
  have hg := readFields_three ha hb hc hsep hr flag
  have hbytes : ∀ x ∈ a, (!isSep x) = true := by
    intro x hx
    have := ha.bytes x hx
    simp only [isSep, Bool.not_eq_true', Bool.or_eq_false_iff, beq_eq_false_iff_ne, ne_eq]
    omega
  have hss : (!isSep sep) = false := by rcases hsep with rfl | rfl | rfl <;> rfl
  have hff : firstField (a ++ sep :: (b ++ sep :: (c ++ rest))) = (a, sep :: (b ++ sep :: (c ++ rest))) := by
    cases a with
    | nil => exact absurd rfl ha.ne_nil
    | cons x a =>
      obtain ⟨h1, h2⟩ := takeWhile_field (t := a) (rest := sep :: (b ++ sep :: (c ++ rest))) (p := fun c => !isSep c)
        (fun y hy => hbytes y (by simp [hy])) (Or.inr hss)
      simp only [firstField, List.cons_append, h1, h2]
  unfold dateOnly
  have h0 : at? (sep :: (b ++ sep :: (c ++ rest))) 0 = sep := rfl
  have h58 : sep ≠ 58 := by omega
  simp only [hff, h0, if_neg h58, if_pos hsep, List.drop_one, List.tail_cons, hg]

end Verif.GetTime
