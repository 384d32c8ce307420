import Mathlib.Tactic.SplitIfs
import Mathlib.Tactic.Push
import Mathlib.Tactic.ByContra
import Mathlib.Order.Basic
import Mathlib.Data.List.TakeWhile
import Verif.Model.ComFile
import Verif.Spec.CometName

/-!
# Property theorems: the name of a comet in a line (C106)
-/

namespace Verif.Props

open Verif Verif.ComFile Verif.Spec.CometName

/-! ## Permanent designations -/

theorem mark_some {s : List Nat} {e : Nat} (h : mark s = some e) :
    ∃ a b, s = a ++ 80 :: 41 :: b ∧ a.length = e ∧ ¬ HasMark (a ++ [80]) := by
  induction s generalizing e with
  | nil => cases h
  | cons c cs ih =>
    rw [mark] at h
    split_ifs at h with hc
    · obtain rfl : 0 = e := by simpa using h
      obtain ⟨rfl, h1⟩ := hc
      cases cs with
      | nil => simp [byte] at h1
      | cons d b =>
        obtain rfl : d = 41 := h1
        refine ⟨[], b, rfl, rfl, ?_⟩
        rintro ⟨a, b', e⟩
        cases a with
        | nil => simp at e
        | cons x a => simp at e
    · cases hm : mark cs with
      | none => rw [hm] at h; cases h
      | some k =>
        rw [hm] at h
        obtain rfl : k + 1 = e := by simpa using h
        obtain ⟨a, b, rfl, hl, hn⟩ := ih hm
        refine ⟨c :: a, b, rfl, by rw [List.length_cons, hl], ?_⟩
        rintro ⟨x, y, e⟩
        cases x with
        | nil =>
          simp only [List.nil_append, List.cons_append, List.cons.injEq] at e
          obtain ⟨rfl, e⟩ := e
          apply hc
          refine ⟨rfl, ?_⟩
          cases a with
          | nil => simp at e
          | cons d a => simp only [List.cons_append, List.cons.injEq] at e; simp [byte, e.1]
        | cons z x =>
          simp only [List.cons_append, List.cons.injEq] at e
          exact hn ⟨x, y, e.2⟩

theorem mark_none {s : List Nat} (h : mark s = none) : ¬ HasMark s := by
  induction s with
  | nil => rintro ⟨a, b, e⟩; cases a <;> simp at e
  | cons c cs ih =>
    rw [mark] at h
    split_ifs at h with hc
    have hn : mark cs = none := by cases hm : mark cs with
      | none => rfl
      | some k => rw [hm] at h; cases h
    rintro ⟨a, b, e⟩
    cases a with
    | nil =>
      simp only [List.nil_append, List.cons.injEq] at e
      exact hc ⟨e.1, by rw [e.2]; rfl⟩
    | cons x a =>
      simp only [List.cons_append, List.cons.injEq] at e
      exact ih hn ⟨a, b, e.2⟩

/-- There is only one first mark. -/
theorem mark_unique {a b a' b' : List Nat} (h : a ++ 80 :: 41 :: b = a' ++ 80 :: 41 :: b') (h1 : ¬ HasMark (a ++ [80])) (h2 : ¬ HasMark (a' ++ [80])) :
    a = a' ∧ b = b' := by
  induction a generalizing a' with
  | nil =>
    cases a' with
    | nil => simpa using h
    | cons x a' =>
      simp only [List.nil_append, List.cons_append, List.cons.injEq] at h
      obtain ⟨rfl, h⟩ := h
      cases a' with
      | nil => simp at h
      | cons y a' =>
        simp only [List.cons_append, List.cons.injEq] at h
        obtain ⟨rfl, h⟩ := h
        exact absurd ⟨[], a' ++ [80], rfl⟩ h2
  | cons x a ih =>
    cases a' with
    | nil =>
      simp only [List.nil_append, List.cons_append, List.cons.injEq] at h
      obtain ⟨rfl, h⟩ := h
      cases a with
      | nil => simp at h
      | cons y a =>
        simp only [List.cons_append, List.cons.injEq] at h
        obtain ⟨rfl, h⟩ := h
        exact absurd ⟨[], a ++ [80], rfl⟩ h1
    | cons y a' =>
      simp only [List.cons_append, List.cons.injEq] at h
      obtain ⟨rfl, h⟩ := h
      have := ih h (fun ⟨p, q, e⟩ => h1 ⟨x :: p, q, by rw [List.cons_append, e]; rfl⟩) (fun ⟨p, q, e⟩ => h2 ⟨x :: p, q, by rw [List.cons_append, e]; rfl⟩)
      exact ⟨by rw [this.1], this.2⟩

theorem back_to (s : List Nat) : ∀ e, back s e ≤ e ∧ (∀ j, back s e < j → j ≤ e → byte s j ≠ 40) ∧ (byte s (back s e) ≠ 40 → back s e = 0)
  | 0 => ⟨le_refl 0, fun j h0 h1 => by unfold back at h0; omega, fun _ => rfl⟩
  | e + 1 => by
    obtain ⟨h1, h2, h3⟩ := back_to s e
    rw [back]
    split_ifs with hc
    · refine ⟨by omega, fun j a b => ?_, h3⟩
      by_cases hj : j = e + 1
      · rw [hj]; exact hc
      · exact h2 j a (by omega)
    · exact ⟨le_refl _, fun j a b => by omega, fun hn => absurd (not_not.mp hc) hn⟩

theorem byte_left_of {a : List Nat} (b : List Nat) {i : Nat} (h : i < a.length) : byte (a ++ b) i = a.getD i 0 := by
  unfold byte
  rw [List.getD_eq_getElem?_getD, List.getElem?_append_left h, ← List.getD_eq_getElem?_getD]

theorem byte_at (a : List Nat) (c : Nat) (b : List Nat) : byte (a ++ c :: b) a.length = c := by
  unfold byte
  rw [List.getD_eq_getElem?_getD, List.getElem?_append_right (le_refl _), Nat.sub_self]
  rfl

theorem permanent_iff (s r : List Nat) : permanent s = some r ↔ Permanent s r := by
  unfold permanent
  constructor
  · intro h
    cases hm : mark s with
    | none => rw [hm] at h; cases h
    | some e =>
      rw [hm] at h
      simp only at h
      split_ifs at h with hb
      obtain ⟨a, b, rfl, hl, hn⟩ := mark_some hm
      obtain ⟨h1, h2, -⟩ := back_to (a ++ 80 :: 41 :: b) e
      generalize hi : back (a ++ 80 :: 41 :: b) e = i at *
      have hlt : i < a.length := by
        rcases Nat.lt_or_ge i a.length with k | k
        · exact k
        · obtain rfl : i = a.length := by omega
          rw [byte_at] at hb
          omega
      have e1 : a = a.take i ++ 40 :: a.drop (i + 1) := by
        rw [byte_left_of _ hlt, List.getD_eq_getElem?_getD, List.getElem?_eq_getElem hlt] at hb
        have hb : a[i] = 40 := hb
        rw [← hb, ← List.drop_eq_getElem_cons hlt, List.take_append_drop]
      refine ⟨a.take i, a.drop (i + 1), b, ?_, ?_, ?_, ?_⟩
      · conv_lhs => rw [e1]
        rw [List.append_assoc, List.cons_append]
      · intro hin
        obtain ⟨j, hj, e⟩ := List.getElem_of_mem hin
        rw [List.length_drop] at hj
        rw [List.getElem_drop] at e
        refine h2 (i + 1 + j) (by omega) (by omega) ?_
        rw [byte_left_of _ (by omega), List.getD_eq_getElem?_getD, List.getElem?_eq_getElem (by omega)]
        exact e
      · rw [show a.take i ++ 40 :: (a.drop (i + 1) ++ [80]) = a ++ [80] by conv_rhs => rw [e1]
                                                                           rw [List.append_assoc, List.cons_append]]
        exact hn
      · obtain rfl := (Option.some.inj h).symm
        rw [List.drop_append_of_le_length (by omega), show e - i = (a.drop (i + 1)).length + 1 by rw [List.length_drop]; omega, List.take_length_add_append]
        rfl
  · rintro ⟨pre, w, post, rfl, h1, h2, rfl⟩
    cases hm : mark (pre ++ 40 :: (w ++ 80 :: 41 :: post)) with
    | none => exact absurd ⟨pre ++ 40 :: w, post, by simp⟩ (mark_none hm)
    | some e =>
      obtain ⟨a, b, he, hl, hn⟩ := mark_some hm
      have hu := mark_unique (a := pre ++ 40 :: w) (b := post) (a' := a) (b' := b) (by rw [← he]; simp) (by simpa using h2) hn
      obtain ⟨rfl, rfl⟩ := hu
      have hi : back (pre ++ 40 :: (w ++ 80 :: 41 :: post)) e = pre.length := by
        obtain ⟨b1, b2, b3⟩ := back_to (pre ++ 40 :: (w ++ 80 :: 41 :: post)) e
        rw [List.length_append, List.length_cons] at hl
        have hlo : pre.length ≤ back (pre ++ 40 :: (w ++ 80 :: 41 :: post)) e := by
          by_contra hc
          exact b2 pre.length (by omega) (by omega) (byte_at _ _ _)
        by_contra hne
        have hb : byte (pre ++ 40 :: (w ++ 80 :: 41 :: post)) (back (pre ++ 40 :: (w ++ 80 :: 41 :: post)) e) = 40 := by
          by_contra hc
          have := b3 hc
          omega
        generalize back (pre ++ 40 :: (w ++ 80 :: 41 :: post)) e = i at *
        obtain ⟨j, rfl⟩ : ∃ j, i = pre.length + 1 + j := ⟨i - pre.length - 1, by omega⟩
        rw [show pre ++ 40 :: (w ++ 80 :: 41 :: post) = (pre ++ [40]) ++ (w ++ 80 :: (41 :: post)) by simp] at hb
        unfold byte at hb
        rw [List.getD_eq_getElem?_getD, List.getElem?_append_right (by rw [List.length_append]; simp)] at hb
        rw [List.length_append, List.length_singleton, Nat.add_sub_cancel_left] at hb
        rcases Nat.lt_or_ge j w.length with k | k
        · rw [List.getElem?_append_left k, List.getElem?_eq_getElem k] at hb
          have hb : w[j] = 40 := hb
          exact h1 (hb ▸ List.getElem_mem k)
        · obtain rfl : j = w.length := by omega
          rw [List.getElem?_append_right (le_refl _), Nat.sub_self] at hb
          simp at hb
      simp only [hi]
      rw [if_pos (byte_at _ _ _)]
      rw [List.length_append, List.length_cons] at hl
      rw [show pre ++ 40 :: (w ++ 80 :: 41 :: post) = (pre ++ [40]) ++ (w ++ [80] ++ 41 :: post) by simp,
        List.drop_left' (by simp), show e - pre.length = (w ++ [80]).length by simp; omega, List.take_left' rfl]

/-! ## Provisional designations -/

theorem span_of {p : Nat → Bool} {q : Nat → Prop} (hpq : ∀ c, p c = true ↔ q c) {a b : List Nat} (ha : ∀ c ∈ a, q c) (hb : Ends q b) :
    (a ++ b).takeWhile p = a ∧ (a ++ b).dropWhile p = b := by
  induction a with
  | nil =>
    cases b with
    | nil => exact ⟨rfl, rfl⟩
    | cons c b =>
      have := hb c b rfl
      rw [← hpq] at this
      simp [this]
  | cons c a ih =>
    have hc := (hpq c).2 (ha c (by simp))
    obtain ⟨h1, h2⟩ := ih fun c h => ha c (by simp [h])
    exact ⟨by rw [List.cons_append, List.takeWhile_cons_of_pos hc, h1], by rw [List.cons_append, List.dropWhile_cons_of_pos hc, h2]⟩

theorem span_is {p : Nat → Bool} {q : Nat → Prop} (hpq : ∀ c, p c = true ↔ q c) (s : List Nat) :
    s = s.takeWhile p ++ s.dropWhile p ∧ (∀ c ∈ s.takeWhile p, q c) ∧ Ends q (s.dropWhile p) := by
  refine ⟨List.takeWhile_append_dropWhile.symm, fun c h => (hpq c).1 (List.mem_takeWhile_imp h), ?_⟩
  induction s with
  | nil => intro c b h; cases h
  | cons x s ih =>
    by_cases hx : p x = true
    · rw [List.dropWhile_cons_of_pos hx]; exact ih
    · rw [List.dropWhile_cons_of_neg hx]
      intro c b h
      obtain ⟨rfl, -⟩ := List.cons.inj h
      rw [← hpq]
      exact hx

theorem digit_iff (c : Nat) : ComFile.isDigit c = true ↔ Digit c := by unfold ComFile.isDigit Digit; simp
theorem upper_iff (c : Nat) : ComFile.isUpper c = true ↔ Upper c := by unfold ComFile.isUpper Upper; simp
theorem blank_iff (c : Nat) : ComFile.isBlank c = true ↔ c = 32 := by unfold ComFile.isBlank; simp

/-- What is made after the slash. -/
theorem copied_reads {l d : Nat} {b r : List Nat} (hd : 49 ≤ d ∧ d ≤ 57) : copied (l :: 47 :: d :: b) = l :: 47 :: r ↔ Reads (d :: b) r := by
  have h0 : (d :: b).dropWhile ComFile.isBlank = d :: b := by
    rw [List.dropWhile_cons_of_neg]
    rw [blank_iff]
    omega
  unfold copied
  simp only [List.take_succ_cons, List.take_zero, List.drop_succ_cons, List.drop_zero, h0]
  constructor
  · intro h
    simp only [List.cons_append, List.nil_append, List.cons.injEq, true_and] at h
    obtain ⟨e1, p1, n1⟩ := span_is digit_iff (d :: b)
    generalize (d :: b).takeWhile ComFile.isDigit = year at *
    generalize (d :: b).dropWhile ComFile.isDigit = s1 at *
    obtain ⟨e2, p2, n2⟩ := span_is blank_iff s1
    generalize s1.takeWhile ComFile.isBlank = blanks at *
    generalize s1.dropWhile ComFile.isBlank = s2 at *
    obtain ⟨e3, p3, n3⟩ := span_is upper_iff s2
    generalize s2.takeWhile ComFile.isUpper = letters at *
    generalize s2.dropWhile ComFile.isUpper = s3 at *
    obtain ⟨e4, p4, n4⟩ := span_is digit_iff s3
    generalize s3.takeWhile ComFile.isDigit = digits at *
    generalize s3.dropWhile ComFile.isDigit = s4 at *
    subst e4 e3 e2
    rw [e1, ← h]
    by_cases hh : byte s4 0 = 45
    · rw [if_pos hh]
      cases s4 with
      | nil => simp [byte] at hh
      | cons c s5 =>
        obtain rfl : c = 45 := hh
        obtain ⟨e5, p5, n5⟩ := span_is upper_iff s5
        simp only [List.drop_succ_cons, List.drop_zero]
        generalize s5.takeWhile ComFile.isUpper = more at *
        generalize s5.dropWhile ComFile.isUpper = rest at *
        subst e5
        exact .part p1 p2 p3 p4 p5 n1 n2 n5
    · rw [if_neg hh, List.append_nil]
      refine .whole p1 p2 p3 p4 n1 n2 n3 n4 ?_
      rintro c t rfl rfl
      exact hh rfl
  · intro h
    generalize d :: b = s at *
    simp only [List.cons_append, List.nil_append, List.cons.injEq, true_and]
    cases h with
    | @whole year blanks letters digits rest p1 p2 p3 p4 n1 n2 n3 n4 n5 =>
      rw [(span_of digit_iff p1 n1).1, (span_of digit_iff p1 n1).2, (span_of blank_iff p2 n2).2, (span_of upper_iff p3 n3).1, (span_of upper_iff p3 n3).2,
        (span_of digit_iff p4 n4).1, (span_of digit_iff p4 n4).2, if_neg, List.append_nil]
      intro hh
      cases rest with
      | nil => simp [byte] at hh
      | cons c t => exact n5 c t rfl hh
    | @part year blanks letters digits more rest p1 p2 p3 p4 p5 n1 n2 n3 =>
      have n4 : Ends Digit (45 :: (more ++ rest)) := by intro c t e k; obtain ⟨rfl, -⟩ := List.cons.inj e; unfold Digit at k; omega
      have n6 : Ends Upper (digits ++ 45 :: (more ++ rest)) := by
        intro c t e k
        unfold Upper at k
        cases digits with
        | nil => obtain ⟨rfl, -⟩ := List.cons.inj e; omega
        | cons x y => obtain ⟨rfl, -⟩ := List.cons.inj e; have := p4 x (by simp); unfold Digit at this; omega
      rw [(span_of digit_iff p1 n1).1, (span_of digit_iff p1 n1).2, (span_of blank_iff p2 n2).2, (span_of upper_iff p3 n6).1, (span_of upper_iff p3 n6).2,
        (span_of digit_iff p4 n4).1, (span_of digit_iff p4 n4).2, if_pos (show byte (45 :: (more ++ rest)) 0 = 45 from rfl), List.drop_succ_cons, List.drop_zero, (span_of upper_iff p5 n3).1]

theorem begins_iff (c : Nat) (cs : List Nat) :
    ((c = 80 ∨ c = 67) ∧ byte cs 0 = 47 ∧ 49 ≤ byte cs 1 ∧ byte cs 1 ≤ 57) ↔ Begins (c :: cs) := by
  constructor
  · rintro ⟨h1, h2, h3, h4⟩
    match cs with
    | [] => simp [byte] at h2
    | [a] => simp [byte] at h3
    | a :: d :: b =>
      obtain rfl : a = 47 := h2
      exact ⟨c, d, b, rfl, h1, h3, h4⟩
  · rintro ⟨l, d, b, e, h1, h2, h3⟩
    obtain ⟨rfl, rfl⟩ := List.cons.inj e
    exact ⟨h1, rfl, h2, h3⟩

theorem provisional_iff (s r : List Nat) : provisional s = some r ↔ Provisional s r := by
  induction s with
  | nil =>
    constructor
    · intro h; cases h
    · rintro ⟨pre, l, t, r', e, -⟩
      simp at e
  | cons c cs ih =>
    rw [provisional]
    by_cases hb : Begins (c :: cs)
    · rw [if_pos ((begins_iff c cs).2 hb)]
      obtain ⟨l, d, b, e, h1, hd⟩ := hb
      obtain ⟨rfl, rfl⟩ := List.cons.inj e
      constructor
      · intro h
        have h := Option.some.inj h
        refine ⟨[], c, d :: b, r.drop 2, rfl, ⟨c, d, b, rfl, h1, hd⟩, fun _ _ _ _ => Nat.zero_le _, (copied_reads (l := c) hd).1 ?_, ?_⟩
        · rw [h]
          rw [← h]
          rfl
        · rw [← h]
          rfl
      · rintro ⟨pre, l, t, r', e, hB, hf, hr, rfl⟩
        have hz := hf [] _ rfl ⟨c, d, b, rfl, h1, hd⟩
        obtain rfl : pre = [] := by simpa using hz
        simp only [List.nil_append, List.cons.injEq, true_and] at e
        obtain ⟨rfl, rfl⟩ := e
        rw [(copied_reads hd).2 hr]
    · rw [if_neg (fun k => hb ((begins_iff c cs).1 k)), ih]
      constructor
      · rintro ⟨pre, l, t, r', rfl, hB, hf, hr, rfl⟩
        refine ⟨c :: pre, l, t, r', rfl, hB, ?_, hr, rfl⟩
        intro a b e k
        cases a with
        | nil => rw [List.nil_append] at e; rw [← e] at k; exact absurd k hb
        | cons x a =>
          obtain ⟨-, e⟩ := List.cons.inj e
          have := hf a b e k
          simp only [List.length_cons]
          omega
      · rintro ⟨pre, l, t, r', e, hB, hf, hr, rfl⟩
        cases pre with
        | nil => rw [List.nil_append] at e; rw [← e] at hB; exact absurd hB hb
        | cons x pre =>
          obtain ⟨rfl, rfl⟩ := List.cons.inj e
          refine ⟨pre, l, t, r', rfl, hB, ?_, hr, rfl⟩
          intro a b e k
          have := hf (c :: a) b (by rw [List.cons_append, ← e]) k
          simp only [List.length_cons] at this
          omega

/-! ## Years in parentheses -/

theorem bracketed_iff (s r : List Nat) : bracketed s = some r ↔ Bracketed s r := by
  have hne : ∀ c : Nat, decide (c ≠ 41) = true ↔ c ≠ 41 := fun c => by simp
  induction s with
  | nil =>
    constructor
    · intro h; cases h
    · rintro ⟨pre, rest, e, -⟩
      simp at e
  | cons c cs ih =>
    rw [bracketed]
    by_cases hb : c = 40 ∧ 1000 < atoi cs ∧ atoi cs < 2300
    · rw [if_pos hb]
      obtain ⟨rfl, hy⟩ := hb
      constructor
      · intro h
        obtain ⟨e1, p1, n1⟩ := span_is hne cs
        have h := Option.some.inj h
        rw [h] at e1 p1
        refine ⟨[], cs.dropWhile fun x => decide (x ≠ 41), by rw [List.nil_append, ← e1], ⟨_, rfl, by rw [← e1]; exact hy⟩, fun _ _ _ _ => Nat.zero_le _,
          fun hin => p1 41 hin rfl, ?_⟩
        cases hd : cs.dropWhile fun x => decide (x ≠ 41) with
        | nil => exact Or.inl rfl
        | cons x t => exact Or.inr ⟨t, by rw [not_not.mp (n1 x t hd)]⟩
      · rintro ⟨pre, rest, e, hY, hf, h41, hr⟩
        have hz := hf [] _ rfl ⟨cs, rfl, hy⟩
        obtain rfl : pre = [] := by simpa using hz
        obtain ⟨-, rfl⟩ := List.cons.inj e
        have hE : Ends (fun c => c ≠ 41) rest := by
          rintro x t rfl
          rcases hr with hr | ⟨b, hr⟩
          · cases hr
          · rw [(List.cons.inj hr).1]
            simp
        rw [(span_of hne (fun x hx e => h41 (e ▸ hx)) hE).1]
    · rw [if_neg hb]
      refine Iff.trans ih ?_
      have hb' : ¬ Year (c :: cs) := by
        rintro ⟨b, e, hy⟩
        obtain ⟨rfl, rfl⟩ := List.cons.inj e
        exact hb ⟨rfl, hy⟩
      constructor
      · rintro ⟨pre, rest, rfl, hY, hf, h41, hr⟩
        refine ⟨c :: pre, rest, rfl, hY, ?_, h41, hr⟩
        intro a b e k
        cases a with
        | nil => rw [List.nil_append] at e; rw [← e] at k; exact absurd k hb'
        | cons x a =>
          obtain ⟨-, e⟩ := List.cons.inj e
          have := hf a b e k
          simp only [List.length_cons]
          omega
      · rintro ⟨pre, rest, e, hY, hf, h41, hr⟩
        cases pre with
        | nil => rw [List.nil_append] at e; rw [← e] at hY; exact absurd hY hb'
        | cons x pre =>
          obtain ⟨rfl, rfl⟩ := List.cons.inj e
          refine ⟨pre, rest, rfl, hY, ?_, h41, hr⟩
          intro a b e k
          have := hf (c :: a) b (by rw [List.cons_append, ← e]) k
          simp only [List.length_cons] at this
          omega

/-- **C106.** What is found is the designation of the text, and nothing is found only if there is none. -/
theorem C106_designation (s r : List Nat) : extractPeriodicName s = some r ↔ Designation s r := by
  have np : permanent s = none ↔ ∀ x, ¬ Permanent s x := by
    simp only [← permanent_iff]
    cases permanent s <;> simp
  have nv : provisional s = none ↔ ∀ x, ¬ Provisional s x := by
    simp only [← provisional_iff]
    cases provisional s <;> simp
  unfold extractPeriodicName Designation
  rw [← np, ← nv, ← permanent_iff, ← provisional_iff, ← bracketed_iff]
  cases permanent s with
  | some x => simp
  | none =>
    cases provisional s with
    | some x => simp
    | none => simp

theorem C106_none (s : List Nat) : extractPeriodicName s = none ↔ ∀ r, ¬ Designation s r := by
  simp only [← C106_designation]
  cases extractPeriodicName s <;> simp

theorem reads_length {t r : List Nat} (h : Reads t r) : r.length ≤ t.length + 1 := by
  cases h <;> simp only [List.length_append, List.length_cons] <;> omega

/-- **C106.** How much is written, without the zero at the end: at most one byte more than the text has. -/
theorem C106_length {s r : List Nat} (h : extractPeriodicName s = some r) : r.length ≤ s.length + 1 := by
  rw [C106_designation] at h
  rcases h with ⟨pre, w, post, rfl, -, -, rfl⟩ | ⟨-, pre, l, t, r', rfl, -, -, hr, rfl⟩ | ⟨-, -, pre, rest, rfl, -⟩
  · simp only [List.length_append, List.length_cons, List.length_nil]; omega
  · have := reads_length hr
    simp only [List.length_append, List.length_cons]; omega
  · simp only [List.length_append, List.length_cons]; omega

/-- **C106.** Finding: if a year ends the text, a blank and the zero are written after it: a buffer of the size of the text is too small by one byte. -/
theorem C106_longer {l d : Nat} {year : List Nat} (hl : l = 80 ∨ l = 67) (hd : 49 ≤ d ∧ d ≤ 57) (hy : ∀ c ∈ year, Digit c) :
    extractPeriodicName (l :: 47 :: d :: year) = some (l :: 47 :: d :: year ++ [32]) := by
  rw [C106_designation]
  right; left
  refine ⟨?_, [], l, d :: year, d :: year ++ [32], rfl, ⟨l, d, year, rfl, hl, hd⟩, fun _ _ _ _ => Nat.zero_le _, ?_, rfl⟩
  · rintro x ⟨pre, w, post, e, -⟩
    have : 40 ∈ l :: 47 :: d :: year := by rw [e]; simp
    simp only [List.mem_cons] at this
    rcases this with h | h | h | h
    · omega
    · omega
    · omega
    · have := hy 40 h
      unfold Digit at this
      omega
  · have := Reads.whole (year := d :: year) (blanks := []) (letters := []) (digits := []) (rest := [])
      (fun c h => by
        rcases List.mem_cons.1 h with rfl | h
        · exact ⟨by omega, hd.2⟩
        · exact hy c h) (by simp) (by simp) (by simp) (by intro c b e; cases e) (by intro c b e; cases e) (by intro c b e; cases e) (by intro c b e; cases e)
      (by intro c b e; cases e)
    simpa using this

theorem reads_again {t r : List Nat} (h : Reads t r) (hne : ∃ d b, t = d :: b ∧ 49 ≤ d ∧ d ≤ 57) : ∃ r', Reads r r' ∧ (∃ d b, r = d :: b ∧ 49 ≤ d ∧ d ≤ 57) ∧
    40 ∉ r ∧ r' = r := by
  obtain ⟨d, b, et, hd⟩ := hne
  have ends_nil : ∀ q : Nat → Prop, Ends q [] := by intro q c b e; cases e
  cases h with
  | @whole year blanks letters digits rest p1 p2 p3 p4 n1 n2 n3 n4 n5 =>
    have hy : ∃ y, year = d :: y := by
      cases year with
      | nil =>
        rw [List.nil_append] at et
        exact absurd (show Digit d from ⟨by omega, hd.2⟩) (n1 d b et)
      | cons x y => exact ⟨y, by rw [(List.cons.inj et).1]⟩
    obtain ⟨y, rfl⟩ := hy
    have hb : Ends (· = 32) (letters ++ (digits ++ [])) := by
      intro c t e hc
      have : c ∈ letters ++ (digits ++ []) := by rw [e]; simp
      simp only [List.append_nil, List.mem_append] at this
      rcases this with k | k
      · have := p3 c k; unfold Upper at this; omega
      · have := p4 c k; unfold Digit at this; omega
    have hu : Ends Upper (digits ++ []) := by
      intro c t e hc
      have : c ∈ digits ++ [] := by rw [e]; simp
      rw [List.append_nil] at this
      have := p4 c this
      unfold Digit at this
      unfold Upper at hc
      omega
    have := Reads.whole (year := d :: y) (blanks := [32]) (letters := letters) (digits := digits) (rest := []) p1 (by simp) p3 p4
      (by intro c t e hc; obtain ⟨rfl, -⟩ := List.cons.inj e; unfold Digit at hc; omega) hb hu (ends_nil _) (ends_nil _)
    refine ⟨_, by simpa using this, ⟨d, _, rfl, hd⟩, ?_, by simp⟩
    intro hin
    simp only [List.mem_append, List.mem_cons] at hin
    rcases hin with k | k | k | k
    · have := p1 40 (List.mem_cons.2 k); unfold Digit at this; omega
    · omega
    · have := p3 _ k; unfold Upper at this; omega
    · have := p4 _ k; unfold Digit at this; omega
  | @part year blanks letters digits more rest p1 p2 p3 p4 p5 n1 n2 n3 =>
    have hy : ∃ y, year = d :: y := by
      cases year with
      | nil =>
        rw [List.nil_append] at et
        exact absurd (show Digit d from ⟨by omega, hd.2⟩) (n1 d b et)
      | cons x y => exact ⟨y, by rw [(List.cons.inj et).1]⟩
    obtain ⟨y, rfl⟩ := hy
    have hb : Ends (· = 32) (letters ++ (digits ++ 45 :: (more ++ []))) := by
      intro c t e hc
      have : c ∈ letters ++ (digits ++ 45 :: (more ++ [])) := by rw [e]; simp
      simp only [List.append_nil, List.mem_append, List.mem_cons] at this
      rcases this with k | k | k | k
      · have := p3 c k; unfold Upper at this; omega
      · have := p4 c k; unfold Digit at this; omega
      · omega
      · have := p5 c k; unfold Upper at this; omega
    have := Reads.part (year := d :: y) (blanks := [32]) (letters := letters) (digits := digits) (more := more) (rest := []) p1 (by simp) p3 p4 p5
      (by intro c t e hc; obtain ⟨rfl, -⟩ := List.cons.inj e; unfold Digit at hc; omega) hb (ends_nil _)
    refine ⟨_, by simpa using this, ⟨d, _, rfl, hd⟩, ?_, by simp⟩
    intro hin
    simp only [List.mem_append, List.mem_cons] at hin
    rcases hin with k | k | k | k | k | k
    · have := p1 40 (List.mem_cons.2 k); unfold Digit at this; omega
    · omega
    · have := p3 _ k; unfold Upper at this; omega
    · have := p4 _ k; unfold Digit at this; omega
    · omega
    · have := p5 _ k; unfold Upper at this; omega

/-- **C106.** A provisional designation is made into a normal form: it is found in itself, without a change. -/
theorem C106_normal {s r : List Nat} (hp : ∀ x, ¬ Permanent s x) (h : Provisional s r) : extractPeriodicName s = some r ∧ extractPeriodicName r = some r := by
  refine ⟨(C106_designation s r).2 (Or.inr (Or.inl ⟨hp, h⟩)), ?_⟩
  obtain ⟨pre, l, t, r', rfl, ⟨l', d, b, e, hl, hd⟩, -, hr, rfl⟩ := h
  simp only [List.cons.injEq, true_and] at e
  obtain ⟨rfl, rfl⟩ := e
  obtain ⟨r2, h2, ⟨d', b', e', hd'⟩, hno, rfl⟩ := reads_again hr ⟨d, b, rfl, hd⟩
  rw [C106_designation]
  right; left
  refine ⟨?_, [], l, r2, r2, rfl, ⟨l, d', b', by rw [e'], hl, hd'⟩, fun _ _ _ _ => Nat.zero_le _, h2, rfl⟩
  rintro x ⟨pre', w, post, e2, -⟩
  have : 40 ∈ l :: 47 :: r2 := by rw [e2]; simp
  simp only [List.mem_cons] at this
  rcases this with k | k | k
  · omega
  · omega
  · exact hno k

/-- **C106.** Finding: any text in parentheses that ends with a capital P is taken for a permanent designation, before the provisional one. -/
theorem C106_not_a_number {w : List Nat} (h : 40 ∉ w) (hm : ¬ HasMark (40 :: (w ++ [80]))) (post : List Nat) :
    extractPeriodicName (40 :: (w ++ 80 :: 41 :: post)) = some (w ++ [80]) :=
  (C106_designation _ _).2 (Or.inl ⟨[], w, post, rfl, h, hm, rfl⟩)

/-- **C106.** Finding: a designation with another letter than P or C, as in `(D/1770 L1)`, is not found (unless P or C come after it). -/
theorem C106_other_letters {l : Nat} {t : List Nat} (hl : Upper l) (h1 : l ≠ 80) (h2 : l ≠ 67) (ht : 80 ∉ t ∧ 67 ∉ t ∧ 40 ∉ t) :
    extractPeriodicName (40 :: l :: 47 :: t) = none := by
  obtain ⟨t1, t2, t3⟩ := ht
  unfold Upper at hl
  rw [C106_none]
  rintro r (⟨pre, w, post, e, -⟩ | ⟨-, pre, x, y, r', e, ⟨l', d, b, e', hx, -⟩, -⟩ | ⟨-, -, pre, rest, e, ⟨b, e', hy, -⟩, -⟩)
  · have : 80 ∈ 40 :: l :: 47 :: t := by rw [e]; simp
    simp only [List.mem_cons] at this
    rcases this with k | k | k | k
    · omega
    · omega
    · omega
    · exact t1 k
  · obtain ⟨rfl, -⟩ := List.cons.inj e'
    have : x ∈ 40 :: l :: 47 :: t := by rw [e]; simp
    simp only [List.mem_cons] at this
    rcases this with k | k | k | k
    · omega
    · omega
    · omega
    · rcases hx with rfl | rfl
      · exact t1 k
      · exact t2 k
  · obtain ⟨-, rfl⟩ := List.cons.inj e'
    cases pre with
    | nil =>
      obtain ⟨-, e⟩ := List.cons.inj e
      rw [← e, atoi, if_neg (by unfold isSpace; simp; omega), if_neg (by omega), if_neg (by omega), readDigits,
        if_neg (by unfold Verif.isDigit; simp; omega)] at hy
      omega
    | cons x pre =>
      obtain ⟨-, e⟩ := List.cons.inj e
      have : 40 ∈ l :: 47 :: t := by rw [e]; simp
      simp only [List.mem_cons] at this
      rcases this with k | k | k
      · omega
      · omega
      · exact t3 k

/-! ### Examples -/

def bytesOf (s : String) : List Nat := s.toList.map Char.toNat

example : Designation (bytesOf "McNaught (145P)") (bytesOf "145P") := (C106_designation _ _).1 (by decide +kernel)
example : Designation (bytesOf "ATLAS C/2019  Y4-B (x)") (bytesOf "C/2019 Y4-B") := (C106_designation _ _).1 (by decide +kernel)
example : Designation (bytesOf "P/Linear-NEAT (2001 HT50)") (bytesOf "2001 HT50") := (C106_designation _ _).1 (by decide +kernel)
example : Designation (bytesOf "Sharp (SHARP) (C/1999 X1)") (bytesOf "SHARP") := (C106_designation _ _).1 (by decide +kernel)
example : extractPeriodicName (bytesOf "(D/1770 L1)") = none := C106_other_letters (l := 68) (t := bytesOf "1770 L1)") (by unfold Upper; omega) (by omega) (by omega)
  (by decide +kernel)
example : (extractPeriodicName (bytesOf "C/1999")).map List.length = some 7 := by
  rw [show bytesOf "C/1999" = 67 :: 47 :: 49 :: [57, 57, 57] from by decide +kernel, C106_longer (Or.inr rfl) (by omega) (by unfold Digit; decide)]
  rfl

/-- The hypotheses of `C106_normal` and `C106_not_a_number`. -/
example : extractPeriodicName (bytesOf "C/2019 Y4") = some (bytesOf "C/2019 Y4") := by
  have hd : Designation (bytesOf "C/2019  Y4") (bytesOf "C/2019 Y4") := (C106_designation _ _).1 (by decide +kernel)
  rcases hd with h | ⟨h1, h2⟩ | ⟨-, h, -⟩
  · rw [← permanent_iff] at h
    exact absurd h (by decide +kernel)
  · exact (C106_normal h1 h2).2
  · exact absurd ((provisional_iff _ (bytesOf "C/2019 Y4")).1 (by decide +kernel)) (h _)

example (post : List Nat) := C106_not_a_number (w := bytesOf "SHAR") (by decide +kernel) (fun h => mark_none (by decide +kernel) h) post

end Verif.Props
