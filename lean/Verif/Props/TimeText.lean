import Verif.Model.GetTime
import Verif.Lemmas.Scan
import Mathlib.Tactic.SplitIfs

/-!
# C62: copying the text of a time into the 80-byte buffer
-/

namespace Verif.Props
open Verif.GetTime Verif.Spec

/-- ASCII letters and digits. -/
def Letter (c : Nat) : Prop := (65 ≤ c ∧ c ≤ 90) ∨ (97 ≤ c ∧ c ≤ 122)
def Figure (c : Nat) : Prop := 48 ≤ c ∧ c ≤ 57

/-- A blank is put between `a` and `b`: one is a letter and the other a digit, and `b` is not q or Q. -/
def Boundary (a b : Nat) : Prop := ((Letter b ∧ Figure a) ∨ (Figure b ∧ Letter a)) ∧ b ≠ 113 ∧ b ≠ 81

instance (a b : Nat) : Decidable (Boundary a b) := by unfold Boundary Letter Figure; infer_instance

/-- Letters in lower case. -/
def lower (c : Nat) : Nat := if 65 ≤ c ∧ c ≤ 90 then c + 32 else c

/-- The whole text in lower case with the blanks put in. -/
def spacedOut : List Nat → List Nat
  | [] => []
  | [a] => [lower a]
  | a :: b :: s => if Boundary a b then lower a :: 32 :: spacedOut (b :: s) else lower a :: spacedOut (b :: s)

theorem splitHere_iff (a b : Nat) : splitHere a b = true ↔ Boundary a b := by
  simp only [splitHere, Boundary, Letter, Figure, Bool.and_eq_true, Bool.or_eq_true, isAlpha_iff, isDigit_iff, bne_iff_ne, ne_eq]
  tauto

theorem toLower_eq (c : Nat) : toLower c = lower c := by
  unfold toLower lower
  simp only [isUpper, Bool.and_eq_true, decide_eq_true_eq]

/-- What the loop would write into an unbounded buffer. -/
def spacedRest : Nat → List Nat → List Nat
  | _, [] => []
  | a, b :: s => if Boundary a b then 32 :: lower b :: spacedRest b s else lower b :: spacedRest b s

theorem spacedOut_cons (a : Nat) (s : List Nat) : spacedOut (a :: s) = lower a :: spacedRest a s := by
  induction s generalizing a with
  | nil => rfl
  | cons b s ih =>
    rw [spacedOut, spacedRest, ih]
    split_ifs <;> rfl

theorem copyRest_fits (i a : Nat) (s : List Nat) (h : i + (spacedRest a s).length ≤ 79) : copyRest i a s = spacedRest a s := by
  induction s generalizing i a with
  | nil => rfl
  | cons b s ih =>
    rw [copyRest, spacedRest] at *
    by_cases hb : Boundary a b
    · rw [if_pos hb] at h ⊢
      simp only [List.length_cons] at h
      rw [if_pos (by omega), if_pos ((splitHere_iff a b).2 hb), ih (i + 2) b (by omega), toLower_eq]
    · rw [if_neg hb] at h ⊢
      simp only [List.length_cons] at h
      rw [if_pos (by omega), if_neg (fun h => hb ((splitHere_iff a b).1 h)), ih (i + 1) b (by omega), toLower_eq]

/-- The text is short enough: it is all copied. -/
theorem C62_copied (text : List Nat) (hne : text ≠ []) (h : (spacedOut text).length ≤ 79) :
    normalise text = .ok (spacedOut text) := by
  obtain ⟨a, s, rfl⟩ := List.exists_cons_of_ne_nil hne
  rw [spacedOut_cons] at h ⊢
  simp only [List.length_cons] at h
  unfold normalise
  simp only [copyRest_fits 1 a s (by omega), toLower_eq, List.length_cons]
  rw [if_neg (by omega)]

/-- A blank falls on index 78, the last but one of the buffer. -/
def Overflow (i a : Nat) (s : List Nat) : Prop :=
  ∃ pre b post, s = pre ++ b :: post ∧ Boundary ((a :: pre).getLast (by simp)) b ∧ i + (spacedRest a pre).length = 78

theorem overflow_cons (i a b : Nat) (s : List Nat) : Overflow i a (b :: s) ↔
    (Boundary a b ∧ i = 78) ∨ Overflow (i + (if Boundary a b then 2 else 1)) b s := by
  constructor
  · rintro ⟨pre, c, post, h1, h2, h3⟩
    cases pre with
    | nil =>
      simp only [List.nil_append, List.cons.injEq] at h1
      obtain ⟨rfl, rfl⟩ := h1
      left
      exact ⟨h2, by simpa [spacedRest] using h3⟩
    | cons x pre =>
      simp only [List.cons_append, List.cons.injEq] at h1
      obtain ⟨rfl, rfl⟩ := h1
      right
      refine ⟨pre, c, post, rfl, ?_, ?_⟩
      · rw [List.getLast_cons (by simp)] at h2; exact h2
      · rw [spacedRest] at h3
        split_ifs at h3 ⊢ <;> simp only [List.length_cons] at h3 <;> omega
  · rintro (⟨h1, h2⟩ | ⟨pre, c, post, rfl, h2, h3⟩)
    · exact ⟨[], b, s, rfl, h1, by simp [spacedRest, h2]⟩
    · refine ⟨b :: pre, c, post, rfl, ?_, ?_⟩
      · rw [List.getLast_cons (by simp)]; exact h2
      · rw [spacedRest]
        split_ifs at h3 ⊢ <;> simp only [List.length_cons] <;> omega

theorem copyRest_spec (i a : Nat) (s : List Nat) (hi : i ≤ 79) :
    (i + (copyRest i a s).length ≥ 80 ↔ Overflow i a s) ∧
    (¬ Overflow i a s → copyRest i a s = (spacedRest a s).take (79 - i)) := by
  induction s generalizing i a with
  | nil =>
    constructor
    · constructor
      · simp [copyRest]; omega
      · rintro ⟨pre, b, post, h, -⟩; simp at h
    · intro _; simp [copyRest, spacedRest]
  | cons b s ih =>
    rw [overflow_cons, copyRest, spacedRest]
    by_cases h79 : i < 79
    · rw [if_pos h79]
      by_cases hb : Boundary a b
      · rw [if_pos ((splitHere_iff a b).2 hb), if_pos hb, if_pos hb]
        by_cases h78 : i = 78
        · subst h78
          simp [hb]
          omega
        · obtain ⟨h1, h2⟩ := ih (i + 2) b (by omega)
          simp only [hb, h78, and_false, false_or, List.length_cons, toLower_eq]
          constructor
          · rw [← h1]; omega
          · intro h
            rw [h2 h]
            obtain ⟨k, hk⟩ : ∃ k, 79 - i = k + 2 := ⟨77 - i, by omega⟩
            have : 79 - (i + 2) = k := by omega
            rw [this, hk]; rfl
      · rw [if_neg (fun h => hb ((splitHere_iff a b).1 h)), if_neg hb, if_neg hb]
        obtain ⟨h1, h2⟩ := ih (i + 1) b (by omega)
        simp only [hb, false_and, false_or, List.length_cons, toLower_eq]
        constructor
        · rw [← h1]; omega
        · intro h
          rw [h2 h]
          obtain ⟨k, hk⟩ : ∃ k, 79 - i = k + 1 := ⟨78 - i, by omega⟩
          have : 79 - (i + 1) = k := by omega
          rw [this, hk]; rfl
    · have : i = 79 := by omega
      subst this
      simp only [Nat.lt_irrefl, if_false, List.length_nil]
      constructor
      · constructor
        · omega
        · rintro (⟨-, h⟩ | ⟨pre, c, post, -, -, h⟩)
          · omega
          · split_ifs at h <;> omega
      · intro _; simp

/-- **C62.** Exactly when the copy writes past the end of the 80-byte buffer: the text before some letter-digit
    boundary takes 78 bytes, blanks included. -/
theorem C62_overflow (text : List Nat) :
    normalise text = .ub ↔ ∃ pre a b post, text = pre ++ a :: b :: post ∧ Boundary a b ∧ (spacedOut (pre ++ [a])).length = 78 := by
  cases text with
  | nil => simp [normalise]
  | cons c s =>
    have h := (copyRest_spec 1 c s (by omega)).1
    have h1 : normalise (c :: s) = .ub ↔ Overflow 1 c s := by
      rw [← h]
      unfold normalise
      simp only [List.length_cons]
      split_ifs with h2
      · simp only [true_iff]; omega
      · simp only [reduceCtorEq, false_iff]; omega
    rw [h1]
    constructor
    · rintro ⟨pre, b, post, rfl, hb, hl⟩
      have hne : c :: pre ≠ [] := by simp
      have e : c :: pre = (c :: pre).dropLast ++ [(c :: pre).getLast hne] := (List.dropLast_append_getLast hne).symm
      refine ⟨(c :: pre).dropLast, (c :: pre).getLast hne, b, post, ?_, hb, ?_⟩
      · calc c :: (pre ++ b :: post) = (c :: pre) ++ b :: post := rfl
          _ = ((c :: pre).dropLast ++ [(c :: pre).getLast hne]) ++ b :: post := by rw [← e]
          _ = _ := by simp
      · rw [← e, spacedOut_cons, List.length_cons]; omega
    · rintro ⟨pre, a, b, post, he, hb, hl⟩
      cases pre with
      | nil => simp [spacedOut] at hl
      | cons x pre =>
        simp only [List.cons_append, List.cons.injEq] at he
        obtain ⟨rfl, rfl⟩ := he
        refine ⟨pre ++ [a], b, post, by simp, ?_, ?_⟩
        · have : (c :: (pre ++ [a])).getLast (by simp) = a := by simp
          rw [this]; exact hb
        · rw [List.cons_append, spacedOut_cons, List.length_cons] at hl
          omega

/-- **C62.** Otherwise the buffer holds the first 79 bytes of the text with the blanks put in. -/
theorem C62_contents (text : List Nat) (h : normalise text ≠ .ub) : normalise text = .ok ((spacedOut text).take 79) := by
  cases text with
  | nil => rfl
  | cons c s =>
    obtain ⟨h1, h2⟩ := copyRest_spec 1 c s (by omega)
    have hno : ¬ Overflow 1 c s := by
      rw [← h1]
      intro h3
      apply h
      unfold normalise
      simp only [List.length_cons]
      rw [if_pos (by omega)]
    have h4 : ¬ (1 + (copyRest 1 c s).length ≥ 80) := fun h => hno (h1.1 h)
    unfold normalise
    simp only [List.length_cons]
    rw [if_neg (by omega), h2 hno, spacedOut_cons, toLower_eq]
    rfl

/-- A text that overflows the buffer: 39 letter-digit pairs. -/
def overlong : List Nat := (List.replicate 39 [97, 49]).flatten

example : overlong.length = 78 ∧ normalise overlong = .ok ((spacedOut overlong).take 79) := by decide +kernel
example : normalise (97 :: overlong ) = .ub := by decide +kernel
example : normalise (bytes "11Nov 1918") = .ok (bytes "11 nov 1918") := by decide +kernel

end Verif.Props
