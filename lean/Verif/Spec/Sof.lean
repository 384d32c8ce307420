import Verif.Model.Bytes

/-!
# Specification: Standard Orbit Format headers

A header line consists of columns separated by bars; a column is named by how it begins.  The value of a column
in a record is at the same byte positions as the column in the header.
-/

namespace Verif.Spec.Sof

open Verif

/-- A byte of a column name: printable ASCII except the bar. -/
def ColumnByte (c : Nat) : Prop := 32 ≤ c ∧ c < 128 ∧ c ≠ 124

/-- The line ends here: nothing is left, or a byte which is not printable ASCII. -/
def Ends (h : List Nat) : Prop := ∀ c, h.head? = some c → c < 32 ∨ 128 ≤ c

/-- The header consists of these columns. -/
inductive Columns : List (List Nat) → List Nat → Prop
  | stop {h} : Ends h → Columns [] h
  | last {c h} : c ≠ [] → (∀ b ∈ c, ColumnByte b) → Ends h → Columns [c] (c ++ h)
  | more {c cs h} : (∀ b ∈ c, ColumnByte b) → Columns cs h → Columns (c :: cs) (c ++ 124 :: h)

/-- The text a record has for the last of the columns with a certain property, if there is one. -/
def lastText (named : List Nat → Prop) [DecidablePred named] : List (List Nat) → List Nat → Option (List Nat)
  | [], _ => none
  | c :: cs, record =>
    match lastText named cs (record.drop (c.length + 1)) with
    | some t => some t
    | none => if named c then some (record.take c.length) else none

theorem lastText_isSome (named : List Nat → Prop) [DecidablePred named] (cols : List (List Nat)) (record : List Nat) :
    (lastText named cols record).isSome ↔ ∃ c ∈ cols, named c := by
  induction cols generalizing record with
  | nil => simp [lastText]
  | cons c cs ih =>
    have := ih (record.drop (c.length + 1))
    unfold lastText
    cases h : lastText named cs (record.drop (c.length + 1)) with
    | some t => rw [h] at this; simp at this ⊢; exact Or.inr this
    | none =>
      rw [h] at this
      simp only [Option.isSome_none, Bool.false_eq_true, false_iff, not_exists, not_and] at this
      by_cases hc : named c
      · simp [hc]
      · simp only [if_neg hc, Option.isSome_none, Bool.false_eq_true, List.mem_cons, exists_eq_or_imp, false_iff, not_or, not_exists, not_and]
        exact ⟨hc, this⟩

/-- Every line has columns. -/
theorem columns_exist (n : Nat) (h : List Nat) (hn : h.length ≤ n) : ∃ cols, Columns cols h := by
  induction n generalizing h with
  | zero => exact ⟨[], .stop (by intro c hc; cases h with | nil => simp at hc | cons => simp at hn)⟩
  | succ n ih =>
    -- split off the longest run of column bytes
    have split : ∀ h : List Nat, ∃ c t, h = c ++ t ∧ (∀ b ∈ c, ColumnByte b) ∧ (∀ b, t.head? = some b → ¬ ColumnByte b) := by
      intro h
      induction h with
      | nil => exact ⟨[], [], rfl, by simp, by simp⟩
      | cons a h ih =>
        by_cases ha : ColumnByte a
        · obtain ⟨c, t, rfl, h1, h2⟩ := ih
          exact ⟨a :: c, t, rfl, by
            intro b hb
            rcases List.mem_cons.1 hb with rfl | hb
            · exact ha
            · exact h1 b hb, h2⟩
        · exact ⟨[], a :: h, rfl, by simp, by intro b hb; simp at hb; subst hb; exact ha⟩
    obtain ⟨c, t, rfl, h1, h2⟩ := split h
    cases t with
    | nil =>
      cases c with
      | nil => exact ⟨[], .stop (by simp [Ends])⟩
      | cons a c => exact ⟨[a :: c], .last (by simp) h1 (by simp [Ends])⟩
    | cons b t =>
      by_cases hb : b = 124
      · subst hb
        obtain ⟨cs, hcs⟩ := ih t (by simp at hn; omega)
        exact ⟨c :: cs, .more h1 hcs⟩
      · have he : Ends (b :: t) := by
          intro d hd
          have hd : d = b := by simpa using hd.symm
          subst hd
          have := h2 d rfl
          unfold ColumnByte at this
          omega
        cases c with
        | nil => exact ⟨[], .stop he⟩
        | cons a c => exact ⟨[a :: c], .last (by simp) h1 he⟩

end Verif.Spec.Sof
