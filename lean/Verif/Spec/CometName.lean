import Verif.Model.Bytes

/-!
# Spec: where a comet's designation is in a text

The library function `atoi` is the one of `Verif.Model.Bytes`.
-/

namespace Verif.Spec.CometName

def Digit (c : Nat) : Prop := 48 ≤ c ∧ c ≤ 57
def Upper (c : Nat) : Prop := 65 ≤ c ∧ c ≤ 90

/-- `P)` is somewhere in the text. -/
def HasMark (s : List Nat) : Prop := ∃ a b, s = a ++ 80 :: 41 :: b

/-- In parentheses, with the first `P)` of the text: `(145P)`. -/
def Permanent (s r : List Nat) : Prop :=
  ∃ pre w post, s = pre ++ 40 :: (w ++ 80 :: 41 :: post) ∧ 40 ∉ w ∧ ¬ HasMark (pre ++ 40 :: (w ++ [80])) ∧ r = w ++ [80]

/-- `P/` or `C/` and a digit other than zero. -/
def Begins (s : List Nat) : Prop := ∃ l d b, s = l :: 47 :: d :: b ∧ (l = 80 ∨ l = 67) ∧ 49 ≤ d ∧ d ≤ 57

/-- The text does not go on with a byte of the kind. -/
def Ends (p : Nat → Prop) (s : List Nat) : Prop := ∀ c b, s = c :: b → ¬ p c

/-- The year, blanks, capital letters, digits, perhaps a hyphen and letters, and something else; and what is made of it, with one blank. -/
inductive Reads : List Nat → List Nat → Prop
  | whole {year blanks letters digits rest : List Nat} : (∀ c ∈ year, Digit c) → (∀ c ∈ blanks, c = 32) → (∀ c ∈ letters, Upper c) →
      (∀ c ∈ digits, Digit c) → Ends Digit (blanks ++ (letters ++ (digits ++ rest))) → Ends (· = 32) (letters ++ (digits ++ rest)) →
      Ends Upper (digits ++ rest) → Ends Digit rest → Ends (· = 45) rest →
      Reads (year ++ (blanks ++ (letters ++ (digits ++ rest)))) (year ++ (32 :: (letters ++ digits)))
  | part {year blanks letters digits more rest : List Nat} : (∀ c ∈ year, Digit c) → (∀ c ∈ blanks, c = 32) → (∀ c ∈ letters, Upper c) →
      (∀ c ∈ digits, Digit c) → (∀ c ∈ more, Upper c) → Ends Digit (blanks ++ (letters ++ (digits ++ 45 :: (more ++ rest)))) →
      Ends (· = 32) (letters ++ (digits ++ 45 :: (more ++ rest))) → Ends Upper rest →
      Reads (year ++ (blanks ++ (letters ++ (digits ++ 45 :: (more ++ rest))))) (year ++ (32 :: (letters ++ (digits ++ 45 :: more))))

/-- The first such designation of the text. -/
def Provisional (s r : List Nat) : Prop :=
  ∃ pre l t r', s = pre ++ l :: 47 :: t ∧ Begins (l :: 47 :: t) ∧ (∀ a b, s = a ++ b → Begins b → pre.length ≤ a.length) ∧ Reads t r' ∧ r = l :: 47 :: r'

/-- A year begins after the parenthesis. -/
def Year (s : List Nat) : Prop := ∃ b, s = 40 :: b ∧ 1000 < atoi b ∧ atoi b < 2300

/-- In parentheses, from a year on: the first of the text. -/
def Bracketed (s r : List Nat) : Prop :=
  ∃ pre rest, s = pre ++ 40 :: (r ++ rest) ∧ Year (40 :: (r ++ rest)) ∧ (∀ a b, s = a ++ b → Year b → pre.length ≤ a.length) ∧ 41 ∉ r ∧
    (rest = [] ∨ ∃ b, rest = 41 :: b)

/-- The designation of a text. -/
def Designation (s r : List Nat) : Prop :=
  Permanent s r ∨ ((∀ x, ¬ Permanent s x) ∧ Provisional s r) ∨ ((∀ x, ¬ Permanent s x) ∧ (∀ x, ¬ Provisional s x) ∧ Bracketed s r)

end Verif.Spec.CometName
