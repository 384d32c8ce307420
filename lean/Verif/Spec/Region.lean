import Verif.Spec.Station

/-!
# Specification: regions bounded by two longitudes and two latitudes
-/

namespace Verif.Spec

/-- Strictly between. -/
def Between (x a b : ℚ) : Prop := a < x ∧ x < b ∨ b < x ∧ x < a

/-- A region less than half a turn wide. -/
structure Box where
  lon1 : ℚ
  lat1 : ℚ
  lon2 : ℚ
  lat2 : ℚ

/-- The place is in the box; longitudes are counted modulo 360 degrees, and the shorter way from one border to the other is meant. -/
def Box.Holds (r : Box) (lon lat : ℚ) : Prop :=
  (∃ m n : ℤ, Between lon (r.lon1 + 360 * m) (r.lon2 + 360 * n) ∧ |r.lon1 + 360 * m - (r.lon2 + 360 * n)| < 180) ∧ Between lat r.lat1 r.lat2

/-- Not exactly half a turn. -/
def Box.Proper (r : Box) : Prop := ∀ n : ℤ, r.lon2 - r.lon1 ≠ 180 + 360 * n

/-- A number in a column of ten bytes, with at least a blank after it. -/
inductive Cell : List Nat → ℚ → Prop
  | mk {t : List Nat} {x : ℚ} {k : Nat} : Written t x → t.length + (k + 1) = 10 → Cell (t ++ List.replicate (k + 1) 32) x

/-- A line: the borders in four columns, the text, and the end of the line. -/
inductive BoxLine : List Nat → Box → List Nat → Prop
  | mk {a b c d text : List Nat} {r : Box} : Cell a r.lon1 → Cell b r.lat1 → Cell c r.lon2 → Cell d r.lat2 →
      (∀ c ∈ text, 32 ≤ c ∧ c < 128) → text.length ≤ 48 → BoxLine (a ++ (b ++ (c ++ (d ++ (text ++ [10]))))) r text

/-- A comment. -/
inductive CommentLine : List Nat → Prop
  | mk {s : List Nat} : (∀ c ∈ s, c ≠ 10) → s.length ≤ 87 → CommentLine (35 :: (s ++ [10]))

/-- The text of the first region in the file that holds the place. -/
inductive FirstBox (lon lat : ℚ) : List Nat → Option (List Nat) → Prop
  | nothing : FirstBox lon lat [] none
  | here {l text rest : List Nat} {r : Box} : BoxLine l r text → r.Proper → r.Holds lon lat → text ≠ [] → FirstBox lon lat (l ++ rest) (some text)
  | other {l text rest : List Nat} {r : Box} {o : Option (List Nat)} : BoxLine l r text → r.Proper → ¬ r.Holds lon lat →
      FirstBox lon lat rest o → FirstBox lon lat (l ++ rest) o
  | comment {l rest : List Nat} {o : Option (List Nat)} : CommentLine l → FirstBox lon lat rest o → FirstBox lon lat (l ++ rest) o

end Verif.Spec
