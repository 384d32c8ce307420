import Verif.Model.Bytes
import Mathlib.Data.Rat.Defs

/-!
# Files with a position every minute
-/

namespace Verif.Spec.Oem

open Verif

/-- A line with a position: after a date such as `2019-02-10T00:00:00.000`. -/
def PosLine (l : List Nat) : Prop :=
  l[4]? = some 45 ∧ l[7]? = some 45 ∧ l[10]? = some 84 ∧ l[13]? = some 58 ∧ 24 ≤ l.length ∧ 0 ∉ l

/-- Any other line, if it is not so short that nothing tells it from a position. -/
def OtherLine (l : List Nat) : Prop :=
  (4 ≤ l.length ∧ l[4]? ≠ some 45) ∨ (7 ≤ l.length ∧ l[7]? ≠ some 45) ∨ (10 ≤ l.length ∧ l[10]? ≠ some 84) ∨ (13 ≤ l.length ∧ l[13]? ≠ some 58)

/-- The line begins with this keyword. -/
def Says (p : String) (l : List Nat) : Prop := l.take 9 = bytes p

/-- The lines after the header, and the positions among them. -/
inductive Body : List (List Nat) → List (List Nat) → Prop
  | done : Body [] []
  | other (l : List Nat) (ls rs : List (List Nat)) (h : OtherLine l) (h1 : ¬Says "OBJECT_ID" l) (h2 : ¬Says "START_TIM" l) (h3 : ¬Says "STOP_TIME" l)
      (t : Body ls rs) : Body (l :: ls) rs
  | row (l : List Nat) (ls rs : List (List Nat)) (h : PosLine l) (t : Body ls rs) : Body (l :: ls) (l :: rs)

/-- The value that the last line with this keyword has. -/
def Value (p : String) (ls : List (List Nat)) (v : List Nat) : Prop :=
  ∃ a l b, ls = a ++ l :: b ∧ Says p l ∧ 23 ≤ l.length ∧ 0 ∉ l ∧ v = l.drop 23 ∧ ∀ k ∈ b, ¬Says p k

/-- The satellites THEMIS-A to -E by catalogue number. -/
def Craft (id : Int) (c : Nat) : Prop :=
  (id = 30580 ∧ c = 65) ∨ (id = 30581 ∧ c = 66) ∨ (id = 30582 ∧ c = 67) ∨ (id = 30797 ∧ c = 68) ∨ (id = 30798 ∧ c = 69)

/-- The positions with their times, a minute apart. -/
def minutes (start : ℚ) (rs : List (List Nat)) : List (ℚ × List Nat) := rs.zipIdx.map fun r => (start + (r.2 : ℚ) / 1440, r.1)

end Verif.Spec.Oem
