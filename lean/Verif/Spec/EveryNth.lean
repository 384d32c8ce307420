import Verif.Spec.Decimal
import Verif.Model.Bytes
import Mathlib.Data.Rat.Defs

/-!
# The ephemerides of MMS satellites, and every n-th line
-/

namespace Verif.Spec.Mms

open Verif

/-- A line with a position: in the 24th byte and after it the time in days since 1958 January 1, atomic time. -/
def RowText (l : List Nat) (days : ℚ) : Prop :=
  150 < l.length ∧ l[4]? = some 45 ∧ l[8]? = some 47 ∧ l[11]? = some 58 ∧
    ∃ (k : Nat) (ds fs rest : List Nat), AllDigits ds ∧ ds ≠ [] ∧ AllDigits fs ∧
      l.drop 23 = List.replicate k 32 ++ ds ++ 46 :: fs ++ 32 :: rest ∧ days = (value ds : ℚ) + (value fs : ℚ) / 10 ^ fs.length

/-- The other lines. -/
def Other (l : List Nat) : Prop := l.length ≤ 150 ∨ l[4]? ≠ some 45 ∨ l[8]? ≠ some 47 ∨ l[11]? ≠ some 58

/-- A file with these lines of positions. -/
inductive File : List (List Nat) → List (ℚ × List Nat) → Prop
  | done : File [] []
  | other (l : List Nat) (ls : List (List Nat)) (rs : List (ℚ × List Nat)) (h : Other l) (t : File ls rs) : File (l :: ls) rs
  | row (l : List Nat) (ls : List (List Nat)) (d : ℚ) (rs : List (ℚ × List Nat)) (h : RowText l d) (t : File ls rs) :
      File (l :: ls) ((d, l) :: rs)

/-- The satellite whose number is `c`. -/
def Craft (ls : List (List Nat)) (c : Nat) : Prop :=
  ∃ a l b, ls = a ++ l :: b ∧ l.take 17 = bytes "Spacecraft = MMS" ++ [c] ∧ ∀ k ∈ b, k.take 16 ≠ bytes "Spacecraft = MMS"

/-- The elements 0, f, 2f, ... -/
def everyNth {α : Type} (f : Nat) (rs : List α) : List α := (List.range ((rs.length + f - 1) / f)).filterMap fun j => rs[j * f]?

/-- Days since 1958 January 1, atomic time, as a Julian date of ephemeris time: 32.184 seconds more. -/
def julian (d : ℚ) : ℚ := d + 4872409 / 2 + 32184 / 86400000

end Verif.Spec.Mms
