import Verif.Spec.Decimal
import Verif.Model.Bytes
import Mathlib.Data.Rat.Defs
import Mathlib.Algebra.Order.Ring.Unbundled.Rat
import Mathlib.Algebra.Order.Floor.Defs

/-!
# Tables of positions by Horizons, and files of scaled integers
-/

namespace Verif.Spec.Horizons

open Verif

/-- A number such as `-1.234567890123456E-03`; the sign of a positive one is blank. -/
def SciText (t : List Nat) (x : ℚ) : Prop :=
  ∃ (neg eneg : Bool) (ds fs es : List Nat), AllDigits ds ∧ ds ≠ [] ∧ AllDigits fs ∧ AllDigits es ∧ es ≠ [] ∧
    t = (if neg then 45 else 32) :: ds ++ 46 :: fs ++ 69 :: (if eneg then 45 else 43) :: es ∧
    x = (if neg then -1 else 1) * ((value ds : ℚ) + (value fs : ℚ) / 10 ^ fs.length) *
      (if eneg then 1 / 10 ^ value es else 10 ^ value es)

/-- The line with the date of a position at midnight. -/
def HeadText (l : List Nat) (jd : ℚ) : Prop :=
  ∃ ds fs mid rest : List Nat, AllDigits ds ∧ ds ≠ [] ∧ AllDigits fs ∧ ds.length + fs.length = 16 ∧ mid.length = 13 ∧
    l = ds ++ 46 :: fs ++ bytes " = A.D." ++ mid ++ bytes "00:00:00.0000 (CT)" ++ rest ∧
    jd = (value ds : ℚ) + (value fs : ℚ) / 10 ^ fs.length ∧ 2000000 < jd ∧ jd < 3000000

/-- The line with the position: three numbers of 22 bytes, each after a blank (the first byte may be another). -/
def RowText (l : List Nat) (x y z : ℚ) : Prop :=
  ∃ (c : Nat) (s t u rest : List Nat), SciText s x ∧ SciText t y ∧ SciText u z ∧ s.length = 22 ∧ t.length = 22 ∧
    l = c :: s ++ 32 :: t ++ 32 :: u ++ rest ∧ (∀ d, rest.head? = some d → ¬(48 ≤ d ∧ d ≤ 57))

/-- Lines that do not belong to the table: other texts, other times. -/
def Other (l : List Nat) : Prop :=
  (l.drop 17).take 7 ≠ bytes " = A.D." ∨ (l.drop 37).take 18 ≠ bytes "00:00:00.0000 (CT)"

/-- A position and its date. -/
structure Pos where
  jd : ℚ
  x : ℚ
  y : ℚ
  z : ℚ

/-- A file with these positions. -/
inductive Table : List (List Nat) → List Pos → Prop
  | done : Table [] []
  | other (l : List Nat) (ls : List (List Nat)) (ps : List Pos) (h : Other l) (t : Table ls ps) : Table (l :: ls) ps
  | row (l d : List Nat) (ls : List (List Nat)) (p : Pos) (ps : List Pos) (h : HeadText l p.jd) (r : RowText d p.x p.y p.z)
      (t : Table ls ps) : Table (l :: d :: ls) (p :: ps)

/-- All ordinates in order. -/
def ordinates (ps : List Pos) : List ℚ := ps.flatMap fun p => [p.x, p.y, p.z]

/-- `m` is the largest absolute value. -/
def Largest (m : ℚ) (xs : List ℚ) : Prop := (∃ x ∈ xs, |x| = m) ∧ ∀ x ∈ xs, |x| ≤ m

/-- A signed integer of four bytes, the least significant first. -/
def int32 (s : List Nat) : Int :=
  let u : Int := s.getD 0 0 + 256 * s.getD 1 0 + 65536 * s.getD 2 0 + 16777216 * s.getD 3 0
  if u < 2147483648 then u else u - 4294967296

/-- `v` stands for `x` in units of `m` / 1500000000, rounded toward zero. -/
def Scaled (m x : ℚ) (v : Int) : Prop :=
  |(v : ℚ) * (m / 1500000000)| ≤ |x| ∧ |x| < (|(v : ℚ)| + 1) * (m / 1500000000) ∧ 0 ≤ (v : ℚ) * x

end Verif.Spec.Horizons
