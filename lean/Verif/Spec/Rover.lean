import Mathlib.Algebra.Order.Group.Unbundled.Abs
import Mathlib.Algebra.Order.Ring.Rat
import Verif.Model.Bytes
import Verif.Spec.Place
import Verif.Spec.Decimal

/-!
# Observations of roving observers
-/

namespace Verif.Spec.Rover

open Verif Verif.Spec

/-- A number with `p` decimals, rounded, after blanks, in `w` columns; `plus`: with a sign in any case. -/
def Column (w p : Nat) (plus : Bool) (x : ℚ) (t : List Nat) : Prop :=
  ∃ k N whole frac, t = List.replicate k 32 ++ ((if x < 0 then [45] else if plus then [43] else []) ++ whole ++ frac) ∧ t.length = w ∧
    Numeral (N / 10 ^ p) whole ∧ (if p = 0 then frac = [] else ∃ ds, Padded p (N % 10 ^ p) ds ∧ frac = 46 :: ds) ∧
    |(N : ℚ) - |x| * 10 ^ p| ≤ 1 / 2

/-- Columns 33 to 61 of the second line. -/
def Columns (lat lon alt : ℚ) (t : List Nat) : Prop :=
  ∃ a b c, t = bytes "1 " ++ a ++ bytes "  " ++ b ++ bytes "   " ++ c ∧ Column 9 5 false lon a ∧ Column 9 5 true lat b ∧ Column 4 0 false alt c

/-- An observation with no station code, in parts: the note in column 15, the columns 33 to 61 and column 62 are changed. -/
structure Obs where
  a : List Nat
  note : Nat
  b : List Nat
  c : List Nat
  x : Nat
  d : List Nat
  e : List Nat

/-- The line with this note, columns 33 to 62, and code. -/
def Obs.text (o : Obs) (note : Nat) (c : List Nat) (x : Nat) (code : String) : List Nat :=
  o.a ++ note :: (o.b ++ (c ++ x :: (o.d ++ (bytes code ++ o.e))))

/-- The parts have their places, and after the code there is a byte that is not text. -/
structure Obs.Ok (o : Obs) : Prop where
  a : o.a.length = 14
  b : o.b.length = 17
  c : o.c.length = 29
  d : o.d.length = 15
  e : ∃ z r, o.e = z :: r ∧ (z < 32 ∨ 128 ≤ z)
  nul : 0 ∉ o.text o.note o.c o.x "XXX"
  com : ¬bytes "COM Long." <+: o.a
  cod : ¬bytes "COD XXX" <+: o.a

/-- What is a place that can be written in the columns. -/
def Fits (lat lon alt : ℚ) : Prop := 0 ≤ lon ∧ lon ≤ 999 ∧ |lat| ≤ 90 ∧ -999 ≤ alt ∧ alt ≤ 9999

/-- A line that is no observation without a station code. -/
def NoObs (l : List Nat) : Prop := (l.drop 77).take 3 ≠ bytes "XXX" ∨ l.length ≤ 80 ∨ ∃ z, l[80]? = some z ∧ 32 ≤ z ∧ z < 128

/-- A line that is neither a place, nor a header with the code, nor an observation with it. -/
def Other (l : List Nat) : Prop := ¬bytes "COM Long." <+: l ∧ ¬bytes "COD XXX" <+: l ∧ NoObs l

/-- A file in which each observation without a station code is after a line with its place; `At` says which place, as latitude,
    longitude and altitude, a line gives. -/
inductive Good (At : List Nat → ℚ × ℚ × ℚ → Prop) : Option (ℚ × ℚ × ℚ) → List (List Nat) → Prop
  | done (s) : Good At s []
  | place {s l p ls} : At l p → NoObs l → Good At (some p) ls → Good At s (l :: ls)
  | code {s r ls} : Good At s ls → Good At s ((bytes "COD XXX" ++ r) :: ls)
  | obs {p : ℚ × ℚ × ℚ} {o : Obs} {ls} : o.Ok → Fits p.1 p.2.1 p.2.2 → Good At (some p) ls → Good At (some p) (o.text o.note o.c o.x "XXX" :: ls)
  | other {s l ls} : Other l → Good At s ls → Good At s (l :: ls)

/-- A file and what is made of it. -/
inductive Converts (At : List Nat → ℚ × ℚ × ℚ → Prop) : Option (ℚ × ℚ × ℚ) → List (List Nat) → List Nat → Prop
  | done (s) : Converts At s [] []
  | place {s l p ls out} : At l p → Converts At (some p) ls out → Converts At s (l :: ls) (l ++ out)
  | code {s r ls out} : Converts At s ls out → Converts At s ((bytes "COD XXX" ++ r) :: ls) (bytes "COD 247" ++ r ++ out)
  | obs {p : ℚ × ℚ × ℚ} {o : Obs} {t ls out} : o.Ok → Columns p.1 p.2.1 p.2.2 t → Converts At (some p) ls out →
      Converts At (some p) (o.text o.note o.c o.x "XXX" :: ls) (o.text 86 o.c o.x "247" ++ o.text 118 t 32 "247" ++ out)
  | other {s l ls out} : Other l → Converts At s ls out → Converts At s (l :: ls) (l ++ out)

end Verif.Spec.Rover
