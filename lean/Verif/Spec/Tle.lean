import Verif.Spec.Decimal
import Verif.Model.Bytes
import Mathlib.Data.Rat.Defs

/-!
# Files with a TLE for each day
-/

namespace Verif.Spec.Tle

open Verif

/-- The line begins with this text. -/
def Begins (p : String) (l : List Nat) : Prop := ∃ r, l = bytes p ++ r

/-- Lines before the TLEs. -/
def Header (ls : List (List Nat)) : Prop := ∀ l ∈ ls, ¬Begins "# MJD " l

/-- A TLE: a line with the day, and three others, which are not comments. -/
structure Block where
  day : ℚ
  head : List Nat
  a : List Nat
  b : List Nat
  c : List Nat

/-- A number with decimals. -/
def NumText (t : List Nat) (x : ℚ) : Prop :=
  ∃ ds fs : List Nat, AllDigits ds ∧ ds ≠ [] ∧ AllDigits fs ∧ t = ds ++ 46 :: fs ∧ x = (value ds : ℚ) + (value fs : ℚ) / 10 ^ fs.length

def Block.Valid (k : Block) : Prop :=
  (∃ t r, NumText t k.day ∧ k.head = bytes "# MJD " ++ t ++ r ∧ (r = [] ∨ r.head? = some 32 ∨ r.head? = some 10)) ∧
    ∀ l ∈ [k.a, k.b, k.c], l.head? ≠ some 35

def Block.lines (k : Block) : List (List Nat) := [k.head, k.a, k.b, k.c]

def lines (ks : List Block) : List (List Nat) := ks.flatMap Block.lines

/-- The line with the first and last day. -/
def RangeText (l : List Nat) (first last : ℚ) : Prop :=
  ∃ s t r, NumText s first ∧ NumText t last ∧ l = bytes "# Ephem range: " ++ s ++ 32 :: t ++ 32 :: r

/-- One TLE a day, from day `d` on. -/
def Daily (d : ℚ) (ks : List Block) : Prop := ∀ (i : Nat) (k : Block), ks[i]? = some k → k.day = d + i

/-- A line of the header after an update: the range keeps its first day and has a new end; the last date and the time of the
    update are replaced. -/
inductive Updated (endText newEnd now : List Nat) : List Nat → List Nat → Prop
  | range (l : List Nat) (h : Begins "# Ephem range:" l) (hl : 28 ≤ l.length) : Updated endText newEnd now l (l.take 28 ++ endText)
  | last (l : List Nat) (h : Begins "# Ephemeris end:" l) : Updated endText newEnd now l newEnd
  | time (l : List Nat) (h : Begins "# Last updated with" l) (hl : 42 ≤ l.length) : Updated endText newEnd now l (l.take 42 ++ now)
  | same (l : List Nat) (h1 : ¬Begins "# Ephem range:" l) (h2 : ¬Begins "# Ephemeris end:" l) (h3 : ¬Begins "# Last updated with" l) :
      Updated endText newEnd now l l

end Verif.Spec.Tle
