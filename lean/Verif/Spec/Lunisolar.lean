import Verif.Spec.Decimal
import Mathlib.Data.List.Forall2

/-!
# Specification: the Chinese calendar from new moons and principal terms

A *sui* runs from one winter solstice to the next.  The solstice is always in month 11.  If thirteen new moons are in a sui, the first of
their months without a principal term is a leap month, which has the number of the month before it.
-/

namespace Verif.Spec.Lunisolar

/-- What a line of the log tells of. -/
inductive Event where
  | term
  | moon (day : Int)
deriving DecidableEq

/-- Is it a new moon? -/
def Event.isMoon : Event → Bool
  | .term => false
  | .moon _ => true

/-- A sui: the year in which its solstice is, and what happens after the solstice. -/
structure Sui where
  year : Int
  events : List Event

/-- Eleven more principal terms, and twelve or thirteen new moons. -/
def Sui.Valid (s : Sui) : Prop :=
  (s.events.filter (fun e => !e.isMoon)).length = 11 ∧ ((s.events.filter Event.isMoon).length = 12 ∨ (s.events.filter Event.isMoon).length = 13)

/-- A month: the year it is in, its number, whether it is a leap month, and its first day. -/
structure Month where
  year : Int
  number : Nat
  leap : Bool
  day : Int
deriving DecidableEq

/-- The month so many (not leap) months after the one with the solstice. -/
def nth (year : Int) (k : Nat) (leap : Bool) (day : Int) : Month :=
  if k = 0 then ⟨year, 11, leap, day⟩ else if k = 1 then ⟨year, 12, leap, day⟩ else ⟨year + 1, k - 1, leap, day⟩

/-- The months that begin in a sui: `k` not leap have begun, and a leap month if `seen`. -/
def months (thirteen : Bool) (year : Int) : Nat → Bool → List Event → List Month
  | _, _, [] => []
  | k, seen, .term :: es => months thirteen year k seen es
  | k, seen, .moon d :: es =>
    if thirteen && !seen && (es.head?.map Event.isMoon).getD false then nth year k true d :: months thirteen year k true es
    else nth year (k + 1) false d :: months thirteen year (k + 1) seen es

/-- The months that begin in a sui. -/
def Sui.months (s : Sui) : List Month := Lunisolar.months ((s.events.filter Event.isMoon).length = 13) s.year 0 false s.events

/-- The days from each month's first to the next one's; `last` is the day after the last of them. -/
def lengths (last : Int) : List Month → List Int
  | [] => []
  | [m] => [last - m.day]
  | m :: m' :: ms => (m'.day - m.day) :: lengths last (m' :: ms)

/-! ## The log -/

/-- A text begins with an integer. -/
def Number (l : List Nat) (v : Int) : Prop :=
  ∃ (k : Nat) (neg : Bool) (ds rest : List Nat), l = List.replicate k 32 ++ ((if neg then [45] else []) ++ (ds ++ rest)) ∧ ds ≠ [] ∧ AllDigits ds ∧
    (∀ c, rest.head? = some c → c < 48 ∨ 57 < c) ∧ v = if neg then -(value ds : Int) else value ds

/-- `11` in columns 33 and 34 is a winter solstice's mark. -/
def Mark (l : List Nat) : Prop := l[33]? = some 49 ∧ l[34]? = some 49

/-- The line of a winter solstice, with the year in column 35. -/
def SolsticeText (l : List Nat) (year : Int) : Prop := l[8]? = some 122 ∧ Mark l ∧ Number (l.drop 35) year

/-- The line of anything else: `z` in column 8 is a principal term, and a blank a new moon. -/
def EventText (l : List Nat) : Event → Prop
  | .term => l[8]? = some 122 ∧ ¬ Mark l
  | .moon d => l[8]? = some 32 ∧ ¬ Mark l ∧ Number l d

/-- Lines of years before -999 have one more byte before the time, with its colon in column 26. -/
def Line (P : List Nat → Prop) (l : List Nat) : Prop :=
  (l[26]? ≠ some 58 ∧ P l) ∨ ∃ a b c, l = a ++ b :: c ∧ a.length = 17 ∧ l[26]? = some 58 ∧ P (a ++ c)

/-- The lines of a sui. -/
def SuiLines (s : Sui) (ls : List (List Nat)) : Prop :=
  ∃ l more, ls = l :: more ∧ Line (SolsticeText · s.year) l ∧ List.Forall₂ (fun x e => Line (EventText · e) x) more s.events

end Verif.Spec.Lunisolar
