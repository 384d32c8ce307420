import Verif.Spec.MpcLine

/-!
# Specification: values in ADES observations

How ADES writes times and angles, and which columns of an 80-column line belong to which element.
-/

namespace Verif.Spec

/-- `yyyy-mm-ddThh:nn:ss.sssZ`, with `p` decimals that read `v`. -/
inductive AdesTime : List Nat → Nat → Nat → Nat → Nat → Nat → Nat → Nat → Nat → Prop
  | mk {d m y hour minute second p v : Nat} {yyyy mm dd hh nn ss f : List Nat} : Padded 4 y yyyy → Padded 2 m mm → Padded 2 d dd →
      Padded 2 hour hh → Padded 2 minute nn → Padded 2 second ss → Decimals p v f →
      AdesTime (yyyy ++ 45 :: (mm ++ 45 :: (dd ++ 84 :: (hh ++ 58 :: (nn ++ 58 :: (ss ++ (f ++ [90]))))))) d m y hour minute second p v

/-- Degrees and decimals, without a sign: up to `k` digits, a point, `p` digits. -/
inductive AdesDegrees (k : Nat) : List Nat → Nat → Nat → Nat → Prop
  | mk {w z p v : Nat} {a f : List Nat} : 1 ≤ w → w ≤ k → Padded w z a → Padded p v f → AdesDegrees k (a ++ 46 :: f) z p v

/-- The elements that have columns of their own in an 80-column line, with the first and the last of these, counted from 1 as in
    the documentation. -/
def columnsOf : List (String × Nat × Nat) := [
  ("permID", 1, 12), ("provID", 1, 12), ("artSat", 1, 12), ("trkSub", 1, 12), ("disc", 13, 13), ("prog", 14, 14), ("notes", 14, 14),
  ("mode", 15, 15), ("deprecated", 15, 15), ("sys", 15, 15), ("obsTime", 16, 32), ("ra", 33, 44), ("dec", 45, 57), ("mag", 66, 70),
  ("band", 71, 71), ("astCat", 72, 72), ("ref", 73, 77), ("stn", 78, 80)]

/-- Whether column `i`, counted from 1, belongs to the element. -/
def OwnColumn (name : String) (i : Nat) : Prop := ∃ e ∈ columnsOf, e.1 = name ∧ e.2.1 ≤ i ∧ i ≤ e.2.2

/-! ## Lines of values separated by bars (PSV) -/

/-- A field: blanks, a value, blanks. -/
structure PsvCell where
  before : Nat
  value : List Nat
  after : Nat

/-- Its text. -/
def PsvCell.text (x : PsvCell) : List Nat := List.replicate x.before 32 ++ (x.value ++ List.replicate x.after 32)

/-- The value is printable, has no bar, and neither begins nor ends with a blank. -/
structure PsvCell.Ok (x : PsvCell) : Prop where
  printable : ∀ c ∈ x.value, 32 ≤ c ∧ c < 128 ∧ c ≠ 124
  first : x.value.head? ≠ some 32
  last : x.value.getLast? ≠ some 32

/-- A line: the fields, with bars between them. -/
def psvRow : List PsvCell → List Nat
  | [] => []
  | [x] => x.text
  | x :: y :: r => x.text ++ 124 :: psvRow (y :: r)

end Verif.Spec
