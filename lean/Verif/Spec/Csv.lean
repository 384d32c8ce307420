import Verif.Model.Bytes

/-!
# Specification: tables with commas
-/

namespace Verif.CsvSpec

/-- Fields joined by commas, with the end of the line. -/
def line : List (List Nat) → List Nat
  | [] => [10]
  | [x] => x ++ [10]
  | x :: y :: r => x ++ 44 :: line (y :: r)

/-- The first column with this property. -/
def First (p : List Nat → Prop) (cols : List (List Nat)) (j : Nat) : Prop :=
  (∃ x, cols[j]? = some x ∧ p x) ∧ ∀ i, i < j → ∀ x, cols[i]? = some x → ¬ p x

end Verif.CsvSpec
