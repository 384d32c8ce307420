import Mathlib.Tactic.Ring
import Verif.Lemmas.Decimal

/-!
# More on digit strings
-/

namespace Verif.Spec

open Verif

theorem value_append (s t : List Nat) : value (s ++ t) = value s * 10 ^ t.length + value t := by
  induction t using List.reverseRecOn with
  | nil => simp [value]
  | append_singleton t c ih =>
    rw [← List.append_assoc, value_snoc, value_snoc, ih]
    simp only [List.length_append, List.length_singleton, pow_succ]
    ring

theorem value_cons (c : Nat) (s : List Nat) : value (c :: s) = (c - 48) * 10 ^ s.length + value s := by
  rw [show c :: s = [c] ++ s from rfl, value_append]
  simp [value]

end Verif.Spec
