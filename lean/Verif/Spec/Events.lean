import Verif.Model.JEvent

/-!
# Sorted events, and those that cannot be seen
-/

namespace Verif.Spec.Events

open Verif.JEvent

/-- The first `n` elements in some other order; the others as they were. -/
def Rearranged (n : Nat) (e e' : Nat → Event) : Prop := ∃ p : Equiv.Perm Nat, (∀ k, n ≤ k → p k = k) ∧ ∀ k, e' k = e (p k)

/-- In the order of time. -/
def InOrder (n : Nat) (e : Nat → Event) : Prop := ∀ k l, k < l → l < n → (e k).t ≤ (e l).t

/-- The start of an occultation or eclipse: not in front of the planet, and a start. -/
def Behind (e : Event) : Prop := e.type.testBit 0 = false ∧ e.type.testBit 2 = true

/-- `b` is the end of what `a` is the start of. -/
def Ends (a b : Event) : Prop :=
  a.type.testBit 0 = b.type.testBit 0 ∧ a.type.testBit 1 = b.type.testBit 1 ∧ a.type.testBit 2 ≠ b.type.testBit 2

/-- An occultation or eclipse has begun before event `j`, and has not ended at it. -/
def Hidden (e : Nat → Event) (j : Nat) : Prop := ∃ i, i < j ∧ Behind (e i) ∧ ∀ k, i < k → k ≤ j → ¬Ends (e i) (e k)

end Verif.Spec.Events
