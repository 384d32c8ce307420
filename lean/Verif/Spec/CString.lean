/-!
# Specification: strings in memory
-/

namespace Verif.Spec

/-- `s` is a possible C string: no byte is NUL. -/
def NoNul (s : List Nat) : Prop := ∀ c ∈ s, c ≠ 0

/-- Memory `m` holds at `p` the string `s`, terminated. -/
def Holds (m : Nat → Nat) (p : Nat) (s : List Nat) : Prop :=
  (∀ i, i < s.length → m (p + i) = s.getD i 0) ∧ m (p + s.length) = 0

/-- `m'` differs from `m` at most on the `n` bytes from `p`. -/
def Only (m m' : Nat → Nat) (p n : Nat) : Prop := ∀ a, a < p ∨ p + n ≤ a → m' a = m a

end Verif.Spec
