import Verif.Model.Bytes

/-!
# Calendars in which the beginning of the year drifts evenly
-/

namespace Verif.Spec.Drift

/-- The day at which a year begins: 365 days in each, and `num` more in `den` years. -/
def begins (num den off zero year : Int) : Int := zero + 365 * year + (num * year + off).tdiv den

/-- The years from `y1` on begin on these days. -/
def Matches (num den off zero y1 : Int) (days : List Int) : Prop := ∀ (k : Nat) (d : Int), days[k]? = some d → d = begins num den off zero (y1 + k)

/-- Counted from the right day of the first year, the year `y` is the first that begins on another day. -/
def FirstMiss (num den off y1 : Int) (days : List Int) (y : Int) : Prop :=
  ∃ (zero first : Int) (j : Nat) (d : Int), days[0]? = some first ∧ first = begins num den off zero y1 ∧ y = y1 + j ∧ days[j]? = some d ∧
    d ≠ begins num den off zero y ∧ Matches num den off zero y1 (days.take j)

end Verif.Spec.Drift
