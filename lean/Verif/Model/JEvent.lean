import Mathlib.Data.Rat.Defs
import Mathlib.Algebra.Order.Ring.Unbundled.Rat
import Mathlib.Logic.Equiv.Basic

/-!
# Model of sorting and hiding the events of Jupiter's satellites, /repo/jevent.cpp:183-229

An array is a function of the index; `t` is a rational number.  Indices and gaps do not overflow, except that `j -= gap + gap`
may wrap around; the `j += gap` after it wraps back.  A loop that may not end gets `fuel`; `none` means that it is used up.
-/

namespace Verif.JEvent

/-- `EVENT`, lines 47-51. -/
structure Event where
  t : ℚ
  sat : Nat
  type : Nat

/-- The elements `i` and `k` exchanged, lines 199-201. -/
def exchange (e : Nat → Event) (i k : Nat) : Nat → Event := fun j => e (Equiv.swap i k j)

/-- The loop over `j`, lines 194-204. -/
def inner (gap n : Nat) : Nat → Nat → (Nat → Event) → Option (Nat → Event)
  | 0, _, _ => none
  | fuel + 1, j, e =>
    if j + gap < n then
      if (e (j + gap)).t < (e j).t then inner gap n fuel (if gap ≤ j then j - gap else j + gap) (exchange e (j + gap) j)
      else inner gap n fuel (j + gap) e
    else some e

/-- The loop over `i`, lines 193-204: `m` values, the last of them `i + m - 1`. -/
def middle (fuel gap n : Nat) : Nat → Nat → (Nat → Event) → Option (Nat → Event)
  | 0, _, e => some e
  | m + 1, i, e => (inner gap n fuel i e).bind (middle fuel gap n m (i + 1))

/-- The first gap, lines 185-188. -/
def grow (n gap : Nat) : Nat := if gap < n then grow n (gap * 8 / 3 + 1) else gap
termination_by n - gap
decreasing_by omega

/-- The loop over the gaps, lines 189-205. -/
def gaps (fuel n gap : Nat) (e : Nat → Event) : Option (Nat → Event) :=
  if gap * 3 / 8 = 0 then some e else (middle fuel (gap * 3 / 8) n (gap * 3 / 8) 0 e).bind (gaps fuel n (gap * 3 / 8))
termination_by gap
decreasing_by omega

/-- `_sort_events`, lines 183-206. -/
def sort (fuel n : Nat) (e : Nat → Event) : Option (Nat → Event) := gaps fuel n (grow n 250104703) e

/-- `event_type |= EVENT_UNSEEN`, line 225. -/
def unseen (e : Nat → Event) (j : Nat) : Nat → Event := fun k => if k = j then { e j with type := (e j).type ||| 8 } else e k

/-- The loop to the end of the eclipse, lines 223-227: `m` events from `j` on. -/
def hide (type : Nat) : Nat → Nat → (Nat → Event) → Nat → Event
  | 0, _, e => e
  | m + 1, j, e => if ((e j).type ^^^ type) &&& 7 ≠ 4 then hide type m (j + 1) (unseen e j) else e

/-- The loop over the starts, lines 218-228: `m` events from `i` on, the last of the `n` excepted. -/
def starts (n : Nat) : Nat → Nat → (Nat → Event) → Nat → Event
  | 0, _, e => e
  | m + 1, i, e =>
    starts n m (i + 1) (if (e i).type &&& 1 = 0 ∧ (e i).type &&& 4 ≠ 0 then hide (e i).type (n - (i + 1)) (i + 1) e else e)

/-- `_mark_hidden_events`, lines 213-229. -/
def mark (fuel n : Nat) (e : Nat → Event) : Option (Nat → Event) := (sort fuel n e).bind fun e => some (starts n (n - 1) 0 e)

end Verif.JEvent
