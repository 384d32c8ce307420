import Mathlib.Algebra.Order.Floor.Ring
import Mathlib.Algebra.Order.Field.Basic
import Verif.Model.Date

/-!
# Model of `split_timel` and `split_time`, /repo/get_time.cpp:39-68

`long double` is any ordered field with a floor function (no rounding errors).
-/

namespace Verif.Time

open Verif.Date

variable {K : Type} [Field K] [LinearOrder K] [IsStrictOrderedRing K] [FloorRing K]

/-- Conversion of a floating-point number to an integer type: towards zero. -/
def trunc (x : K) : Int := if 0 ≤ x then ⌊x⌋ else ⌈x⌉

/-- `split_timel` up to the call of `day_to_dmy`: the day number given to it, the hour, the minute, and the
    seconds. -/
def splitCore (t2k : K) : Int × Int × Int × K :=
  let t2k := t2k + 1 / 2
  let intT2k := ⌊t2k⌋
  let minutes : K := (t2k - intT2k) * 1440
  let min := trunc minutes
  let c := min = 1440
  let intT2k := if c then intT2k + 1 else intT2k
  let minutes := if c then 0 else minutes
  let min := if c then 0 else min
  let seconds := (minutes - min) * 60
  (intT2k + 2451545, min.tdiv 60, min.tmod 60, seconds)

/-- What `split_timel` gives: date, hour, minute, seconds.  A relation because `day_to_dmy` need not return. -/
def SplitTimel (t2k : K) (cal : Int) (date : Dmy) (hr min : Int) (sec : K) : Prop :=
  ∃ jd, splitCore t2k = (jd, hr, min, sec) ∧ dayToDmyReturns jd cal date

/-- `split_time`, which takes a Julian Date. -/
def SplitTime (jd : K) (cal : Int) (date : Dmy) (hr min : Int) (sec : K) : Prop :=
  SplitTimel (jd - 2451545) cal date hr min sec

end Verif.Time
