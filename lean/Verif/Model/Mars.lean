import Mathlib.Algebra.Field.Basic

/-!
# Model of /repo/marstime.cpp, in exact arithmetic
-/

namespace Verif.Mars

variable {K : Type} [Field K]

/-- `days_per_sol`, /repo/marstime.cpp:46. -/
def daysPerSol : K := 10274912517 / 10000000000
/-- `zero_sol_point`, /repo/marstime.cpp:47. -/
def zeroSol : K := 44796 - 9626 / 10000000
/-- `zero_jd_point`, /repo/marstime.cpp:48. -/
def zeroJd : K := 24515495 / 10

/-- `tt_to_mtc`, /repo/marstime.cpp:55-59. -/
def ttToMtc (jd : K) : K := (jd - zeroJd) / daysPerSol + zeroSol

/-- `mtc_to_tt`, /repo/marstime.cpp:61-65. -/
def mtcToTt (mtc : K) : K := (mtc - zeroSol) * daysPerSol + zeroJd

/-- The loop of `mtst_at_airy_to_tt`, /repo/marstime.cpp:142-148, for any equation of time. -/
def airyLoop (eqnOfTime : K → K) (approxTt : K) : Nat → K → K
  | 0, rval => rval
  | iter + 1, rval => airyLoop eqnOfTime approxTt iter (approxTt - eqnOfTime rval * daysPerSol)

/-- `mtst_at_airy_to_tt`, /repo/marstime.cpp:136-151. -/
def mtstAtAiryToTt (eqnOfTime : K → K) (mtst : K) : K := airyLoop eqnOfTime (mtcToTt mtst) 2 (mtcToTt mtst)

end Verif.Mars
