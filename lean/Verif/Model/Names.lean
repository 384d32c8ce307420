/-!
# Model of the month and weekday name tables in /repo/date.cpp

The tables hold `const char *` pointers supplied by the caller.  Here a pointer is identified with
the string it points to (the caller must keep that string alive and unchanged).
-/

namespace Verif.Names

/-- The two static tables, /repo/date.cpp:119-126.  `none` is a NULL pointer. -/
structure State where
  months : List (Option String)
  days : List (Option String)
deriving DecidableEq

/-- Initial contents, /repo/date.cpp:119-126. -/
def State.init : State where
  months := [some "Jan", some "Feb", some "Mar", some "Apr", some "May", some "Jun", some "Jul",
    some "Aug", some "Sep", some "Oct", some "Nov", some "Dec", none]
  days := [some "Sun", some "Mon", some "Tue", some "Wed", some "Thu", some "Fri", some "Sat"]

/-- `set_month_name`, /repo/date.cpp:128-134.  `none` result: the assertion fails (the program
    stops); otherwise the new tables and the pointer returned. -/
def setMonthName (month : Int) (newName : Option String) (st : State) : Option (State × Option String) :=
  if month ≥ 1 ∧ month ≤ 13 then
    let st' := if newName.isSome then { st with months := st.months.set (month - 1).toNat newName } else st
    some (st', st'.months.getD (month - 1).toNat none)
  else none

/-- `set_day_of_week_name`, /repo/date.cpp:136-143. -/
def setDayOfWeekName (dow : Int) (newName : Option String) (st : State) : Option (State × Option String) :=
  if dow ≥ 0 ∧ dow < 7 then
    let st' := if newName.isSome then { st with days := st.days.set dow.toNat newName } else st
    some (st', st'.days.getD dow.toNat none)
  else none

/-- A call to one of the two functions. -/
inductive Call where
  | month (slot : Int) (name : Option String)
  | day (slot : Int) (name : Option String)

def step : Call → State → Option (State × Option String)
  | .month s n, st => setMonthName s n st
  | .day s n, st => setDayOfWeekName s n st

/-- A program making a sequence of calls: final tables, or `none` if an assertion failed. -/
def run : List Call → State → Option State
  | [], st => some st
  | c :: cs, st => match step c st with
    | none => none
    | some (st', _) => run cs st'

end Verif.Names
