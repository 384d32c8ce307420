import Verif.Model.Ctime
import Verif.Model.Scan

/-!
# Model of `get_time_from_stringl`, /repo/get_time.cpp:70-892

`long double` is any ordered field with a floor function; `int` and `long` are unbounded.  Parameters (`Env`): the
name tables, what `split_timel` makes of a time, `find_nearest_lunar_phase_time`, and the clock.  `is_ut` is
always given; its final value is part of the result.  Only bytes below 128.
-/

namespace Verif.GetTime

open Verif Verif.Time Verif.Date Verif.Scan

/-- How a call ends; `hang` is an endless loop. -/
inductive Run (α : Type) where
  | ok (a : α)
  | abort
  | ub
  | hang
deriving DecidableEq, Repr

def Run.bind {α β : Type} (x : Run α) (f : α → Run β) : Run β :=
  match x with
  | .ok a => f a
  | .abort => .abort
  | .ub => .ub
  | .hang => .hang

/-- A time taken apart. -/
structure Moment (K : Type) where
  year : Int
  month : Int
  day : Int
  hour : Int
  minute : Int
  sec : K

/-- Everything the function uses besides its arguments. -/
structure Env (K : Type) where
  /-- `set_month_name( i, NULL)` -/
  months : Int → Option (List Nat)
  /-- `set_day_of_week_name( i, NULL)` -/
  days : Int → Option (List Nat)
  /-- `split_timel` with the calendar of the format -/
  split : K → Moment K
  /-- `find_nearest_lunar_phase_time` -/
  phase : Nat → K → K
  /-- `time( NULL)` -/
  now : Int

/-- `tolower`. -/
def toLower (c : Nat) : Nat := if isUpper c then c + 32 else c

/-! ## Reading the text into the buffer -/

/-- A blank goes between the bytes `a` and `b`, lines 438-440. -/
def splitHere (a b : Nat) : Bool :=
  ((isAlpha b && isDigit a) || (isDigit b && isAlpha a)) && b != 113 && b != 81

/-- The copy loop, lines 436-443: bytes written from index `i` on; `a` is the byte before. -/
def copyRest : Nat → Nat → List Nat → List Nat
  | _, _, [] => []
  | i, a, b :: s =>
    if i < 79 then
      if splitHere a b then 32 :: toLower b :: copyRest (i + 2) b s
      else toLower b :: copyRest (i + 1) b s
    else []

/-- Lines 434-444.  The NUL goes after the last byte: past the buffer if there are 80. -/
def normalise : List Nat → Run (List Nat)
  | [] => .ok []
  | c :: s =>
    let t := toLower c :: copyRest 1 c s
    if t.length ≥ 80 then .ub else .ok t

/-- `remove_trailing_spaces`, lines 182-190. -/
def trimEnd (s : List Nat) : List Nat := (s.reverse.dropWhile (· == 32)).reverse

/-- Leading blanks. -/
def trimStart (s : List Nat) : List Nat := s.dropWhile (· == 32)

/-! ## Offsets at the end -/

/-- The text before the last sign, and from the last sign on. -/
def lastSign : List Nat → Option (List Nat × List Nat)
  | [] => none
  | c :: s => match lastSign s with
    | some (a, b) => some (c :: a, b)
    | none => if c = 45 ∨ c = 43 then some ([], c :: s) else none

variable {K : Type} [Field K] [LinearOrder K] [IsStrictOrderedRing K] [FloorRing K]

/-- `scales` by `symbols`, lines 133-136. -/
def scales : List (Nat × K) :=
  [(115, 1 / 86400), (109, 1 / 1440), (104, 1 / 24), (100, 1), (119, 7), (108, 29530588853 / 1000000000),
   (121, 1461 / 4), (99, 36525)]

/-- `collect_time_offset`, lines 131-175: the offset returned and the text left in the buffer. -/
def collectOffset (s : List Nat) : K × List Nat :=
  if s.length > 1 then
    match (scales (K := K)).lookup (at? s (s.length - 1)), at? s (s.length - 2) with
    | some scale, 32 =>
      match lastSign s with
      | none => (0, s)
      | some (a, b) => match scanReal b with
        | none => (0, s)
        | some (v, r) => match skipSpace r with
          | [_] => (v * scale, trimEnd a)
          | _ => (v, s)
    | _, _ =>
      if at? s 0 = 45 ∨ at? s 0 = 43 then
        match scanReal s with
        | some (v, []) => (v, [])
        | _ => (0, s)
      else (0, s)
  else (0, s)

/-- The loop of lines 446-450; the sum of the offsets and the text left.  If an offset other than 0 is returned
    and the text is as before, the same happens for ever. -/
def offsets : Nat → K → List Nat → Run (K × List Nat)
  | 0, _, _ => .hang
  | n + 1, acc, s =>
    if s = [] then .ok (acc, s)
    else
      let r := collectOffset (K := K) s
      if r.1 = 0 then .ok (acc, r.2)
      else if r.2 = s then .hang
      else offsets n (acc + r.1) (trimEnd r.2)

/-! ## Era, phases, keywords -/

/-- `get_phase_idx`, lines 253-261, of the last two bytes. -/
def phaseIdx (a b : Nat) : Option Nat :=
  if a = 110 ∧ b = 109 then some 0
  else if a = 49 ∧ b = 113 then some 1
  else if a = 102 ∧ b = 109 then some 2
  else if a = 51 ∧ b = 113 then some 3
  else none

/-- `remove_substring`, lines 204-215. -/
def removeSub (sub : List Nat) : List Nat → Option (List Nat)
  | [] => none
  | c :: s => if sub.isPrefixOf (c :: s) then some ((c :: s).drop sub.length) else (removeSub sub s).map (c :: ·)

/-- `check_for_bc`, lines 224-237. -/
def checkBc (s : List Nat) : Bool × List Nat :=
  let s := (removeSub (bytes "ad") s).getD s
  let s := (removeSub (bytes "a.d.") s).getD s
  let (bc, s) := match removeSub (bytes "bc") s with
    | some t => (true, t)
    | none => match removeSub (bytes "b.c.") s with
      | some t => (true, t)
      | none => (false, s)
  (bc, trimEnd (trimStart s))

/-- State in the middle of the function. -/
structure St (K : Type) where
  rval : K
  str : List Nat
  flag : Int
  init : K

/-- `J`, `JD`, lines 469-476. -/
def kwJd (s : St K) : St K :=
  if at? s.str 0 = 106 then
    let str := if at? s.str 1 = 100 then s.str.drop 1 else s.str
    let rval := (strtold (str.drop 1)).1 - 2451545
    { s with str := str, rval := rval, flag := if rval ≠ -2451545 then 1 else s.flag }
  else s

/-- `y`, lines 478-479. -/
def kwYear (s : St K) : St K :=
  if at? s.str 0 = 121 then { s with rval := ((strtold (s.str.drop 1)).1 - 2000) * (1461 / 4) - 1 / 2 } else s

/-- `MJD`, lines 481-486. -/
def kwMjd (s : St K) : St K :=
  if (bytes "mjd").isPrefixOf s.str then
    { s with rval := (strtold (s.str.drop 3)).1 + 4800001 / 2 - 2451545, flag := 1 }
  else s

/-- `gps`, lines 488-499. -/
def kwGps (s : St K) : St K :=
  if (bytes "gps ").isPrefixOf s.str then
    if digitCount ((s.str.drop 4).take 5) = 5 then
      let w : Int := readDigits 0 ((s.str.drop 4).take 5)
      { s with rval := ((w.tdiv 10 * 7 + w.tmod 10 : Int) : K) + 4888489 / 2 - 2451545 }
    else s
  else s

/-- `unix`, lines 501-502. -/
def kwUnix (s : St K) : St K :=
  if (bytes "unix ").isPrefixOf s.str then
    { s with rval := (strtold (s.str.drop 5)).1 / 86400 + (4881175 / 2 - 2451545) }
  else s

/-- `now`, lines 504-510. -/
def kwNow (env : Env K) (s : St K) : St K :=
  if (bytes "now").isPrefixOf s.str then
    { s with str := trimStart (s.str.drop 3), init := 4881175 / 2 - 2451545 + (env.now : K) / 86400 }
  else s

/-- Lines 512-513. -/
def kwEmpty (s : St K) : St K := if s.str = [] then { s with rval := s.init } else s

/-- Lines 469-513. -/
def keywords (env : Env K) (s : St K) : St K :=
  kwEmpty (kwNow env (kwUnix (kwGps (kwMjd (kwYear (kwJd s))))))

/-! ## Date and time of day -/

/-- The European form, lines 523-526: dots become slashes. -/
def dots (s : List Nat) : List Nat :=
  match scanInt s with
  | some (_, 46 :: s1) => match scanInt s1 with
    | some (_, 46 :: s2) => match scanInt s2 with
      | some (_, s3) =>
        let n := s.length - s3.length
        (s.take n).map (fun c => if c = 46 then 47 else c) ++ s.drop n
      | none => s
    | _ => s
  | _ => s

/-- Lines 537-543: a FITS time. -/
def isFits (s : List Nat) : Bool :=
  s.length > 18 && at? s 11 == 116 && at? s 4 == 45 && at? s 7 == 45 && at? s 15 == 58

/-- `sscanf( str, "%ld-%d-%d", &year, &month, &iday)`, line 542. -/
def fitsDate (s : List Nat) (m : Moment K) : Moment K :=
  match scanInt s with
  | none => m
  | some (y, s) =>
    let m := { m with year := y }
    match s with
    | 45 :: s => match scanInt s with
      | none => m
      | some (mo, s) =>
        let m := { m with month := mo }
        match s with
        | 45 :: s => match scanInt s with
          | none => m
          | some (d, _) => { m with day := d }
        | _ => m
    | _ => m

/-- Lines 545-557: 0 unset, 1 a.m., 2 p.m.; and the text without it. -/
def amPm (s : List Nat) : Nat × List Nat :=
  match removeSub (bytes " am") s with
  | some t => (1, t)
  | none => match removeSub (bytes " a.m.") s with
    | some t => (1, t)
    | none => match removeSub (bytes " pm") s with
      | some t => (2, t)
      | none => match removeSub (bytes " p.m.") s with
        | some t => (2, t)
        | none => (0, s)

/-- Length of the end of the text without blanks and letters, lines 565-567. -/
def tailLen (s : List Nat) : Nat := (s.reverse.takeWhile (fun c => c != 32 && !isAlpha c)).length

/-- `sscanf( s, "%Lf:%Lf", &dminute, &sec)`: from 0 and 0. -/
def scanMinSec (s : List Nat) : K × K :=
  match scanReal s with
  | none => (0, 0)
  | some (m, 58 :: s) => match scanReal s with
    | none => (m, 0)
    | some (x, _) => (m, x)
  | some (m, _) => (m, 0)

/-- `sscanf( s, "%d:%Lf:%Lf", &hour, &dminute, &sec)`: from 0, 0 and 0. -/
def scanHms (s : List Nat) : Int × K × K :=
  match scanInt s with
  | none => (0, 0, 0)
  | some (h, 58 :: s) => (h, scanMinSec s)
  | some (h, _) => (h, 0, 0)

/-- Lines 569-600, given the end of the text: hour, minute and seconds. -/
def timeOfDay (ampm : Nat) (tail : List Nat) (m : Moment K) : Int × Int × K :=
  if tail = [58] then (m.hour, m.minute, m.sec)
  else if tail.contains 58 then
    if at? tail 0 ≠ 58 then
      let (h, dm, s) := scanHms (K := K) tail
      let h := if ampm = 1 ∧ h = 12 then 0 else h
      let h := if ampm = 2 ∧ h ≠ 12 then h + 12 else h
      (h, 0, s + dm * 60)
    else
      let (dm, s) := scanMinSec (K := K) (tail.drop 1)
      (m.hour, 0, s + dm * 60)
  else (0, 0, 0)

/-- The separators of line 606. -/
def isSep (c : Nat) : Bool := c == 45 || c == 58 || c == 47 || c == 32

/-- Lines 606-608: the first field, and the text from the separator on. -/
def firstField : List Nat → List Nat × List Nat
  | [] => ([], [])
  | c :: s => (c :: s.takeWhile (fun c => !isSep c), s.dropWhile (fun c => !isSep c))

/-- `memicmp( name, str, len) == 0` with `len` at most 3. -/
def nameMatches (name s : List Nat) : Bool := (name.take (min 3 s.length)).map toLower == (s.take 3).map toLower

/-- First index from `i` on, below `i + n`, whose name matches. -/
def nameIndex (names : Int → Option (List Nat)) (s : List Nat) : Int → Nat → Option Int
  | _, 0 => none
  | i, n + 1 => match names i with
    | some t => if nameMatches t s then some i else nameIndex names s (i + 1) n
    | none => nameIndex names s (i + 1) n

/-- `month_name_to_index`, lines 94-107; `none` for 0. -/
def monthIndex (env : Env K) (s : List Nat) : Option Int := nameIndex env.months s 1 13

/-- `day_of_week_name_to_index`, lines 109-121; `none` for -1. -/
def dowIndex (env : Env K) (s : List Nat) : Option Int := nameIndex env.days s 0 7

/-- The fields of a date, lines 618-675.  `month` and `day` are field numbers, 0 for not found. -/
structure Fields (K : Type) where
  vals : List K
  month : Nat
  day : Nat
  flag : Int

/-- One of the first two fields, lines 624-640 and 645-660: field number `k`, error flag `e`. -/
def readField (env : Env K) (k : Nat) (e : Int) (t : List Nat) (g : Fields K) : Fields K :=
  match monthIndex env t with
  | some m => { g with vals := g.vals ++ [(m : K)], month := k }
  | none =>
    let r := strtold (K := K) t
    { vals := g.vals ++ [r.1], month := g.month, day := if t.contains 46 then k else g.day,
      flag := if r.2 = t then e else g.flag }

/-- The third field, lines 662-690; `s` is the text after the second separator. -/
def thirdField (env : Env K) (s : List Nat) (g : Fields K) : Fields K :=
  match scanWord s with
  | none => g
  | some w => match monthIndex env w with
    | some m => { g with vals := g.vals ++ [(m : K)], month := 3 }
    | none =>
      let g := { g with flag := if (strtold (K := K) s).2 = s then -6 else g.flag }
      match scanReal (K := K) s with
      | none => g
      | some (_, 58 :: _) => g
      | some (v, _) => { g with vals := g.vals ++ [v], day := if w.contains 46 then 3 else g.day }

/-- Lines 618-690; `rest` is the text after the first separator. -/
def readFields (env : Env K) (symbol : Nat) (first rest : List Nat) (flag : Int) : Fields K :=
  let g := readField env 1 (-4) first ⟨[], 0, 0, flag⟩
  let second := rest.takeWhile (fun c => c != symbol && c != 32)
  let after := rest.dropWhile (fun c => c != symbol && c != 32)
  let g := readField env 2 (-5) second g
  if at? after 0 = symbol then thirdField env (after.drop 1) g else g

/-- Lines 694-702: `i` fields seen, year in field `y` with value `best`. -/
def findYear : Nat → List K → Nat → K → Nat
  | _, [], y, _ => y
  | i, v :: vs, y, best =>
    if v < 0 then i + 1
    else if v > 32 ∧ (y = 0 ∨ v > best) then findYear (i + 1) vs (i + 1) v
    else findYear (i + 1) vs y best

/-- Lines 704-707. -/
def findDay (maxMonth : K) (year : Nat) : Nat → List K → Nat → Nat
  | _, [], d => d
  | i, v :: vs, d =>
    findDay maxMonth year (i + 1) vs
      (if v > maxMonth + 1 / 10000 ∧ v < 32 ∧ i + 1 ≠ year then i + 1 else d)

/-- Year, month and day as read. -/
structure Ymd (K : Type) where
  year : Int
  month : Int
  dday : K

/-- Field number `k`. -/
def field (vals : List K) (k : Nat) : K := vals.getD (k - 1) 0

/-- Two fields, lines 709-744. -/
def twoFields (f : Fmt) (vals : List K) (month year day : Nat) (cur : Ymd K) : Ymd K :=
  if month ≠ 0 then
    let dval := field vals (3 - month)
    let cur := { cur with month := trunc (field vals month) }
    if dval > 999 / 1000 ∧ dval < 32 then { cur with dday := dval } else { cur with year := trunc dval }
  else if year ≠ 0 then ⟨trunc (field vals year), 1, field vals (3 - year)⟩
  else if day ≠ 0 then { cur with dday := field vals day, month := trunc (field vals (3 - day)) }
  else if f.monthDay then { cur with month := trunc (field vals 1), dday := (trunc (field vals 2) : K) }
  else { cur with month := trunc (field vals 2), dday := (trunc (field vals 1) : K) }

/-- The numbers of the fields holding year, month and day. -/
structure Roles where
  year : Nat
  month : Nat
  day : Nat
deriving DecidableEq, Repr

/-- Lines 749-782: the fields found so far, then those still missing. -/
def guess (f : Fmt) (r : Roles) : Roles :=
  if r.year = 0 then
    if r.month = 0 then
      if r.day = 0 then
        ⟨if f.yearFirst then 1 else 3, 0, (if f.yearFirst then 2 else 1) + (if f.monthDay then 1 else 0)⟩
      else if r.day = 2 then ⟨if f.yearFirst then 1 else 3, 0, 2⟩
      else ⟨4 - r.day, 0, r.day⟩
    else if r.day = 0 then
      if r.month = 2 then ⟨if f.yearFirst then 1 else 3, 2, 0⟩ else ⟨4 - r.month, r.month, 0⟩
    else r
  else if r.month = 0 ∧ r.day = 0 then
    if f.monthDay then ⟨r.year, if r.year = 1 then 2 else 1, 0⟩ else ⟨r.year, 0, if r.year = 1 then 2 else 1⟩
  else r

/-- Lines 786-789. -/
def fill (r : Roles) : Roles :=
  if r.day = 0 then { r with day := 6 - r.year - r.month }
  else if r.month = 0 then { r with month := 6 - r.year - r.day }
  else r

/-- Three fields, lines 745-796. -/
def threeFields (f : Fmt) (vals : List K) (r : Roles) : Run (Ymd K) :=
  let r := fill (guess f r)
  if ¬ (0 < r.year ∧ r.year < 4) then .abort
  else if ¬ (0 < r.month ∧ r.month < 4) then .abort
  else if ¬ (0 < r.day ∧ r.day < 4) then .abort
  else .ok ⟨⌊field vals r.year + 1 / 2⌋, trunc (field vals r.month + 1 / 2), field vals r.day⟩

/-- `while( year < limit) year += 100`, line 804. -/
def addCenturies : Nat → Int → Int → Int
  | 0, _, year => year
  | n + 1, limit, year => if year < limit then addCenturies n limit (year + 100) else year

/-- Two-digit years, lines 798-806. -/
def twoDigit (env : Env K) (f : Fmt) (bc : Bool) (year : Int) : Int :=
  if year > 0 ∧ year < 100 ∧ bc = false ∧ f.twoDigitYear then
    let limit := 1970 + env.now.tdiv 31557600 - 60
    addCenturies (limit - (year + 1900)).toNat limit (year + 1900)
  else year

/-- Months in a year, lines 404-407. -/
def maxMonth (f : Fmt) : K := if f.calendar = HEBREW ∨ f.calendar = CHINESE then 13 else 12

/-- A date with separators, lines 614-808. -/
def separated (env : Env K) (f : Fmt) (bc : Bool) (g : Fields K) (cur : Ymd K) : Run (Ymd K) :=
  let year := findYear 0 g.vals 0 0
  let day := if year ≠ 0 ∨ g.vals.length = 2 then findDay (maxMonth f) year 0 g.vals g.day else g.day
  (if g.vals.length = 2 then .ok (twoFields f g.vals g.month year day cur)
   else threeFields f g.vals ⟨year, g.month, day⟩).bind fun d =>
  .ok { d with year := twoDigit env f bc d.year }

/-- What a text without separators does: new date, final time, or error. -/
inductive Lone (K : Type) where
  | date (d : Ymd K)
  | time (t : K) (flag : Option Int)
  | error

/-- A number without separators, lines 826-868. -/
def loneNumber (s : List Nat) (cur : Ymd K) : Lone K :=
  match scanInt s with
  | none => .error
  | some (ival, r) =>
    let n := s.length - r.length
    let frac : K := if at? r 0 = 46 then (match scanReal (K := K) r with | some (v, _) => v | none => 0) else 0
    let tval : K := frac + (ival : K)
    if n = 1 ∨ n = 2 then .date { cur with dday := tval }
    else if n = 3 then .date { cur with dday := tval, month := 1 }
    else if n = 4 ∨ n = 5 then
      if (ival : K) = tval then .date ⟨ival, 1, 1⟩ else .time ((tval - 2000) * (1461 / 4) - 1 / 2) none
    else if n = 7 then .time (tval - 2451545) (some 1)
    else if n = 6 ∨ n = 8 then
      let y := ival.tdiv 10000
      let y := if n = 6 then y + (if y < 40 then 2000 else 1900) else y
      .date ⟨y, (ival.tdiv 100).tmod 100, ((ival.tmod 100 : Int) : K) + (tval - (ival : K))⟩
    else .date cur

/-- The nearest such weekday, lines 817-824. -/
def weekday (init : K) (dow : Int) : Int :=
  let v := dow - (trunc (init + 13 / 2)).tmod 7
  if v < -3 then v + 7 else if v > 3 then v - 7 else v

/-- A text without separators, lines 809-874. -/
def lone (env : Env K) (init : K) (s : List Nat) (cur : Ymd K) : Lone K :=
  if s = [] then .date cur
  else match monthIndex env s with
    | some m => .date { cur with month := m }
    | none => match dowIndex env s with
      | some w => .date { cur with dday := cur.dday + (weekday init w : K) }
      | none => loneNumber s cur

/-- Lines 883-891. -/
def finish (f : Fmt) (bc : Bool) (d : Ymd K) (hour minute : Int) (sec offset : K) : Run K :=
  let year := if bc then 1 - d.year else d.year
  let iday := trunc d.dday
  match dmyToDay iday d.month year f.calendar with
  | none => .ub
  | some z => .ok (((z - 2451545 : Int) : K) + (d.dday - iday) - 1 / 2 + ((hour * 60 + minute : Int) : K) / 1440
      + sec / 86400 + offset)

/-- Lines 602-892, except for a FITS time: `str` is the date without the time of day. -/
def dateOnly (env : Env K) (f : Fmt) (bc : Bool) (offset : K) (init : K) (flag : Int) (cur : Ymd K) (str : List Nat)
    (hour minute : Int) (sec : K) : Run (K × Int) :=
  let done (d : Ymd K) (flag : Int) : Run (K × Int) :=
    (finish f bc d hour minute sec offset).bind fun t => .ok (t, flag)
  let (first, after) := firstField str
  let symbol := at? after 0
  if symbol = 58 then done cur flag
  else if symbol = 45 ∨ symbol = 32 ∨ symbol = 47 then
    let g := readFields env symbol first (after.drop 1) flag
    (separated env f bc g cur).bind fun d => done d g.flag
  else match lone env init str cur with
    | .date d => done d flag
    | .time t flag' => .ok (t + offset, flag'.getD flag)
    | .error => .ok (init, -2)

/-- Lines 523-892: the text is not a keyword form. -/
def dateAndTime (env : Env K) (f : Fmt) (bc : Bool) (offset : K) (s : St K) : Run (K × Int) :=
  let str := dots s.str
  let m := env.split s.init
  let fits := isFits str
  let m := if fits then fitsDate str m else m
  let (ampm, str) := if str.length ≥ 4 then amPm str else (0, str)
  let i := str.length - tailLen str
  let tail := str.drop i
  let (hour, minute, sec) := timeOfDay ampm tail m
  let str := if tail.contains 58 then str.take (i - 1) else str
  let cur : Ymd K := ⟨m.year, m.month, m.day⟩
  if fits then (finish f bc cur hour minute sec offset).bind fun t => .ok (t, s.flag)
  else dateOnly env f bc offset s.init s.flag cur str hour minute sec

/-- `get_time_from_stringl`: the time and `*is_ut`.  The first argument bounds the calls for lunar phases. -/
def getTime (env : Env K) (f : Fmt) : Nat → K → List Nat → Run (K × Int)
  | 0, _, _ => .hang
  | n + 1, init, text =>
    let text := trimStart text
    if text.length ≥ 80 ∨ text = [] then .ok (init, -3)
    else
      (normalise text).bind fun str =>
      (offsets (str.length + 1) 0 (trimEnd str)).bind fun (offset, str) =>
      match (if str.length > 1 then phaseIdx (at? str (str.length - 2)) (at? str (str.length - 1)) else none) with
      | some k =>
        (getTime env f n init (str.take (str.length - 2))).bind fun (rval, _) =>
        .ok (env.phase k rval + offset, if rval ≠ -2451545 then 1 else 0)
      | none =>
        let (bc, str) := checkBc str
        let s := keywords env ⟨-2451545, str, 0, init⟩
        if s.rval ≠ -2451545 then .ok (s.rval + offset, s.flag)
        else dateAndTime env f bc offset s

/-- `get_time_from_stringl`. -/
def getTimeFromString (env : Env K) (f : Fmt) (init : K) (text : List Nat) : Run (K × Int) := getTime env f 80 init text

end Verif.GetTime
