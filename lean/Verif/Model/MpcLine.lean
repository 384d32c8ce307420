import Mathlib.Algebra.Order.Ring.Rat
import Mathlib.Data.Rat.Floor
import Verif.Model.Date
import Verif.Model.MutantHex
import Verif.Model.Scan
import Verif.Model.TimeSplit

/-!
# Model of the reading of 80-column MPC observations, /repo/mpc_fmt.cpp:39-464, and of `quick_strtod`,
/repo/mpc_code.cpp:217-263

Numbers are rational (no rounding errors).  `char` is signed; `isdigit` of a byte above 127 is taken as false.
-/

namespace Verif.MpcLine

open Verif Verif.Date

/-- The value of a `char`. -/
def sbyte (c : Nat) : Int := if c < 128 then c else (c : Int) - 256

/-- Largest `int`. -/
def INT_MAX : Nat := 2 ^ 31 - 1

/-! ## `quick_strtod` -/

/-- Number of blanks skipped, /repo/mpc_code.cpp:225-226. -/
def skipBlanks : List Nat → List Nat
  | 32 :: s => skipBlanks s
  | s => s

/-- `quick_strtod`, /repo/mpc_code.cpp:217-258: the value and `*endptr`.  `ub`: an `int` overflows
    (`frac_part` is always less than `divisor`). -/
def quickStrtod (ibuff : List Nat) : Outcome (ℚ × List Nat) :=
  let t := skipBlanks ibuff
  let neg := at? t 0 = 45
  let t := if at? t 0 = 45 ∨ at? t 0 = 43 then t.drop 1 else t
  let a := digitCount t
  let int := readDigits 0 t
  if int > INT_MAX then .ub
  else
    let r := t.drop a
    if at? r 0 ≠ 46 then .ok (if neg then -(int : ℚ) else int, r)
    else
      let r := r.drop 1
      let b := digitCount r
      if b = 0 ∧ a = 0 then .ok (0, ibuff)
      else if 10 ^ b > INT_MAX then .ub
      else
        let v : ℚ := int + (readDigits 0 r : ℚ) / 10 ^ b
        .ok (if neg then -v else v, r.drop b)

/-- `quick_atof`, /repo/mpc_code.cpp:260-263. -/
def quickAtof (ibuff : List Nat) : Outcome ℚ := (quickStrtod ibuff).bind fun r => .ok r.1

/-! ## Dates -/

/-- `is_valid_mpc_code`, /repo/mpc_fmt.cpp:39-47. -/
def isValidMpcCode (s : List Nat) : Bool :=
  (List.range 3).all fun i => 32 < at? s i && at? s i ≤ 122

/-- `get_two_digits`, /repo/mpc_fmt.cpp:60-63, at position `i`. -/
def getTwoDigits (t : List Nat) (i : Nat) : Int := sbyte (at? t i) * 10 + sbyte (at? t (i + 1)) - 48 * 11

/-- Test of some bits of `digits_mask`: those in `yes` must be set, those in `no` must not. -/
def mask (m : Nat → Bool) (yes no : List Nat) : Bool := yes.all m && no.all fun i => !m i

/-- `digits_mask`, lines 181-183, as a function on the bit numbers. -/
def digitsMask (t : List Nat) : Nat → Bool := fun i => isDigit (at? t i)

/-- Whether a zero is missing before the month or the day, lines 185-187. -/
def zeroMissing (t : List Nat) : Bool :=
  !mask (digitsMask t) [0, 1, 2, 3, 5, 6, 8, 9] [4, 7] && mask (digitsMask t) [0, 1, 2, 3, 6, 9] [4, 7]
    && at? t 7 == 32 && at? t 10 == 46

/-- `tbuff` after lines 185-194. -/
def fillZeroes (t : List Nat) : List Nat :=
  if zeroMissing t then
    let t := if at? t 5 = 32 then t.set 5 48 else t
    if at? t 8 = 32 then t.set 8 48 else t
  else t

/-- `digits_mask` after lines 185-194. -/
def fillMask (t : List Nat) : Nat → Bool :=
  if zeroMissing t then fun i => digitsMask t i || i == 5 || i == 8 else digitsMask t

/-- What is known after lines 195-254: `rval`, `year`, `month`, `format_found` and `start_of_decimals`. -/
structure Found where
  rval : ℚ := 0
  year : Int := 0
  month : Int := 0
  format : Nat := 0
  decimals : Nat := 0
  tbuff : List Nat

/-- Blanks at the end of the decimals, at most five, lines 206-207. -/
def trailing (t : List Nat) : Nat → Nat
  | 0 => 0
  | k + 1 => if at? t (11 + (k + 1)) = 32 then trailing t k + 1 else 0

/-- `atof`. -/
def atof (s : List Nat) : ℚ := (Scan.strtold s).1

/-- `YYYY MM DD.dddddd`, lines 195-214. -/
def standard (t : List Nat) (m : Nat → Bool) : Found :=
  if mask m [0, 1, 2, 3, 5, 6, 8, 9] [4, 7] && at? t 7 == 32 && at? t 10 == 46 then
    { rval := getTwoDigits t 8 + (readDigits 0 (t.drop 11) : ℚ) / 10 ^ (6 - trailing t 5)
      year := readDigits 0 t
      month := getTwoDigits t 5
      decimals := 11
      tbuff := t }
  else { tbuff := t }

/-- `CYYMMDD` formats, lines 215-243. -/
def century (t : List Nat) (m : Nat → Bool) : Found :=
  if (at? t 7 == 46 || at? t 7 == 58) && mask m [1, 2, 3, 4, 5, 6, 8, 9] [0, 7] then
    let year := (sbyte (at? t 0) - 74) * 100 + 1900 + getTwoDigits t 1
    let month := getTwoDigits t 3
    let rval := atof (t.drop 5)
    if at? t 7 = 58 then
      let rval := rval + getTwoDigits t 8 / 24 + getTwoDigits t 10 / 1440
      if at? t 12 ≠ 32 then
        let rval := rval + getTwoDigits t 12 / 86400
        let t := t.set 13 46
        { rval := rval + atof (t.drop 13) / 86400, year := year, month := month, format := 20, decimals := 14, tbuff := t }
      else { rval := rval, year := year, month := month, format := 50, tbuff := t }
    else { rval := rval, year := year, month := month, format := 30, decimals := 8, tbuff := t }
  else { tbuff := t }

/-- Julian Dates and Modified Julian Dates, lines 244-261. -/
def julianDate (t : List Nat) (m : Nat → Bool) : Found :=
  if mask m [1, 2, 3, 4, 5, 6, 8, 9] [7] then
    if at? t 0 = 77 then { rval := 4800001 / 2 + atof (t.drop 1), format := 40, decimals := 8, tbuff := t }
    else { rval := atof t, format := 10, decimals := 8, tbuff := t }
  else { tbuff := t }

/-- Lines 195-261. -/
def readField (t : List Nat) (m : Nat → Bool) : Found :=
  if at? t 4 = 32 then standard t m
  else if 72 ≤ at? t 0 ∧ at? t 0 ≤ 75 then century t m
  else if at? t 7 = 46 then julianDate t m
  else { tbuff := t }

/-- `*format`, lines 262-268. -/
def Found.code (f : Found) : Nat :=
  if f.decimals ≠ 0 then f.format + digitCount (f.tbuff.drop f.decimals) else f.format

/-- `rval` after lines 270-272; `dmy_to_day` is always called with a month from 1 to 12. -/
def Found.jd (f : Found) : ℚ :=
  if 1 ≤ f.month ∧ f.month ≤ 12 ∧ 0 < f.rval ∧ f.rval < 99 then
    f.rval + (((dmyToDay 0 f.month f.year JULIAN_GREGORIAN).getD 0 : Int) : ℚ) - 1 / 2
  else f.rval

/-- `fmod` for `0 ≤ x` and `0 < y`. -/
def fmod (x y : ℚ) : ℚ := x - (⌊x / y⌋ : ℚ) * y

/-- Rounding of the times of radar observations, lines 276-283. -/
def radarRound (rval : ℚ) : ℚ :=
  let timeOfDay := rval - (⌊rval⌋ : ℚ)
  let resolution : ℚ := 1 / 86400
  let half : ℚ := (1 / 2) / 86400
  rval + (half - fmod (timeOfDay + half) resolution)

/-- `extract_date_from_mpc_report`, /repo/mpc_fmt.cpp:163-285: the value returned and what is stored in `*format`. -/
def extractDate (buff : List Nat) : ℚ × Option Nat :=
  if buff.length < 80 ∨ buff.length > 82 then (0, none)
  else if at? buff 12 ≠ 32 ∧ at? buff 12 ≠ 42 ∧ at? buff 12 ≠ 45 then (0, none)
  else if isValidMpcCode (buff.drop 77) = false then (0, none)
  else
    let t := (buff.drop 15).take 17
    let f := readField (fillZeroes t) (fillMask t)
    let rval := f.jd
    (if rval ≠ 0 ∧ (at? buff 14 = 82 ∨ at? buff 14 = 114) then radarRound rval else rval, some f.code)

/-! ## Right ascensions and declinations -/

/-- `BAD_RA_DEC_FMT`, line 344. -/
def BAD_FMT : Int := -99

/-- The digits after the sixth of a packed value, lines 369-373: what they add. -/
def packedTail : Nat → List Nat → ℚ → ℚ
  | 0, _, _ => 0
  | k + 1, s, factor =>
    if isDigit (at? s 0) then
      let factor := factor / 10
      ((at? s 0 : ℚ) - 48) * factor + packedTail k (s.drop 1) factor
    else 0

/-- The body of `get_ra_dec`, lines 357-427, for the text after the sign: value, `*format` and `*precision`. -/
def angle (isDec : Bool) (buff : List Nat) : Outcome (ℚ × Int × ℚ) :=
  (quickAtof buff).bind fun rval =>
  let i := digitCount buff
  if i > 7 then
    let tval := readDigits 0 (buff.take 6)
    let rval : ℚ := (tval / 10000 : Nat) + ((tval / 100 % 100 : Nat) : ℚ) / 60 + ((tval % 100 : Nat) : ℚ) / 3600
    .ok (rval + packedTail 6 (buff.drop 6) (1 / 3600), 300 + i, 1 / 10 ^ (i - 6))
  else if at? buff 2 = 46 then
    let n := digitCount (buff.drop 3)
    .ok (rval, 100 + n, 3600 / 10 ^ n)
  else if at? buff 3 = 46 then
    let n := digitCount (buff.drop 4)
    .ok (rval / 15, 200 + n, 3600 / 15 / 10 ^ n)
  else if at? buff 2 = 32 ∧ i = 2 then
    (quickAtof (buff.drop 3)).bind fun minutes =>
    let rval := rval + minutes / 60
    if at? buff 5 = 32 ∧ isDigit (at? buff 7) then
      (quickAtof (buff.drop 6)).bind fun seconds =>
      let n := digitCount (buff.drop 9)
      .ok (rval + seconds / 3600, n, 1 / 10 ^ n)
    else
      let n := digitCount (buff.drop 6)
      .ok (rval, -((n : Int) + 1), 60 / 10 ^ n)
  else if at? buff 3 = 32 ∧ i = 3 ∧ isDec = false then
    (quickAtof (buff.drop 4)).bind fun minutes =>
    (quickAtof (buff.drop 7)).bind fun seconds =>
    let n := digitCount (buff.drop 10)
    .ok ((rval + (minutes / 60 + seconds / 3600)) / 15, 400 + n, 1 / 15 / 10 ^ n)
  else .ok (rval, BAD_FMT, 1)

/-- `get_ra_dec`, /repo/mpc_fmt.cpp:346-432.  `ub`: an `int` overflows, or fewer than twelve bytes are there to be
    copied. -/
def getRaDec (ibuff : List Nat) : Outcome (ℚ × Int × ℚ) :=
  let isDec : Bool := at? ibuff 0 = 45 ∨ at? ibuff 0 = 43
  let rest := if isDec then ibuff.drop 1 else ibuff
  if rest.length < 12 then .ub
  else (angle isDec (rest.take 12)).bind fun r => .ok (if at? ibuff 0 = 45 then -r.1 else r.1, r.2)

/-- `get_ra_dec_from_mpc_report`, /repo/mpc_fmt.cpp:441-464, without the factors that convert to radians and
    arcseconds: the value returned, and the two results. -/
def getRaDecReport (ibuff : List Nat) : Outcome (Int × (ℚ × Int × ℚ) × (ℚ × Int × ℚ)) :=
  (getRaDec (ibuff.drop 32)).bind fun ra =>
  (getRaDec (ibuff.drop 44)).bind fun dec =>
  .ok ((if ra.2.1 = BAD_FMT then -1 else 0) - (if dec.2.1 = BAD_FMT then 2 else 0), ra, dec)

end Verif.MpcLine
