import Mathlib.Analysis.SpecialFunctions.Trigonometric.Basic
import Verif.Model.Bytes
import Verif.Model.Date
import Verif.Model.Ctime
import Verif.Model.Multipart

/-!
# Model of the listing of orbital elements, /repo/showelem.cpp

Numbers are real, without rounding, but for that of `printf`, which goes to the nearest, ties to even.  The strings that are stored one
after another in the buffer are a list.  `room` is the number of bytes from the place written to up to the end of the buffer: a text
that does not fit stops the program (`snprintf_err`), a single byte stored past the end is undefined.
-/

namespace Verif.ShowElem

open Verif Verif.Date Verif.Time

/-- The members of `ELEMENTS` that are used, /repo/comets.h:31-55. -/
structure Elements where
  perihTime : ℝ
  q : ℝ
  epoch : ℝ
  ecc : ℝ
  incl : ℝ
  argPer : ℝ
  ascNode : ℝ
  meanAnomaly : ℝ
  majorAxis : ℝ
  t0 : ℝ
  absMag : ℝ
  slope : ℝ
  gm : ℝ
  perihVec : ℝ × ℝ × ℝ
  sideways : ℝ × ℝ × ℝ
  centralObj : Int
  isAsteroid : Bool

/-- The bits of `format`, /repo/showelem.h:19-22. -/
structure Form where
  precision : Nat
  perihTime : Bool
  omitPq : Bool
  nuclear : Bool

/-! ## Texts in a buffer -/

/-- `%w.pf`. -/
noncomputable def fmtW (w p : Nat) (x : ℝ) : List Nat := List.replicate (w - (fmtFixed p x).length) 32 ++ fmtFixed p x

/-- `%+w.pf`. -/
noncomputable def fmtPlus (w p : Nat) (x : ℝ) : List Nat :=
  let s := if x < 0 then fmtFixed p x else 43 :: fmtFixed p x
  List.replicate (w - s.length) 32 ++ s

/-- `snprintf_err`, and `strlcpy_err`. -/
def put (room : Nat) (t : List Nat) : Outcome (List Nat) := if t.length < room then .ok t else .abort

/-- `strlcat_err`, and `snprintf_append`. -/
def cat (room : Nat) (s t : List Nat) : Outcome (List Nat) := if s.length + t.length < room then .ok (s ++ t) else .abort

/-- Blanks up to index `n`, and a NUL after them; only that if the text is longer than `n` and `cut` is set. -/
def padTo (cut : Bool) (room n : Nat) (t : List Nat) : Outcome (List Nat) :=
  if room ≤ n then .ub else .ok (if cut then (t ++ List.replicate (n - t.length) 32).take n else t ++ List.replicate (n - t.length) 32)

/-! ## Helpers of the file -/

/-- `zero_to_two_pi`, lines 40-46; `fmod` keeps the sign. -/
noncomputable def zeroToTwoPi (ang : ℝ) : ℝ :=
  let r := if 0 ≤ ang then ang - (2 * Real.pi) * ⌊ang / (2 * Real.pi)⌋ else ang - (2 * Real.pi) * ⌈ang / (2 * Real.pi)⌉
  if r < 0 then r + 2 * Real.pi else r

/-- `lop_digits`, lines 48-57. -/
def lopDigits : Nat → List Nat → List Nat
  | _, [] => []
  | p + 1, c :: s => if isDigit c then c :: lopDigits p s else c :: s
  | 0, c :: s => if isDigit c then 32 :: lopDigits 0 s else c :: s

/-- `lop_digits( buff + i, precision)`. -/
def lopAt (i p : Nat) (s : List Nat) : List Nat := s.take i ++ lopDigits p (s.drop i)

/-- `normal_vect`, lines 73-90. -/
noncomputable def normalVect (v : ℝ × ℝ × ℝ) : ℝ × ℝ × ℝ :=
  let s : ℝ := 0.397777155931913701597179975942380896684
  let c : ℝ := 0.917482062069181825744000384639406458043
  let n := (v.1, v.2.1 * c - v.2.2 * s, v.2.2 * c + v.2.1 * s)
  let r := √(v.1 * v.1 + v.2.1 * v.2.1 + v.2.2 * v.2.2)
  if r ≠ 0 then (n.1 / r, n.2.1 / r, n.2.2 / r) else n

/-- `AU_IN_KM`, /repo/afuncs.h:33. -/
noncomputable def auKm : ℝ := 149597870.7

/-- Text and unit of a distance, lines 108-116. -/
noncomputable def distText (x : ℝ) : List Nat × Bool :=
  if x > 9999 then (fmtW 23 15 x, false)
  else if x > 999999 / auKm then (fmtW 23 18 x, false)
  else (fmtW 23 16 (x * auKm), true)

/-- The text is cut, lines 117-124; `room` as above. -/
def cutText (room precision : Nat) (t : List Nat) : Outcome (List Nat) :=
  let blanks := t.takeWhile (· == 32)
  let digits := (t.drop blanks.length).takeWhile (· != 46)
  let i := blanks.length + digits.length + 1
  if digits.length < precision + 4 then
    if room ≤ i + (precision + 4 - digits.length) then .ub else .ok (t.take (i + (precision + 4 - digits.length)))
  else .ok (t.take (i - 1))

/-- `show_formatted_dist` for a distance that is not negative, lines 103-128. -/
noncomputable def distPos (size room precision : Nat) (x : ℝ) : Outcome (List Nat) :=
  let emit (t : List Nat) : Outcome (List Nat) := if t.length < room then .ok t else if room < size then .ub else .abort
  if x > 999999 then emit (bytes " <HUGE>")
  else
    (emit (distText x).1).bind fun t => (cutText room precision t).bind fun t =>
    if (distText x).2 then emit (t ++ bytes "km") else .ok t

/-- `show_formatted_dist`, lines 92-128; the sign makes the buffer shorter, but not `obuff_size`. -/
noncomputable def dist (room precision : Nat) (x : ℝ) : Outcome (List Nat) :=
  if x < 0 then (if room = 0 then .ub else (distPos room (room - 1) precision (-x)).bind fun t => .ok (45 :: t))
  else distPos room room precision x

/-- `add_pq_data`, lines 130-141. -/
noncomputable def addPq (room : Nat) (t : List Nat) (p q : ℝ) (precision : Nat) : Outcome (List Nat) :=
  let n := if precision > 13 then precision else 13
  (cat room t (fmtPlus (n + 3) n p ++ fmtPlus (n + 3) n q)).bind fun t =>
  .ok (lopAt (17 + n * 2) precision (lopAt (14 + n) precision (lopAt 11 precision t)))

/-! ## The lines -/

/-- `perinames`, lines 170-172. -/
def periNames : List (List Nat) :=
  [bytes "barion", bytes "helion", bytes "mercury", bytes "venus", bytes "gee", bytes "mars", bytes "jove", bytes "saturn",
   bytes "uranus", bytes "neptune", bytes "pluto", bytes "lune"]

/-- `pericenter_name`, lines 173-175. -/
def periName (central : Int) : List Nat :=
  if -1 ≤ central ∧ central < 11 then periNames.getD (central + 1).toNat [] else bytes "----"

/-- What `day_to_dmy` gives, with the name of the month. -/
structure Cal where
  day : Int
  month : List Nat
  year : Int

/-- The day with its fraction, `decimal_day_to_dmy`, lines 59-69. -/
noncomputable def decimalDay (cal : Int → Cal) (jd : ℝ) : ℝ := ((cal ⌊jd + 1 / 2⌋).day : ℝ) + (jd + 1 / 2) - ⌊jd + 1 / 2⌋

/-- The line about the perihelion, lines 177-194; `clock` is the text of `full_ctime`. -/
noncomputable def periLine (cal : Int → Cal) (clock : List Nat) (room : Nat) (f : Form) (e : Elements) : Outcome (List Nat) :=
  let c := cal ⌊e.perihTime + 1 / 2⌋
  (put room (bytes "   Peri" ++ periName e.centralObj ++ 32 :: decInt c.year ++ 32 :: c.month ++ 32 ::
    fmtFixed f.precision (decimalDay cal e.perihTime) ++ bytes " TT")).bind fun t =>
  if f.perihTime then cat room t (bytes " = " ++ clock ++ bytes " (JD " ++ fmtFixed f.precision e.perihTime ++ bytes ")") else .ok t

/-- The line about the epoch as it is printed first, lines 197-200. -/
noncomputable def epochText (cal : Int → Cal) (epoch : ℝ) : List Nat :=
  let c := cal ⌊epoch + 1 / 2⌋
  bytes "Epoch " ++ fmtBlank 4 c.year ++ 32 :: c.month ++ 32 :: fmtW 9 6 (decimalDay cal epoch + 1 / 10 ^ 7) ++
    bytes " TT = JDT " ++ fmtFixed 6 (epoch + 1 / 10 ^ 7)

/-- Zeroes are taken off, lines 201-207: up to five from the end, and as many bytes before " TT =". -/
def lopZeroes (t : List Nat) : List Nat :=
  let i := min 5 (t.reverse.takeWhile (· == 48)).length
  let t := t.take (t.length - i)
  let p := match Multipart.findSub (bytes " TT =") t with
    | some s => t.length - s.length
    | none => 0
  t.take (p - i) ++ t.drop p

/-- The line about the epoch, lines 197-210. -/
noncomputable def epochLine (cal : Int → Cal) (room : Nat) (epoch : ℝ) : Outcome (List Nat) :=
  (put room (epochText cal epoch)).bind fun t => .ok (lopZeroes t)

/-- `n_digits_to_show`, line 161. -/
def digitsShown (precision : Nat) : Nat := if precision > 10 then precision else 10

/-- In degrees. -/
noncomputable def degrees (x : ℝ) : ℝ := x * 180 / Real.pi

/-- `is_cometary || elem->ecc >= 1.` -/
def Open (cometary : Bool) (e : Elements) : Prop := cometary = true ∨ 1 ≤ e.ecc

open Classical in
/-- The line with the mean anomaly or the perihelion distance, lines 211-229. -/
noncomputable def anomalyLine (room : Nat) (f : Form) (cometary : Bool) (e : Elements) : Outcome (List Nat) :=
  (if Open cometary e then
    (if room = 0 then .ub else dist (room - 1) f.precision e.q).bind fun t => padTo true room (digitsShown f.precision + 9) (113 :: t)
   else
    (put room (77 :: fmtW 20 15 (degrees (zeroToTwoPi e.meanAnomaly)))).bind fun t => .ok (lopAt 9 f.precision t)).bind fun t =>
  if f.omitPq then .ok t else cat room t (bytes " (2000.0)            P               Q")

/-- The magnitude of a line of a comet, lines 235-247. -/
noncomputable def magText (f : Form) (e : Elements) : List Nat :=
  if e.absMag ≠ 0 then
    (if e.isAsteroid then 72 :: fmtW 8 2 e.absMag ++ bytes " G" ++ fmtW 5 2 e.slope ++ bytes "   "
     else [77, 40, if f.nuclear then 78 else 84, 41] ++ fmtW 5 1 e.absMag ++ bytes "  K" ++ fmtW 5 1 e.slope ++ bytes "  ")
  else List.replicate 19 32

open Classical in
/-- The left part of the line with the argument of the perihelion, lines 233-259. -/
noncomputable def motionText (room : Nat) (f : Form) (cometary : Bool) (e : Elements) : Outcome (List Nat) :=
  let n := digitsShown f.precision
  if Open cometary e then
    (if e.absMag ≠ 0 then put room (magText f e) else .ok (magText f e)).bind fun t =>
    padTo true room (n + 9) (t.take 19)
  else (put room (110 :: fmtW (n + 8) (n + 3) (180 / Real.pi / e.t0))).bind fun t => .ok (lopAt 9 f.precision t)

/-- The right part of three lines, lines 261-267, 288-293 and 308-313. -/
noncomputable def rightText (room : Nat) (f : Form) (name : List Nat) (x p q : ℝ) : Outcome (List Nat) :=
  let n := digitsShown f.precision
  (put room (name ++ fmtW (n + 6) n x)).bind fun t =>
  if f.omitPq then .ok (t.take (11 + f.precision)) else addPq room t p q f.precision

open Classical in
/-- The left part of the line with the node, lines 270-286. -/
noncomputable def axisText (room : Nat) (f : Form) (cometary : Bool) (e : Elements) : Outcome (List Nat) :=
  let n := digitsShown f.precision
  (if Open cometary e then
    (if e.majorAxis > -0.0011 ∨ e.majorAxis < -100000 then (if room = 0 then .ub else .ok [])
     else put room (122 :: fmtW (n + 5) n (1 / e.majorAxis)))
   else (if room = 0 then .ub else dist (room - 1) f.precision e.majorAxis).bind fun t => .ok (97 :: t)).bind fun t =>
  padTo false room (max t.length (n + 9)) t

/-- The left part of the line with the inclination, lines 297-306. -/
noncomputable def eccText (room : Nat) (f : Form) (cometary : Bool) (e : Elements) : Outcome (List Nat) :=
  let n := digitsShown f.precision
  (if cometary then put room (bytes "e   1.0            ")
   else (put room (101 :: fmtW (n + 8) (n + 3) e.ecc)).bind fun t => .ok (lopAt 8 f.precision t)).bind fun t =>
  if room ≤ n + 9 then .ub else .ok (t.take (n + 9))

/-- The period in years, lines 319-322. -/
noncomputable def period (e : Elements) : ℝ := e.majorAxis * √(e.majorAxis * (0.01720209895 * 0.01720209895) / e.gm)

/-- The period as text, lines 328-347. -/
noncomputable def periodText (central : Int) (t0 : ℝ) : List Nat :=
  let days := t0 * 365.25
  if central ≤ 0 ∨ t0 > 1 then
    (if t0 > 10 ^ 8 - 1 then bytes "P!!!!!!! "
     else if t0 > 9999 then 80 :: fmtBlank 7 ⌊t0⌋ ++ [32]
     else if days > 999.9 then 80 :: fmtW 10 5 t0 ++ bytes "       "
     else 80 :: fmtW 8 3 t0 ++ 47 :: fmtW 7 3 days ++ [100])
  else if days * 1440 < 9999 then 80 :: fmtW 8 3 (days * 1440) ++ bytes "m/" ++ fmtW 5 3 days ++ bytes "d "
  else 80 :: fmtW 9 4 days ++ bytes "d       "

/-- The magnitude in the last line, lines 348-358. -/
noncomputable def lastMag (f : Form) (e : Elements) : List Nat :=
  if e.isAsteroid then bytes " H" ++ fmtW 8 2 e.absMag ++ bytes "    G " ++ fmtW 6 2 e.slope
  else [32, 77, 40, if f.nuclear then 78 else 84, 41] ++ fmtW 5 1 e.absMag ++ bytes "    K " ++ fmtW 5 1 e.slope

/-- A distance without the blanks before it, lines 361-364 and 367-370; `tbuff` has 40 bytes. -/
noncomputable def bareDist (precision : Nat) (x : ℝ) : Outcome (List Nat) :=
  (dist 40 precision x).bind fun t => .ok (t.dropWhile (· == 32))

/-- The last line, lines 317-372. -/
noncomputable def periodLine (room : Nat) (f : Form) (e : Elements) : Outcome (List Nat) :=
  (put room (periodText e.centralObj (period e))).bind fun t =>
  (if e.absMag ≠ 0 then cat room t (lastMag f e) else .ok t).bind fun t =>
  (cat room t (bytes "   q ")).bind fun t =>
  (bareDist f.precision e.q).bind fun d => (cat room t d).bind fun t =>
  (cat room t (bytes "  Q ")).bind fun t =>
  (bareDist f.precision (e.q * (1 + e.ecc) / (1 - e.ecc))).bind fun d => cat room t d

/-- One more string: the room left after it and its NUL. -/
def left (room : Nat) (t : List Nat) : Nat := room - (t.length + 1)

/-- A line of two parts. -/
def twoParts (room : Nat) (a : Outcome (List Nat)) (b : Nat → Outcome (List Nat)) : Outcome (List Nat) :=
  a.bind fun s => (b (room - s.length)).bind fun t => .ok (s ++ t)

open Classical in
/-- `elements_in_mpc_format`, lines 148-374: the strings stored, and the number returned. -/
noncomputable def elements (cal : Int → Cal) (clock : List Nat) (size : Nat) (e : Elements) (id : List Nat) (cometary : Bool) (f : Form) :
    Outcome (List (List Nat) × Nat) :=
  let p := normalVect e.perihVec
  let q := normalVect e.sideways
  (put size id).bind fun id =>
  let room := left size id
  (if 2 < e.perihTime ∧ e.perihTime < 3000000 then (periLine cal clock room f e).bind fun t => .ok [t] else .ok []).bind fun peri =>
  let room := peri.foldl left room
  (epochLine cal room e.epoch).bind fun epoch =>
  let room := left room epoch
  (anomalyLine room f cometary e).bind fun anomaly =>
  let room := left room anomaly
  (twoParts room (motionText room f cometary e) fun r => rightText r f (bytes "Peri.") (degrees (zeroToTwoPi e.argPer)) p.1 q.1).bind fun l1 =>
  let room := left room l1
  (twoParts room (axisText room f cometary e) fun r => rightText r f (bytes "Node ") (degrees (zeroToTwoPi e.ascNode)) p.2.1 q.2.1).bind fun l2 =>
  let room := left room l2
  (twoParts room (eccText room f cometary e) fun r => rightText r f (bytes "Incl.") (degrees e.incl) p.2.2 q.2.2).bind fun l3 =>
  let room := left room l3
  (if ¬ Open cometary e then (periodLine room f e).bind fun t => .ok [t] else .ok []).bind fun last =>
  .ok (id :: peri ++ [epoch, anomaly, l1, l2, l3] ++ last, 1 + peri.length + 5 + last.length)

end Verif.ShowElem
