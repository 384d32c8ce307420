import Verif.Model.MpcLine
import Verif.Model.Scan

/-!
# Model of the reading of station lines, /repo/mpc_code.cpp:64-101 and 266-395

Numbers are rational (no rounding errors).  Angles are kept in degrees: the multiplications by `PI / 180.` are left out.  The
computations of parallax constants from a place and of a place from parallax constants are not done here (see `Verif.Model.Ellipse`).
Strings hold no NUL byte; `char` is signed.
-/

namespace Verif.Station

open Verif Verif.MpcLine

/-- `limited_atof`, lines 270-278, for `len < 79` bytes that are there. -/
def limitedAtof (ibuff : List Nat) (len : Nat) : Outcome ℚ := quickAtof (ibuff.take len)

/-- `convert_base_60_to_decimal`, lines 285-294. -/
def base60 (x : ℚ) : ℚ :=
  let secs : Int := if x < 0 then ⌈x⌉ else ⌊x⌋
  (secs.tdiv 10000 : ℚ) + ((secs.tdiv 100).tmod 100 : ℚ) / 60 + (secs.tmod 100 : ℚ) / 3600 + (x - secs) / 3600

/-- `atoi`. -/
def atoi (s : List Nat) : Int := ((Scan.scanInt s).map (·.1)).getD 0

/-- What is stored in `mpc_code_t` about the position, in degrees and metres. -/
inductive Fix
  /-- Nothing. -/
  | nothing
  /-- Longitude, latitude, height; `true` if the parallax constants are computed from them. -/
  | place (lon lat alt : ℚ) (constants : Bool)
  /-- Longitude, the two parallax constants, and the numbers of digits `prec1` and `prec2`.  The latitude and the height are computed from
      them unless both constants are 0. -/
  | parallaxes (lon rhoCos rhoSin : ℚ) (prec1 prec2 : Nat)
  | satellite
  deriving DecidableEq

/-- The value returned, `code`, `planet`, the position of `name` in the line (`none`: "Unkn"), and the position. -/
structure Info where
  rval : Int
  code : List Nat
  planet : Int
  name : Option Nat
  fix : Fix
  deriving DecidableEq

/-- Bytes of a station code, line 311. -/
def codeByte (c : Nat) : Bool := 32 < c && c ≤ 126 && c != 33

/-- Number of bytes up to the first that does not satisfy `p`. -/
def countWhile (p : Nat → Bool) : List Nat → Nat
  | [] => 0
  | c :: s => if p c then countWhile p s + 1 else 0

/-- A longitude that is not negative, lines 384-388. -/
def turn (x : ℚ) : ℚ := if x < 0 then x + 360 else x

/-- Lines of rovers.txt, 320-348: the value of `rval` and what is stored.  `ub`: `polar_radii` is read before its beginning. -/
def rover (buff : List Nat) : Outcome (Int × Option Nat × Fix) :=
  match Scan.scanReal (K := ℚ) (buff.drop 5) with
  | none => .ok (-1, none, .nothing)
  | some (lon, r) => match Scan.scanReal (K := ℚ) r with
    | none => .ok (-1, none, .nothing)
    | some (lat, r) => match Scan.scanReal (K := ℚ) r with
      | none => .ok (-1, none, .nothing)
      | some (alt, _) =>
        let far : Bool := |lon| > 361 ∨ |lat| > 91
        let lon := if far then base60 lon else lon
        let lat := if far then base60 lat else lat
        let tail := (buff.drop 4).dropWhile (· ≠ 64)
        let planet := if tail = [] then 3 else atoi (tail.drop 1)
        let point : Bool := tail ≠ [] ∧ planet > 9000
        let lon := if point then 0 else lon
        let lat := if point then 0 else lat
        let alt := if point then 0 else alt
        let constants : Bool := lat ≠ 0 ∧ lon ≠ 0
        if constants ∧ planet < 0 then .ub
        else .ok (planet, some 47, .place lon lat alt constants)

/-- Lines 349-368: the format of the Minor Planet Center. -/
def standard (buff : List Nat) : Outcome (Int × Option Nat × Fix) :=
  (limitedAtof (buff.drop 4) 9).bind fun lon =>
    (limitedAtof (buff.drop 13) 8).bind fun rc =>
      (limitedAtof (buff.drop 21) 9).bind fun rs =>
        .ok (3, some 30, .parallaxes lon rc rs (min 5 (digitCount (buff.drop 8))) (min 6 (digitCount (buff.drop 15))))

/-- `get_mpc_code_info`, lines 307-395.  `ub`: the copying of four bytes goes past the end of the text. -/
def getMpcCodeInfo (buff : List Nat) : Outcome Info :=
  let i := countWhile codeByte buff
  let body : Outcome (Int × Option Nat × Fix) :=
    if 3 ≤ i ∧ i ≤ 4 ∧ 30 ≤ buff.length then
      let i := i + countWhile (· == 32) (buff.drop i)
      if at? buff 4 = 33 then rover buff
      else if at? buff 7 = 46 ∧ at? buff 21 ∈ bytes "+- " ∧ at? buff 14 = 46 ∧ at? buff 23 = 46 ∧ at? buff 3 = 32 then standard buff
      else if i = 30 then .ok (-2, some 30, .satellite)
      else .ok (-1, none, .nothing)
    else .ok (-1, none, .nothing)
  body.bind fun b =>
    if buff.length < 3 then .ub
    else
      let code := if at? buff 3 = 32 then buff.take 3 else buff.take 4
      if b.1 = -1 then .ok ⟨-1, code, 3, none, b.2.2⟩
      else
        let fix := match b.2.2 with
          | .place lon lat alt c => .place (turn lon) lat alt c
          | .parallaxes lon rc rs p q => .parallaxes (turn lon) rc rs p q
          | f => f
        .ok ⟨b.1, code, b.1, b.2.1, fix⟩

end Verif.Station
