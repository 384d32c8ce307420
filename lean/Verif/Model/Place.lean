import Verif.Model.GetTime
import Verif.Model.MpcLine

/-!
# Model of the reading of places and directions, /repo/mpc_code.cpp:435-750

Numbers are rational (no rounding errors).  Angles are kept in degrees: the multiplications by `PI / 180.` are left out, and
ranges are tested in degrees.  `isdigit` of a byte above 127 is taken as false.  Strings hold no NUL byte.
-/

namespace Verif.Place

open Verif Verif.MpcLine

/-- `_get_number_for_angle`, /repo/mpc_code.cpp:435-458: the number, `*nbytes`, and `*is_integer` (`none` for -1).  The number is never
    negative and never takes no bytes, since a digit comes first. -/
def numberForAngle (buff : List Nat) : Outcome (ℚ × Nat × Option Bool) :=
  let t := skipBlanks buff
  if ¬ isDigit (at? t 0) then .ok (0, 0, none)
  else
    let t := t.drop (digitCount t)
    (quickStrtod buff).bind fun r => .ok (r.1, buff.length - r.2.length, some (at? t 0 ≠ 46))

/-- `_get_angle`, /repo/mpc_code.cpp:460-514: the value, `*nbytes`, `*n_fields`. -/
def getAngle (buff : List Nat) : Outcome (ℚ × Nat × Nat) :=
  let finish (x : ℚ) (t : List Nat) (n : Nat) : Outcome (ℚ × Nat × Nat) :=
    let t := if n = 0 then t else skipBlanks t
    .ok (x, buff.length - t.length, n)
  (numberForAngle buff).bind fun d =>
    match d.2.2 with
    | none => finish d.1 buff 0
    | some false => finish d.1 (buff.drop d.2.1) 1
    | some true =>
      let t := buff.drop d.2.1
      (numberForAngle t).bind fun m =>
        if m.1 > 60 then .ok (0, m.2.1, 0)
        else match m.2.2 with
          | none => finish d.1 t 1
          | some false => finish (d.1 + m.1 / 60) (t.drop m.2.1) 2
          | some true =>
            let t := t.drop m.2.1
            (numberForAngle t).bind fun s =>
              if s.1 > 60 then .ok (0, s.2.1, 0)
              else match s.2.2 with
                | none => finish (d.1 + m.1 / 60) t 2
                | some _ => finish (d.1 + m.1 / 60 + s.1 / 3600) (t.drop s.2.1) 3

/-- What `extract_lat_lon` returns, lines 519-522. -/
inductive Kind
  | lon | lat | alt | nothing
  deriving DecidableEq, Repr

/-- `strchr( compass, c)` for a byte other than NUL. -/
def isCompass (c : Nat) : Bool := c ∈ bytes "nNeEsSwW"

/-- The kind of value and its sign for a compass letter, lines 575-586. -/
def compassKind (c : Nat) : Kind × Bool :=
  let c := GetTime.toLower c
  if c = 110 ∨ c = 115 then (.lat, c = 115)
  else if c = 101 ∨ c = 119 then (.lon, c = 119)
  else (.nothing, false)

/-- Skipping of "alt" and "alt.", lines 540-545. -/
def skipAlt (t : List Nat) : List Nat :=
  if (t.take 3).map GetTime.toLower = bytes "alt" then
    if at? (t.drop 3) 0 = 46 then t.drop 4 else t.drop 3
  else t

/-- Lines 552-565: a height in metres or feet. -/
def height (t : List Nat) (v : ℚ) : Option (ℚ × List Nat) :=
  if at? t 0 = 109 then some (v, t.drop 1)
  else if at? t 0 = 102 ∧ at? t 1 = 116 then some (v * (3048 / 10000), t.drop 2)
  else none

/-- `extract_lat_lon`, /repo/mpc_code.cpp:524-599: the return value, `*bytes_read` and `*value`; `count` tells whether `bytes_read`
    is not NULL.  For a blank text `*bytes_read` and `*value` are left alone (here 0); no caller uses them.
    `strchr( compass, *tptr)` finds the NUL at the end of the text as well, and `tptr` goes past it; `ub` when it is read there. -/
def extractLatLon (count : Bool) (buff : List Nat) : Outcome (Kind × Nat × ℚ) :=
  let t := skipBlanks buff
  if t = [] then .ok (.nothing, 0, 0)
  else
    let first := if isCompass (at? t 0) then at? t 0 else 0
    let t := if isCompass (at? t 0) then t.drop 1 else t
    let t := skipAlt t
    (getAngle t).bind fun a =>
      let t := t.drop a.2.1
      let t := if first = 0 ∧ a.2.2 = 1 ∧ at? t 0 = 32 then t.drop 1 else t
      let finish (k : Kind) (v : ℚ) (t : List Nat) : Outcome (Kind × Nat × ℚ) :=
        let t := if at? t 0 = 44 then t.drop 1 else t
        .ok (k, if count ∧ k ≠ .nothing then buff.length - t.length else 0, v)
      let direction : Outcome (Kind × Nat × ℚ) :=
        if a.2.2 = 0 then finish .nothing a.1 t
        else if first ≠ 0 then
          finish (compassKind first).1 (if (compassKind first).2 then -a.1 else a.1) t
        else if isCompass (at? t 0) then
          finish (compassKind (at? t 0)).1 (if (compassKind (at? t 0)).2 then -a.1 else a.1) (t.drop 1)
        else if t = [] ∧ count then .ub
        else finish .nothing a.1 t
      match (if first = 0 ∧ a.2.2 = 1 then height t a.1 else none) with
      | some (v, r) => finish .alt v r
      | none => direction

/-- Latitude, longitude in degrees and height in metres. -/
structure Site where
  lat : ℚ
  lon : ℚ
  alt : ℚ
  deriving DecidableEq

/-- `get_lat_lon_info`, /repo/mpc_code.cpp:614-665: the return value and, if it is 0 and `cinfo` is not NULL (`info`), the place. -/
def getLatLonInfo (info : Bool) (buff : List Nat) : Outcome (Int × Option Site) :=
  (extractLatLon true buff).bind fun p =>
    if p.1 ≠ .lat ∧ p.1 ≠ .lon then .ok (-1, none)
    else
      (extractLatLon true (buff.drop p.2.1)).bind fun q =>
        if q.1 ≠ (if p.1 = .lat then .lon else .lat) then .ok (-1, none)
        else if ¬ info then .ok (0, none)
        else
          let lon := if p.1 = .lon then p.2.2 else q.2.2
          let lat := if p.1 = .lon then q.2.2 else p.2.2
          let lon := if lon < 0 then lon + 360 else lon
          if lat > 90 ∨ lat < -90 ∨ lon < 0 ∨ lon > 360 then .ok (-1, none)
          else
            (extractLatLon true ((buff.drop p.2.1).drop q.2.1)).bind fun a =>
              .ok (0, some ⟨lat, lon, if a.1 = .alt then a.2.2 else 100⟩)

/-- `get_ra_from_string`, /repo/mpc_code.cpp:667-677, in degrees, and `*bytes_read`. -/
def getRa (buff : List Nat) : Outcome (ℚ × Nat) :=
  (getAngle buff).bind fun a =>
    let x := if a.2.2 > 2 then a.1 * 15 else a.1
    .ok (x, if a.2.2 = 0 ∨ x > 360 then 0 else a.2.1)

/-- `get_dec_from_string`, /repo/mpc_code.cpp:679-699. -/
def getDec (buff : List Nat) : Outcome (ℚ × Nat) :=
  if at? buff 0 ≠ 43 ∧ at? buff 0 ≠ 45 then .ok (0, 0)
  else
    (getAngle (buff.drop 1)).bind fun a =>
      let n := if a.2.2 = 0 ∨ a.1 > 90 then 0 else a.2.1
      .ok (if at? buff 0 = 45 then -a.1 else a.1, if a.2.2 ≠ 0 then n + 1 else n)

/-- `strstr`: the text from the first occurrence on. -/
def strstr (pat : List Nat) : List Nat → Option (List Nat)
  | [] => if pat = [] then some [] else none
  | c :: s => if pat.isPrefixOf (c :: s) then some (c :: s) else strstr pat s

/-- `get_xxx_location_info`, /repo/mpc_code.cpp:714-750.  `atof` is that of `Verif.Model.Scan`. -/
def getXxxLocationInfo (buff : List Nat) : Outcome (Int × Option Site) :=
  if buff.take 9 ≠ bytes "COM Long." then .ok (-1, none)
  else
    match strstr (bytes "Lat.") buff, strstr (bytes "Alt.") buff with
    | some lat, some alt =>
      (extractLatLon false (buff.drop 9)).bind fun p =>
        if p.1 ≠ .lon then .ok (-2, none)
        else
          (extractLatLon false (lat.drop 4)).bind fun q =>
            if q.1 ≠ .lat then .ok (-2, none)
            else .ok (0, some ⟨q.2.2, if p.2.2 < 0 then p.2.2 + 360 else p.2.2, (Scan.strtold (alt.drop 4)).1⟩)
    | _, _ => .ok (-2, none)

end Verif.Place
