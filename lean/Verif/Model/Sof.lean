import Mathlib.Data.Rat.Defs
import Mathlib.Algebra.Order.Ring.Rat
import Verif.Model.Bytes
import Verif.Model.Date

/-!
# Model of the Standard Orbit Format reader, /repo/sof.cpp

`sscanf` with `%ld` is modelled without overflow; `atof` only for a point followed by digits (no exponent).
-/

namespace Verif.Sof

open Verif Verif.Date

/-- `sscanf( buff, "%ld%n", &t, &bytes_read)`: the value and the number of bytes used, `none` unless 1 is
    returned. -/
def scanLong (buff : List Nat) : Option (Int × Nat) :=
  let spaces := (buff.takeWhile isSpace).length
  let rest := buff.drop spaces
  let signLen := if at? rest 0 = 45 ∨ at? rest 0 = 43 then 1 else 0
  let digits := (rest.drop signLen).takeWhile isDigit
  if digits = [] then none
  else
    let v : Int := readDigits 0 digits
    some (if at? rest 0 = 45 then -v else v, spaces + signLen + digits.length)

/-- `atof` of a string that begins with a point, without an exponent. -/
def atofPoint (s : List Nat) : ℚ :=
  let digits := (s.drop 1).takeWhile isDigit
  (readDigits 0 digits : ℚ) / 10 ^ digits.length

/-- `extract_yyyymmdd_to_jd`, /repo/sof.cpp:54-69.  `none`: `dmy_to_day` reads outside its table. -/
def extractYyyymmddToJd (buff : List Nat) : Option ℚ :=
  match scanLong buff with
  | none => some 0
  | some (t, bytesRead) =>
    let frac : ℚ := if at? buff bytesRead = 46 then atofPoint (buff.drop bytesRead) else 0
    if bytesRead = 8 then
      (dmyToDay (t.tmod 100) ((t.tdiv 100).tmod 100) (t.tdiv 10000) GREGORIAN).map fun (d : Int) => (d : ℚ) - 1 / 2 + frac
    else some frac

/-- The things `extract_sof_data_ex` stores. -/
inductive Item where
  | q | ecc | incl | node | argPer | absMag | slope | central | tPerih | tEpoch | tWritten | tFirst | tLast | rms
deriving DecidableEq, Repr

/-- For each item, the column text (`tbuff`) it was last computed from.  The conversions of the text (`atof`,
    `atoi`, `extract_yyyymmdd_to_jd`) are applied to this text by the code. -/
abbrev Items := Item → Option (List Nat)

/-- `header[i] >= ' '`, with `char` signed. -/
def printable (c : Nat) : Bool := 32 ≤ c && c < 128

/-- `header[i] >= ' ' && header[i] != '|'`. -/
def inColumn (c : Nat) : Bool := printable c && c != 124

/-- The two `switch` statements, /repo/sof.cpp:102-180, and the test for "rms", 181-182: which items a column
    sets. -/
def columnItems (extra : Bool) (header : List Nat) : List Item :=
  let c := at? header 0
  let c1 := at? header 1
  (if c1 = 32 then
    if c = 113 then [Item.q] else if c = 101 then [Item.ecc] else if c = 105 then [Item.incl]
    else if c = 79 then [Item.node] else if c = 111 then [Item.argPer] else if c = 72 then [Item.absMag]
    else if c = 71 then [Item.slope] else if c = 67 then [Item.central] else []
  else if c = 84 then
    if c1 = 112 then [Item.tPerih]
    else if c1 = 101 then [Item.tEpoch]
    else if extra then
      if c1 = 119 then [Item.tWritten] else if c1 = 102 then [Item.tFirst] else if c1 = 108 then [Item.tLast] else []
    else []
  else if c = 79 then [Item.node] else if c = 111 then [Item.argPer] else []) ++
  (if header.take 3 = [114, 109, 115] ∧ extra = true then [Item.rms] else [])

/-- Store a text for some items. -/
def store (st : Items) (items : List Item) (text : List Nat) : Items :=
  fun i => if i ∈ items then some text else st i

/-- One run of the `while` loop, /repo/sof.cpp:91-187.  `buff` holds the bytes of the record that may be read,
    its terminating NUL included; `Outcome.ub` is a `memcpy` past that, or a store past the end of `tbuff`.
    `Outcome.ok none` is the return of -1 inside the loop.  `none`: the fuel is used up. -/
def sofLoop (extra : Bool) : Nat → Items → List Nat → List Nat → Option (Outcome (Option Items))
  | 0, _, _, _ => none
  | fuel + 1, st, header, buff =>
    if printable (at? header 0) then
      let i := (header.takeWhile inColumn).length
      if i < 2 ∨ i ≥ 80 then some (.ok none)
      else if i > buff.length ∨ i ≥ 80 then some .ub
      else
        let st := store st (columnItems extra header) (buff.take i)
        let i := if at? header i = 124 then i + 1 else i
        sofLoop extra fuel st (header.drop i) (buff.drop i)
    else some (.ok (some st))

/-- The items without which there is no orbit, /repo/sof.cpp:48-50. -/
def needed : List Item := [.q, .ecc, .tPerih, .incl, .node, .argPer]

/-- `extract_sof_data_ex`, /repo/sof.cpp:75-200: the return value and the items stored. -/
def extractSofData (extra : Bool) (fuel : Nat) (buff header : List Nat) : Option (Outcome (Int × Items)) :=
  match sofLoop extra fuel (fun _ => none) header buff with
  | none => none
  | some .ub => some .ub
  | some .abort => some .abort
  | some (.ok none) => some (.ok (-1, fun _ => none))
  | some (.ok (some st)) => some (.ok (if needed.all fun i => (st i).isSome then 0 else -1, st))

end Verif.Sof
