import Verif.Model.Ctime
import Verif.Model.MpcOrb
import Verif.Model.ShowElem

/-!
# Model of the program that writes a file in the Standard Orbit Format, /repo/mpc2sof.cpp

Real numbers for `double`.  Lines are the strings `fgets` gives, the line feed included; none has more than 399 bytes.
`get_time_from_string` is a parameter.  Memory can be had and files can be written; the names of the files are left out.
-/

namespace Verif.Mpc2Sof

open Verif Verif.Time Verif.Orbit Verif.MpcOrb
open Verif.ShowElem (put cat fmtW)

/-- `sof_header`, lines 80-83. -/
def sofHeader : List Nat :=
  bytes "Name        |Tp      .       |Te      |q          |" ++
  bytes "i  .      |Om .      |om .      |e         |" ++
  bytes "rms |n_o  |Tfirst  |Tlast   |Perts  |H .  |G . ^\n"

/-- `reclen`, line 121. -/
def reclen : Nat := sofHeader.length

/-- `base_time_format` with some places, lines 89-94, without `FULL_CTIME_NO_SPACES`; also the format of lines 162-164. -/
def dateFmt (p : Nat) : Fmt :=
  { out := .day, precision := p, yearFirst := true, monthDay := true, monthsAsDigits := true, leadingZeroes := true }

/-- `full_ctime` with `FULL_CTIME_NO_SPACES` to a buffer of 20 bytes.  The text with its blanks is in the buffer first,
    /repo/miscell.cpp:451-457. -/
def DateIn20 (p : Nat) (jd : ℝ) (out : Outcome (List Nat)) : Prop :=
  ∃ o, FullCtimel (fun _ => none) (fun _ => none) (dateFmt p) (jd - 2451545) o ∧
    out = o.bind fun s => if s.length ≥ 20 then .ub else .ok (s.filter (· ≠ 32))

/-- `output_sof`, lines 85-100, with the texts of the two times. -/
noncomputable def outputSof (perih epoch : List Nat) (e : Elements) : Outcome (List Nat) :=
  (put 90 (perih ++ [32] ++ epoch ++ [32] ++ fmtW 11 8 e.q ++ [32])).bind fun s =>
  cat 90 s (fmtW 10 6 (e.incl * 180 / Real.pi) ++ [32] ++ fmtW 10 6 (e.ascNode * 180 / Real.pi) ++ [32] ++
    fmtW 10 6 (e.argPer * 180 / Real.pi) ++ [32] ++ fmtW 10 8 e.ecc ++ [32])

/-- `extract_name`, lines 60-77. -/
def extractName (line : List Nat) : List Nat :=
  let name := if byte line 173 = 41 then
      (List.replicate 5 32 ++ (line.drop 166).take 7).map fun c => if c = 40 then 32 else c
    else (line.drop 175).take 12
  if name = List.replicate 12 32 then (line.drop 166).take 12 else name

/-- The time of the first observation, lines 148-161. -/
noncomputable def firstObserved (getTime : List Nat → ℝ) (line : List Nat) : Outcome ℝ :=
  let jd := getTime (line.drop 194)
  if (line.drop 132).take 4 = bytes "days" then .ok (jd - number (line.drop 128))
  else match Scan.scanInt (line.drop 127) with
    | some (year1, 45 :: r) => match Scan.scanInt r with
      | some (year2, _) => if year1 > 1700 ∧ year2 ≥ year1 ∧ year2 < 2100 then .ok (jd - 365 * ((year2 : ℝ) - year1 + 1)) else .abort
      | none => .abort
    | _ => .abort

/-- `%.ns` of a place in the line. -/
def part (line : List Nat) (i n : Nat) : List Nat := (line.drop i).take n

/-- The record of an asteroid, lines 143-168, with the texts of the times of perihelion, epoch and first observation. -/
noncomputable def asteroidText (perih epoch first line : List Nat) (e : Elements) : Outcome (List Nat) :=
  (put 14 (extractName line ++ [32])).bind fun t =>
  (outputSof perih epoch e).bind fun s =>
  (cat 200 (t ++ s) (part line 137 4 ++ [32] ++ part line 117 5 ++ [32])).bind fun t =>
  (cat 200 t (first.take 8 ++ [32] ++ part line 194 8 ++ [32] ++ part line 142 7 ++ [32] ++ part line 8 5 ++ [32] ++ part line 14 5 ++ [10])).bind fun t =>
  if t.length = reclen then .ok t else .abort

/-- What is done with a line of `mpcorb.dat`, lines 137-168: `none` if it is skipped.  `old` is what was in `elem`. -/
def AsteroidRecord (getTime : List Nat → ℝ) (old : Elements) (line : List Nat) (out : Outcome (Option (List Nat))) : Prop :=
  if line.length = 203 then
    match extractMpcorb old line with
    | .ok (jd, some a) =>
      if jd > 0 then
        ∃ perih epoch, DateIn20 7 a.el.perihTime perih ∧ DateIn20 0 a.epoch epoch ∧
          ((∃ t first, firstObserved getTime line = .ok t ∧ DateIn20 0 t first ∧
              out = perih.bind fun p => epoch.bind fun e => first.bind fun f => (asteroidText p e f line a.el).bind fun r => .ok (some r)) ∨
           ((∀ t, firstObserved getTime line ≠ .ok t) ∧ out = .abort))
      else out = .ok none
    | .ok (_, none) => out = .ok none
    | .abort => out = .abort
    | .ub => out = .ub
  else out = .ok none

/-- `parse_elements_dot_comet`, lines 36-58: the elements and the epoch. -/
noncomputable def parseComet (getTime : List Nat → ℝ) (line : List Nat) : Option (Elements × ℝ) :=
  if line.length > 116 ∧ byte line 113 = 46 then
    some (derive
      { perihTime := getTime ((line.drop 105).take 14), q := number (line.drop 51), ecc := number (line.drop 64)
        incl := number (line.drop 75) * Real.pi / 180, argPer := number (line.drop 85) * Real.pi / 180
        ascNode := number (line.drop 95) * Real.pi / 180
        meanAnomaly := 0, lonPer := 0, minorToMajor := 0, perihVec := ⟨0, 0, 0⟩, sideways := ⟨0, 0, 0⟩, angularMomentum := 0
        majorAxis := 0, t0 := 0, w0 := 0, gm := 0 } solarGm, number (line.drop 44) + 2400000.5)
  else none

/-- `strstr( name, " (")` and what is before it. -/
def beforeBracket : List Nat → List Nat
  | 32 :: 40 :: _ => []
  | c :: s => c :: beforeBracket s
  | [] => []

/-- Back over blanks, lines 201-203: the index of the last byte up to `i` that is no blank. -/
def lastOf (line : List Nat) : Nat → Nat
  | 0 => 0
  | i + 1 => if byte line (i + 1) = 32 then lastOf line i else i + 1

/-- The name of a comet, lines 190-208.  Byte 2 is no blank in the second case, so that the search ends there at the latest. -/
def cometName (line : List Nat) : List Nat :=
  if byte line 2 = 32 then beforeBracket ((line.drop 3).take 12)
  else
    let i := lastOf line 43
    let name := line.take 4
    let name := if byte line (i - 1) = 45 then name ++ part line (i - 1) 2 else name
    if byte line (i - 2) = 45 then name.take 4 ++ part line (i - 2) 3 else name

/-- The record of a comet, lines 209-213, with the texts of the times. -/
noncomputable def cometText (perih epoch line : List Nat) (e : Elements) : Outcome (List Nat) :=
  let name := cometName line
  let t := name ++ List.replicate (12 - name.length) 32 ++ [32]
  (outputSof perih epoch e).bind fun s =>
  let t := t ++ s ++ List.replicate 11 32 ++ List.replicate 37 32 ++ [10]
  if t.length = reclen then .ok t else .abort

/-- What is done with a line of `ELEMENTS.COMET`, lines 186-213. -/
def CometRecord (getTime : List Nat → ℝ) (line : List Nat) (out : Outcome (Option (List Nat))) : Prop :=
  match parseComet getTime line with
  | some (e, epoch) =>
    if epoch > 1721000 then
      ∃ perih ep, DateIn20 7 e.perihTime perih ∧ DateIn20 0 epoch ep ∧
        out = perih.bind fun p => ep.bind fun d => (cometText p d line e).bind fun r => .ok (some r)
    else out = .ok none
  | none => out = .ok none

/-! ## The buffer for all records -/

/-- `obuff` with room for some records, `none` if it is NULL, and the records in it. -/
structure Buffer where
  room : Option Nat
  records : List (List Nat)

/-- `memcpy( obuff + n * reclen, tbuff, reclen)` after the records that are there. -/
def Buffer.add (b : Buffer) (r : List Nat) : Outcome Buffer :=
  match b.room with
  | none => .ub
  | some k => if b.records.length < k then .ok { b with records := b.records ++ [r] } else .ub

/-- Lines 169-172. -/
def addAsteroid (b : Buffer) (r : List Nat) : Outcome Buffer :=
  let n := b.records.length + 1
  let b := if n &&& (n - 1) = 0 then { b with room := some (n * 2) } else b
  b.add r

/-- Lines 214-215. -/
def addComet (b : Buffer) (r : List Nat) : Outcome Buffer := b.add r

/-- A loop over the lines of a file. -/
def readAll (add : Buffer → List Nat → Outcome Buffer) : List (Outcome (Option (List Nat))) → Buffer → Outcome Buffer
  | [], b => .ok b
  | o :: os, b => o.bind fun r => match r with
    | none => readAll add os b
    | some r => (add b r).bind (readAll add os)

/-- `main`, lines 119-224, with what is done with each line of the two files (of the second one after its two header lines; `none`
    for the second if it is left out): the text of the file written. -/
def program (asteroids : List (Outcome (Option (List Nat)))) (comets : Option (List (Outcome (Option (List Nat))))) : Outcome (List Nat) :=
  (readAll addAsteroid asteroids { room := none, records := [] }).bind fun b =>
  (match comets with
    | none => Outcome.ok b
    | some cs => readAll addComet cs b).bind fun b =>
  .ok (sofHeader ++ b.records.flatten)

end Verif.Mpc2Sof
