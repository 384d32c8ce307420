import Verif.Model.Bytes
import Verif.Model.Ctime
import Verif.Model.MpcLine
import Verif.Model.Multipart

/-!
# Model of the program that adds the positions of spacecraft to observations, /repo/add_off.c

Numbers are rational, without rounding.  The input file is the list of its lines as `fgets` gives them, of at most 299 bytes
and without NUL.  The date of a line (`extract_date_from_mpc_report`) and the difference TD - UTC are given as functions.
The answers of the service are given as a function of the number of the call and the text of the command; that
the texts it sends consist of numbers is taken for granted.  The line before and the line after the output, which tell the
time of the run and the counts, are left out, as is what the program prints with the option `-v`.
-/

namespace Verif.AddOff

open Verif

/-- Three coordinates. -/
structure Triple where
  x : ℚ
  y : ℚ
  z : ℚ
deriving DecidableEq

/-- The coordinates in order. -/
def Triple.list (p : Triple) : List ℚ := [p.x, p.y, p.z]

/-- `AU_IN_KM`, /repo/afuncs.h:33. -/
def auKm : ℚ := 1495978707 / 10

/-- `hst_launch_jd`, line 60. -/
def launch : ℚ := 4896011 / 2

/-- `tolerance`, line 42. -/
def tolerance : ℚ := 1 / 100000

/-- The codes and numbers of the table of /repo/jpl_xref.h:17-53. -/
def xrefs : List (List Nat × Int) :=
  [(bytes "Cap", -1176), (bytes "Cas", -82), (bytes "Cha", -151), (bytes "Cdr", -158), (bytes "Equ", -101), (bytes "273", -680),
   (bytes "EuC", -159), (bytes "258", -139479), (bytes "Goe", -160133), (bytes "Ha2", -37), (bytes "Her", -91), (bytes "250", -48),
   (bytes "IM1", -229), (bytes "274", -170), (bytes "Jui", -28), (bytes "C55", -227), (bytes "C56", -141043), (bytes "Luc", -49),
   (bytes "LFL", -164), (bytes "C53", -139089), (bytes "C58", -33), (bytes "C54", -98), (bytes "OsR", -64), (bytes "PSP", -96),
   (bytes "Prg", -244), (bytes "Psy", -255), (bytes "Sli", -240), (bytes "249", -21), (bytes "SoO", -144), (bytes "245", -79),
   (bytes "C49", -234), (bytes "C50", -235), (bytes "C52", -128485), (bytes "C57", -95), (bytes "Tia", -9901491), (bytes "C51", -163),
   (bytes "C59", -148840)]

/-- `get_horizons_idx`, lines 46-55; 0 for "not found". -/
def horizonsIdx (code : List Nat) : Int := ((xrefs.find? fun e => e.1 == code.take 3).map (·.2)).getD 0

/-- `offset_t`, lines 36-40.  A code whose first byte was set to 0 is the empty list. -/
structure Rec where
  jd : ℚ
  xyz : Triple
  vel : Triple
  orig : Triple
  code : List Nat
deriving DecidableEq

/-! ## The date of a line -/

/-- `get_sat_obs_jd`, lines 69-95: the date, and `mpc_code_from_ades` (the empty list for an empty string).  `tbuff`
    gets no NUL at its end, so that `get_time_from_string` goes on into bytes that were not set: undefined. -/
def satObsJd (date : List Nat → ℚ) (dt : ℚ → ℚ) (code buff : List Nat) : Outcome (ℚ × List Nat) :=
  let code := match Multipart.findSub (bytes "<stn>") buff with
    | some s => if horizonsIdx (s.drop 5) ≠ 0 then (s.drop 5).take 3 else code
    | none => code
  let jd := if buff.length > 80 ∧ (at? buff 14 = 83 ∨ at? buff 14 = 115) then date buff else 0
  if (Multipart.findSub (bytes "<obsTime>") buff).isSome ∧ code ≠ [] then .ub
  else .ok (if jd < launch then 0 else jd + dt jd / 86400, code)

/-! ## The line with the position -/

/-- `offsets_in_au`, lines 127-136. -/
def inAu (p : Triple) : Bool := p.list.any fun v => decide (v > 9999999 ∨ v < -9999999)

/-- Bytes stored at a place in a text. -/
def put (buff : List Nat) (i : Nat) (s : List Nat) : List Nat := buff.take i ++ s ++ buff.drop (i + s.length)

/-- `%10.pf `. -/
def field (p : Nat) (v : ℚ) : List Nat :=
  let s := Time.fmtFixed p v
  List.replicate (10 - s.length) 32 ++ s ++ [32]

/-- The number of decimals and the value to print, lines 151-164. -/
def scaled (au : Bool) (v : ℚ) : Nat × ℚ :=
  if au then (if v / auKm > 99 / 10 then 7 else 8, v / auKm)
  else (if v > 999999 then 2 else if v > 99999 then 3 else 4, v)

/-- One coordinate, lines 145-165, with the NUL that `snprintf_err` stores. -/
def putCoord (au : Bool) (buff : List Nat) (i : Nat) (v : ℚ) : Outcome (List Nat) :=
  let f := field (scaled au |v|).1 (scaled au |v|).2
  let buff := put buff (34 + i * 12) [if v > 0 then 43 else 45]
  if f.length ≥ 12 then .abort else .ok (put buff (35 + i * 12) (f ++ [0]))

/-- `set_mpc_style_offsets`, lines 138-170. -/
def setOffsetLine (buff : List Nat) (p : Triple) : Outcome (List Nat) :=
  let au := inAu p
  let buff := put buff 33 (List.replicate 39 32)
  let buff := put buff 32 [if au then 50 else 49]
  let buff := put buff 33 [32]
  (putCoord au buff 0 p.x).bind fun buff => (putCoord au buff 1 p.y).bind fun buff =>
  (putCoord au buff 2 p.z).bind fun buff => .ok (put (put buff 14 [115]) 70 [32])

/-- A coordinate of a line with a position, lines 430-436. -/
def readCoord (buff : List Nat) (i : Nat) : ℚ :=
  let v := MpcLine.atof (buff.drop (35 + i * 12))
  let v := if at? buff (34 + i * 12) = 45 then -v else v
  if at? buff 32 = 50 then v * auKm else v

/-- The position of such a line, lines 428-438. -/
def readOffset (buff : List Nat) : Triple := ⟨readCoord buff 0, readCoord buff 1, readCoord buff 2⟩

/-! ## Asking for positions -/

/-- `cmd_start`, lines 172-178, with its two values. -/
def cmdStart (verbose : Bool) (idx : Int) : List Nat :=
  bytes "curl -s -o /tmp/add_off.txt " ++ (if verbose then [] else bytes "-q ") ++
    bytes "\"https://ssd.jpl.nasa.gov/horizons_batch.cgi?batch=1&COMMAND='" ++ decInt idx ++
    bytes "'&REF_PLANE='FRAME'&OBJ_DATA='NO'&TABLE_TYPE='V'&TLIST="

/-- `cmd_end`, lines 180-184. -/
def cmdEnd : List Nat := bytes "&VEC_TABLE='2'&VEC_LABELS='N'\""

/-- `strlcat_error` with `buff[8000]`. -/
def cat (u s : List Nat) : Outcome (List Nat) := if u.length + s.length ≥ 8000 then .abort else .ok (u ++ s)

/-- `'%.6f'`, line 252. -/
def timeText (jd : ℚ) : List Nat := 39 :: Time.fmtFixed 6 (jd - 4800001 / 2) ++ [39]

/-- The loop of lines 244-262: the command so far, and the final value of `i`. -/
def gather (first : List Nat) : Nat → List Rec → List Nat → Outcome (List Nat × Nat)
  | i, [], u => .ok (u, i)
  | i, r :: rs, u =>
    if r.code = first then
      if ¬ (launch < r.jd ∧ r.jd < 2700000) then .abort
      else if (timeText r.jd).length ≥ 15 then .abort
      else
        (if (Multipart.findSub (timeText r.jd) u).isSome then .ok u
          else (if i ≠ 0 then cat u [44] else .ok u).bind fun u => cat u (timeText r.jd)).bind fun u =>
        if u.length + 60 > 8000 then .ok (u, i) else gather first (i + 1) rs u
    else gather first (i + 1) rs u

/-- A date and a state of the answer. -/
structure Entry where
  jd : ℚ
  pos : Triple
  vel : Triple

/-- What one entry does to one record, lines 298-311. -/
def store (first : List Nat) (e : Entry) (r : Rec) : Rec :=
  if r.code = first ∧ |r.jd - e.jd| < tolerance ∧ r.xyz = ⟨0, 0, 0⟩ then { r with xyz := e.pos, vel := e.vel } else r

/-- The answer is read, lines 274-312; `n` is `i`. -/
def storeAll (first : List Nat) (n : Nat) : List Entry → List Rec → Outcome (List Rec)
  | [], rs => .ok rs
  | e :: es, rs =>
    if ¬ (launch < e.jd ∧ e.jd < 2451545 + 36525) then .abort
    else storeAll first n es ((rs.take n).map (store first e) ++ rs.drop n)

/-- Codes of the records without a position are erased, lines 328-334. -/
def giveUp (first : List Nat) (r : Rec) : Rec := if r.code = first ∧ r.xyz.x = 0 then { r with code := [] } else r

/-- `set_offsets`, lines 214-336, for the code `first` of the first record; `ask` is the service, `none` for an error of
    `system`. -/
def offsetsFor (verbose : Bool) (ask : List Nat → Option (List Entry)) (first : List Nat) (rs : List Rec) : Outcome (List Rec) :=
  if horizonsIdx first = 0 then
    .ok (rs.map fun r => if r.code = first then { r with xyz := { r.xyz with x := -1 / 10 } } else r)
  else
    (gather first 0 rs (cmdStart verbose (horizonsIdx first))).bind fun (u, n) =>
    (cat u cmdEnd).bind fun u =>
    (storeAll first n ((ask u).getD []) rs).bind fun rs =>
    .ok (rs.take 1 ++ ((rs.take n).drop 1).map (giveUp first) ++ rs.drop (max n 1))

/-- `set_offsets`. -/
def setOffsets (verbose : Bool) (ask : List Nat → Option (List Entry)) (rs : List Rec) : Outcome (List Rec) :=
  offsetsFor verbose ask ((rs.head?.map (·.code)).getD []) rs

/-- The loop of lines 442-448; `fuel` is the number of records left, `k` that of the record looked at. -/
def fill (verbose : Bool) (ask : Nat → List Nat → Option (List Entry)) : Nat → Nat → List Rec → Outcome (List Rec)
  | 0, _, rs => .ok rs
  | _ + 1, _, [] => .ok []
  | fuel + 1, k, r :: rs =>
    (if r.xyz.x = 0 ∧ r.code ≠ [] then setOffsets verbose (ask k) (r :: rs) else .ok (r :: rs)).bind fun l =>
    (fill verbose ask fuel (k + 1) (l.drop 1)).bind fun t => .ok (l.take 1 ++ t)

/-! ## The two passes over the file -/

/-- The zero vector. -/
def Triple.zero : Triple := ⟨0, 0, 0⟩

/-- A line of the first pass, lines 404-441: the records and `mpc_code_from_ades`. -/
def noteLine (date : List Nat → ℚ) (dt : ℚ → ℚ) (rs : List Rec) (code buff : List Nat) : Outcome (List Rec × List Nat) :=
  (satObsJd date dt code buff).bind fun (jd, code) =>
  if jd = 0 then .ok (rs, code)
  else if at? buff 14 = 83 ∨ code ≠ [] then
    .ok (rs ++ [⟨jd, .zero, .zero, .zero, if code ≠ [] then code else (buff.drop 77).take 3⟩], [])
  else if at? buff 14 = 115 ∧ (rs.getLast?.map (·.jd)) = some jd then
    .ok (rs.dropLast ++ (rs.getLast?.map fun r => { r with orig := readOffset buff }).toList, code)
  else .ok (rs, code)

/-- The first pass. -/
def noteAll (date : List Nat → ℚ) (dt : ℚ → ℚ) : List (List Nat) → List Rec → List Nat → Outcome (List Rec × List Nat)
  | [], rs, code => .ok (rs, code)
  | l :: ls, rs, code => (noteLine date dt rs code l).bind fun (rs, code) => noteAll date dt ls rs code

/-- `ades_posn_tag`, lines 351-355. -/
def posnTag (buff : List Nat) : Bool :=
  (Multipart.findSub (bytes "<pos") buff).isSome || (Multipart.findSub (bytes "<vel") buff).isSome ||
    (Multipart.findSub (bytes "<ctr>") buff).isSome || (Multipart.findSub (bytes "<sys>") buff).isSome

/-- `ades_posvel`, lines 339-344. -/
def adesPosvel (v : ℚ) : List Nat := (Time.fmtFixed 10 v).take 13

/-- The values of an ADES file, lines 473-488. -/
def adesLines (r : Rec) : List (List Nat) :=
  let au := inAu r.xyz
  let units : ℚ := if au then auKm else 1
  let tag (name : String) (i : Nat) (v : ℚ) : List Nat :=
    bytes s!"    <{name}{i}>" ++ adesPosvel v ++ bytes s!"</{name}{i}>\n"
  let vunits : ℚ := if au then units / 86400 else units
  [bytes "    <sys>" ++ bytes (if au then "ICRF_AU" else "ICRF_KM") ++ bytes "</sys>\n", bytes "    <ctr>399</ctr>\n",
   tag "pos" 1 (r.xyz.x / units), tag "pos" 2 (r.xyz.y / units), tag "pos" 3 (r.xyz.z / units),
   tag "vel" 1 (r.vel.x / vunits), tag "vel" 2 (r.vel.y / vunits), tag "vel" 3 (r.vel.z / vunits)]

/-- `%+13.7f`. -/
def signed13 (v : ℚ) : List Nat :=
  let s := Time.fmtFixed 7 v
  let s := if at? s 0 = 45 then s else 43 :: s
  List.replicate (13 - s.length) 32 ++ s

/-- The line with the velocity, lines 494-499, in a buffer of 80 bytes. -/
def velLine (buff : List Nat) (r : Rec) : Outcome (List Nat) :=
  let s := bytes "COM vel (km/s) " ++ (buff.drop 15).take 16 ++ signed13 r.vel.x ++ signed13 r.vel.y ++ signed13 r.vel.z ++
    32 :: r.code ++ [10]
  if s.length ≥ 80 then .abort else .ok s

/-- `snprintf_append` to a buffer of 80 bytes. -/
def app (s t : List Nat) : Outcome (List Nat) := if s.length + t.length ≥ 80 then .abort else .ok (s ++ t)

/-- The line with the differences, lines 501-508. -/
def deltaLine (show_ : Bool) (r : Rec) : Outcome (List (List Nat)) :=
  if show_ ∧ r.orig.x ≠ 0 then
    (app (bytes "COM delta from orig offsets (km)") (32 :: Time.fmtFixed 3 (r.xyz.x - r.orig.x))).bind fun s =>
    (app s (32 :: Time.fmtFixed 3 (r.xyz.y - r.orig.y))).bind fun s =>
    (app s (32 :: Time.fmtFixed 3 (r.xyz.z - r.orig.z))).bind fun s => .ok [s ++ [10]]
  else .ok []

/-- A line of the second pass, lines 452-515: what is written and `mpc_code_from_ades`. -/
def writeLine (date : List Nat → ℚ) (dt : ℚ → ℚ) (show_ : Bool) (rs : List Rec) (code buff : List Nat) :
    Outcome (List (List Nat) × List Nat) :=
  (satObsJd date dt code buff).bind fun (jd, code) =>
  if jd ≤ 0 then .ok (if posnTag buff then [] else [buff], code)
  else if at? buff 14 ≠ 115 ∨ code ≠ [] then
    let mpc := if code ≠ [] then code else (buff.drop 77).take 3
    match rs.find? fun r => r.code == mpc && decide (|jd - r.jd| < tolerance) with
    | none => .ok ([buff], code)
    | some r =>
      if code ≠ [] then .ok (adesLines r ++ [buff], code)
      else
        (velLine buff r).bind fun v => (deltaLine show_ r).bind fun d => (setOffsetLine buff r.xyz).bind fun s =>
        .ok (v :: d ++ [buff, s], code)
  else .ok ([], code)

/-- The second pass. -/
def writeAll (date : List Nat → ℚ) (dt : ℚ → ℚ) (show_ : Bool) (rs : List Rec) : List (List Nat) → List Nat → Outcome (List (List Nat))
  | [], _ => .ok []
  | l :: ls, code => (writeLine date dt show_ rs code l).bind fun (out, code) =>
    (writeAll date dt show_ rs ls code).bind fun rest => .ok (out ++ rest)

/-- `process_file`, lines 393-528. -/
def processFile (date : List Nat → ℚ) (dt : ℚ → ℚ) (verbose show_ : Bool) (ask : Nat → List Nat → Option (List Entry))
    (file : List (List Nat)) : Outcome (List (List Nat)) :=
  (noteAll date dt file [] []).bind fun (rs, code) => (fill verbose ask rs.length 0 rs).bind fun rs =>
  writeAll date dt show_ rs file code

end Verif.AddOff
