import Verif.Model.AdesTags
import Verif.Model.Ctime
import Verif.Model.MpcLine
import Verif.Model.NetCodes
import Verif.Model.Pack
import Verif.Model.PackRef

/-!
# ADES observations turned into 80-column lines, /repo/ades2mpc.cpp

The values of the elements (`process_ades_tag`), the lines given out for an observation (`get_a_line`), PSV headers and
lines, lines with sigmas in columns 81-92, and `xlate_ades2mpc` that calls them all.

Simplifications: numbers are rational (no rounding errors).  `get_time_from_stringl` is a parameter (`Ext.time`).  Reading a
few bytes beyond the terminator of the input line gives zeros; a write outside the array it is meant for is undefined
behaviour, even where another member of the structure follows.  Bytes are unsigned codes; a `char` of 128 or more is negative,
hence less than a blank.
-/

namespace Verif.AdesObs

open Verif Verif.Ades Verif.MpcLine

/-- What is not modelled here: `get_time_from_stringl( 0., s, 0, NULL)`. -/
structure Ext where
  time : List Nat → Outcome ℚ

/-- The arrays `line` and `line2`, byte by byte. -/
abbrev Card := Nat → Nat

/-- `ades2mpc_t`, lines 40-57.  Strings without the terminator; `none` for `NOT_A_VALID_TIME` and for a null `psv_tags`;
    `n_psv_fields` is the length of that list. -/
structure Ctx where
  st : St := Ades.init
  line : Card := fun _ => 0
  line2 : Card := fun _ => 0
  rmsRa : List Nat := []
  rmsDec : List Nat := []
  corr : List Nat := []
  rmsMag : List Nat := []
  rmsTime : List Nat := []
  fullRa : List Nat := []
  fullDec : List Nat := []
  fullMag : List Nat := []
  notes : List Nat := []
  prog : List Nat := []
  trkSub : List Nat := []
  obsId : List Nat := []
  trkId : List Nat := []
  band : List Nat := []
  t2k : Option ℚ := none
  idSet : Int := 0
  getting : Bool := false
  center : Int := 0
  passed : Bool := false
  psv : Option (List Int) := none
  vel : ℚ × ℚ × ℚ := (0, 0, 0)
  ignoreArtsat : Bool := false

/-- `init_ades2mpc`, lines 59-65. -/
def init : Ctx := {}

/-- `memcpy( m + a, s, ...)`. -/
def blit (m : Card) (a : Nat) (s : List Nat) : Card := fun i => if a ≤ i ∧ i < a + s.length then at? s (i - a) else m i

/-- The same for an array of 83 bytes. -/
def blitIn (m : Card) (a : Nat) (s : List Nat) : Outcome Card := if a + s.length ≤ 83 then .ok (blit m a s) else .ub

/-- The string that begins at `m + a`, in an array of 83 bytes. -/
def text (m : Card) (a : Nat) : List Nat := ((List.range' a (83 - a)).map m).takeWhile (· ≠ 0)

/-- `strlcpy_err( dst, s, size)`. -/
def fit (size : Nat) (s : List Nat) : Outcome (List Nat) := if s.length < size then .ok s else .abort

/-- `assert`. -/
def check (b : Bool) : Outcome Unit := if b then .ok () else .abort

/-! ## Values -/

/-- `move_fits_time`, lines 377-398: the bytes stored.  The loop is `timeBytes`. -/
def timeBytes : List Nat → List Nat
  | [] => []
  | c :: s =>
    if c = 90 then []
    else if isDigit c then c :: timeBytes s
    else if c = 84 then 58 :: timeBytes s
    else timeBytes s

def fitsTime (s : List Nat) : List Nat :=
  if at? s 4 = 45 ∧ at? s 7 = 45 ∧ at? s 10 = 84 ∧ at? s 13 = 58 then
    Desig.intToMutantHexChar (sbyte (at? s 0) * 10 + sbyte (at? s 1) - 48 * 11) :: timeBytes (s.drop 2)
  else []

/-- The loop that looks for the last point, lines 405-407. -/
def pointLoc (s : List Nat) : Nat → Nat → Nat
  | 0, found => found
  | k + 1, found => pointLoc s k (if found = s.length ∧ at? s k = 46 then k else found)

/-- `%w.8f`. -/
def fixed8 (w : Nat) (x : ℚ) : List Nat :=
  let s := Time.fmtFixed 8 x
  List.replicate (w - s.length) 32 ++ s

/-- `place_value`, lines 400-425, for the value `s` followed by `more`: the bytes stored, and whether they were rounded. -/
def placeValue (s more : List Nat) (places : Nat) : Outcome (List Nat × Bool) :=
  let p := pointLoc s s.length s.length
  if places < p then .abort
  else if s.length - p > 8 then
    let t := if places = 2 then fixed8 11 (atof (s ++ more)) ++ [32] else fixed8 12 (atof (s ++ more))
    if t.length < 13 then .ok (t, true) else .abort
  else .ok (List.replicate (places - p) 48 ++ s.take (9 + p), false)

/-- The table of line 630-631. -/
def modes : List (List Nat × Nat) := [(bytes "CCD", 67), (bytes "CMO", 66), (bytes "VID", 110), (bytes "PHO", 80),
  (bytes "ENC", 101), (bytes "PMT", 112), (bytes "MIC", 77), (bytes "MER", 84), (bytes "TDI", 67), (bytes "OCC", 69),
  (bytes "UNK", 63)]

/-- Lines 634-636: the last entry that fits. -/
def modeByte (s : List Nat) (old : Nat) : Nat := modes.foldl (fun o e => if e.1 = s then e.2 else o) old

/-- The string of line 652. -/
def programs : List Nat := bytes "0123456789!\"#$%&'()*+,-./[\\]^_`{|}~"

/-- The byte for the magnitude band, lines 614-623. -/
def bandByte (s : List Nat) : Nat :=
  if (at? s 0 = 80 ∨ at? s 0 = 83) ∧ at? s 1 ∈ bytes "grizwy" then at? s 1
  else if at? s 0 = 65 ∧ (at? s 1 = 111 ∨ at? s 1 = 99) then at? s 1
  else if at? s 0 = 71 ∧ (at? s 1 = 98 ∨ at? s 1 = 114) then at? s 1
  else at? s 0

/-- Position of the first point. -/
def firstPoint (s : List Nat) : Option Nat := if 46 ∈ s then some (s.takeWhile (· ≠ 46)).length else none

/-- Lines 690-752, for a satellite: `k` is 0, 1, 2 for x, y, z.  Gives `line2` and whether the units are bad. -/
def satellite (c : Ctx) (k : Nat) (name : List Nat) : Outcome (Ctx × Bool) :=
  let signLoc := 34 + k * 12
  let bad : Bool := c.line2 32 ≠ 49 ∧ c.line2 32 ≠ 50
  let sci : Bool := 101 ∈ name ∨ 69 ∈ name
  let name1 := if sci then Time.fmtFixed 13 (atof name) else name
  if sci = true ∧ name1.length ≥ 40 then .abort
  else
    let nlen := if sci then 12 else name1.length
    let bare : Bool := at? name1 0 ≠ 43 ∧ at? name1 0 ≠ 45
    if bare = true ∧ name1.length + 1 ≥ 40 then .ub
    else
      let name2 := if bare then 43 :: name1 else name1
      let nlen := if bare then nlen + 1 else nlen
      let line2 := blit c.line2 signLoc [at? name2 0]
      match firstPoint name2 with
      | none => .abort
      | some p =>
        if c.line2 32 = 49 ∧ 9 ≤ p then .abort
        else if c.line2 32 = 50 ∧ 4 ≤ p then .abort
        else if bad then .ok ({ c with line2 := line2 }, true)
        else
          let loc := if c.line2 32 = 49 then signLoc + 6 + (if 7 ≤ p then 1 else 0) + (if 8 ≤ p then 1 else 0)
            else signLoc + 2 + (if p = 3 then 1 else 0)
          let n := if nlen > 11 then 10 else nlen - 1
          let src := ((name2.drop 1) ++ List.replicate 40 0).take n
          .ok ({ c with line2 := blit line2 (loc - p + 1) src }, false)

/-- Lines 753-778, for a roving observer. -/
def rover (c : Ctx) (k : Nat) (name : List Nat) : Outcome Ctx :=
  let len := name.length
  if k = 0 then
    match firstPoint name with
    | none => .ub
    | some p => if 37 < p then .ub else (blitIn c.line2 (37 - p) name).bind fun l => .ok { c with line2 := l }
  else if k = 1 then
    let signed : Bool := at? name 0 = 45 ∨ at? name 0 = 43
    let line2 := blit c.line2 45 [if signed then at? name 0 else 43]
    let name1 := if signed then name.drop 1 else name
    match firstPoint name1 with
    | none => .ub
    | some p => if 48 < p then .ub else (blitIn line2 (48 - p) name1).bind fun l => .ok { c with line2 := l }
  else (blitIn c.line2 (61 - len) name).bind fun l => .ok { c with line2 := l }

/-- Lines 835-856: a designation made only of digits is put in parentheses. -/
def designation (name : List Nat) : Outcome (List Nat) :=
  if name.all isDigit then
    if name.length + 2 ≥ 40 then .ub else .ok (40 :: (name ++ [41]))
  else .ok name

/-- The first twelve bytes of the line from a designation, lines 850-853. -/
def setDesig (c : Ctx) (itag : Int) (name : List Nat) : Outcome Ctx :=
  if name.length ≥ 40 then .abort
  else (designation name).bind fun d =>
    .ok { c with line := blit c.line 0 (Desig.createPackedDesig d).2, idSet := itag }

/-- `memcpy( cptr->line + a, s, ...)`. -/
def Ctx.put (c : Ctx) (a : Nat) (s : List Nat) : Ctx := { c with line := blit c.line a s }

/-- `name`, lines 552-556: not initialised when the value has 40 bytes or more. -/
def named {α : Type} (s : List Nat) (f : List Nat → Outcome α) : Outcome α := if s.length < 40 then f s else .ub

/-- The names given in a header, lines 564-596. -/
def headerText (c : Ctx) (s : List Nat) : Outcome (List Nat) :=
  if c.st.depth > 1 then
    (c.st.read (c.st.depth - 2)).bind fun up =>
      fit 221 (if up = 53 ∨ up = 27 then bytes "COM " ++ s ++ [10]
        else if up = 66 then bytes "COM Observatory name " ++ s ++ [10]
        else if up = 67 then bytes "OBS " ++ s ++ [10]
        else if up = 51 then bytes "MEA " ++ s ++ [10]
        else if up = 135 then bytes "CON " ++ s ++ [10]
        else bytes "COM Mangled '" ++ s ++ bytes "'\n")
  else .ok (bytes "COM Mangled name data\n")

/-- `ADES_obsTime`, lines 600-613.  `s` is the value, `more` what follows it in the input. -/
def obsTime (e : Ext) (c : Ctx) (s more : List Nat) : Outcome Ctx :=
  let future : Bool := atoi (s ++ more) > 2099
  let t := fitsTime (s ++ more)
  (blitIn c.line 15 t).bind fun l =>
    if t.length > 17 ∨ future = true then
      named s fun n => (e.time (n.takeWhile (· ≠ 90))).bind fun x =>
        .ok { c with line := if future then blit l 15 [75] else l, t2k := some x }
    else .ok { c with line := l }

/-- `ADES_ra`, lines 780-791. -/
def placeRa (c : Ctx) (s more : List Nat) : Outcome Ctx :=
  let s := if at? s 0 = 43 then s.drop 1 else s
  (placeValue s more 3).bind fun r =>
    if r.2 then (if s.length < 26 then .ok { c with line := blit c.line 32 r.1, fullRa := s } else .ub)
    else .ok { c with line := blit c.line 32 r.1 }

/-- `ADES_dec`, lines 792-807. -/
def placeDec (c : Ctx) (s more : List Nat) : Outcome Ctx :=
  let signed : Bool := at? s 0 = 45 ∨ at? s 0 = 43
  let sign := if signed then at? s 0 else 43
  let s := if signed then s.drop 1 else s
  (placeValue s more 2).bind fun r =>
    let line := blit (blit c.line 44 [sign]) 45 r.1
    if r.2 then (if s.length + 1 < 26 then .ok { c with line := line, fullDec := sign :: s } else .ub)
    else .ok { c with line := line }

/-- `process_ades_tag`, lines 545-903: context, `obuff` and the value returned, for the value `s` of the element `itag`,
    followed in the input by `more`. -/
def processTag (e : Ext) (c : Ctx) (itag : Int) (s more : List Nat) : Outcome (Ctx × List Nat × Int) :=
  let quiet : Outcome Ctx → Outcome (Ctx × List Nat × Int) := fun r => r.bind fun c => .ok (c, [], 0)
  if itag = 53 then named s fun n => .ok (c, bytes "COD " ++ n ++ [10], 1)
  else if itag = 55 ∨ itag = 47 ∨ itag = 46 then (headerText c s).bind fun o => .ok (c, o, 1)
  else if itag = 132 then quiet (.ok (c.put 77 [at? (s ++ more) 0, at? (s ++ more) 1, at? (s ++ more) 2]))
  else if itag = 65 then quiet (obsTime e c s more)
  else if itag = 19 then
    quiet ((check (0 < s.length ∧ s.length < 4)).bind fun _ => .ok { c.put 70 [bandByte (s ++ more)] with band := s })
  else if itag = 52 then quiet (.ok (if s.length = 3 then c.put 14 [modeByte s (c.line 14)] else c))
  else if itag = 34 then quiet (.ok (c.put 14 [88]))
  else if itag = 37 then quiet (.ok (if at? (s ++ more) 0 = 42 then c.put 12 [42] else c))
  else if itag = 101 then quiet (.ok (match if s.length < 40 then packMpcReference s else none with
    | some r => c.put 72 r
    | none => c))
  else if itag = 94 then
    let idx := atoi (s ++ more)
    let c := if 0 ≤ idx ∧ idx ≤ 34 then c.put 13 [at? programs idx.toNat] else c
    quiet ((check (s.length < 3)).bind fun _ => .ok { c with prog := s })
  else if itag = 136 then
    quiet (named s fun n =>
      let line2 := blit (blit c.line2 0 [32]) 14 [115]
      if n = bytes "ICRF_KM" then .ok { c.put 14 [83] with line2 := blit line2 32 [49] }
      else if n = bytes "ICRF_AU" then .ok { c.put 14 [83] with line2 := blit line2 32 [50] }
      else if n = bytes "WGS84" then .ok { c.put 14 [86] with line2 := blit (blit line2 32 [49]) 14 [118] }
      else .abort)
  else if itag = 28 then quiet (named s fun n => .ok { c with center := atoi n })
  else if itag = 143 ∨ itag = 144 ∨ itag = 145 then
    quiet ((check (c.line 14 = 83)).bind fun _ => named s fun n => .ok { c with
      vel := if itag = 143 then (atof n, c.vel.2) else if itag = 144 then (c.vel.1, atof n, c.vel.2.2) else (c.vel.1, c.vel.2.1, atof n) })
  else if itag = 82 ∨ itag = 83 ∨ itag = 84 then
    (check (c.line 14 = 83 ∨ c.line 14 = 86)).bind fun _ => named s fun n =>
      if c.line 14 = 83 then (satellite c (itag - 82).toNat n).bind fun r =>
        .ok (r.1, if r.2 then bytes "Bad posn data\n" else [], if r.2 then 1 else 0)
      else quiet (rover c (itag - 82).toNat n)
  else if itag = 96 then quiet (placeRa c s more)
  else if itag = 29 then quiet (placeDec c s more)
  else if itag = 17 then
    quiet ((check (s.length < 40)).bind fun _ => (Net.netNameToByteCode s).bind fun b =>
      (check (b ≠ 0)).bind fun _ => .ok (c.put 71 [b]))
  else if itag = 116 then quiet ((check (s.length < 26)).bind fun _ => .ok { c with rmsRa := s })
  else if itag = 56 then quiet ((check (s.length < 7)).bind fun _ => .ok { c.put 13 [at? s 0] with notes := s })
  else if itag = 109 then quiet ((check (s.length < 26)).bind fun _ => .ok { c with rmsDec := s })
  else if itag = 108 then quiet ((check (s.length < 26)).bind fun _ => .ok { c with corr := s })
  else if itag = 117 then quiet ((check (s.length < 26)).bind fun _ => .ok { c with rmsTime := s })
  else if itag = 114 then quiet ((check (s.length < 26)).bind fun _ => .ok { c with rmsMag := s })
  else if itag = 95 ∧ c.idSet = 75 then quiet (.ok c)
  else if itag = 95 ∨ itag = 75 then quiet (setDesig c itag s)
  else if itag = 16 then
    quiet ((check (s.length < 13)).bind fun _ =>
      .ok (if c.idSet = 0 ∧ c.ignoreArtsat = false then { c.put 0 s with idSet := 16 } else c))
  else if itag = 140 then
    quiet ((check (s.length < 13)).bind fun _ =>
      .ok (if c.idSet = 0 then { c.put (if s.length < 8 then 5 else 12 - s.length) s with idSet := 140, trkSub := s }
        else { c with trkSub := s }))
  else if itag = 138 then quiet ((check (s.length < 12)).bind fun _ => .ok { c with trkId := s })
  else if itag = 63 then quiet ((check (s.length < 26)).bind fun _ => .ok { c with obsId := s })
  else if itag = 50 then
    let c := c.put 65 (s.take 5)
    quiet (if s.length > 5 then named s fun n => (fit 9 n).bind fun m => .ok { c with fullMag := m } else .ok c)
  else if itag = 139 then quiet (.ok c)
  else .ok (c, bytes "COM Unhandled ADES tag " ++ decInt itag, 0)

/-- `setup_observation`, lines 922-932. -/
def setup (c : Ctx) : Ctx :=
  let card : Card := fun i => if i < 80 then 32 else if i = 80 then 10 else 0
  { c with line := card, line2 := blit card 0 [0], idSet := 0, center := 399, t2k := none }

/-! ## Lines given out -/

/-- `" m:..."` and the like. -/
def opt (label : String) (s : List Nat) : List Nat := if s = [] then [] else bytes label ++ s

/-- `%13.7f` and, with a sign, `%+13.7f`. -/
def fixed7 (plus : Bool) (x : ℚ) : List Nat :=
  let s := Time.fmtFixed 7 x
  let s := if plus ∧ at? s 0 ≠ 45 then 43 :: s else s
  List.replicate (13 - s.length) 32 ++ s

/-- `AU_IN_KM / seconds_per_day`. -/
def auPerDay : ℚ := 1495978707 / 10 / 86400

/-- The second line gets its columns 1-12, 16-32, 70-77 and 78-80, lines 514-521. -/
def second (c : Ctx) : Outcome Card :=
  let l := blit c.line2 0 ((List.range 12).map c.line)
  let l := blit l 15 ((List.range' 15 17).map c.line)
  let n := decInt c.center
  if c.center ≠ 399 ∧ 8 < n.length then .abort
  else
    let l := if c.center ≠ 399 then blit l 69 (List.replicate (8 - n.length) 32 ++ n) else l
    .ok (blit l 77 ((List.range' 77 3).map c.line))

/-- `get_a_line`, lines 434-539, with 221 bytes for the output: context, the line (`none` when nothing is stored), and whether
    there may be more. -/
def getLine (c : Ctx) : Outcome (Ctx × Option (List Nat) × Bool) :=
  let give : Ctx → List Nat → Outcome (Ctx × Option (List Nat) × Bool) := fun c s => (fit 221 s).bind fun s => .ok (c, some s, c.getting)
  if c.rmsRa ≠ [] then
    give { c with rmsRa := [], rmsMag := [], rmsTime := [] }
      (bytes "COM Sigmas " ++ c.rmsRa ++
        (if c.rmsRa ≠ c.rmsDec then 120 :: c.rmsDec ++ (if atof c.corr ≠ 0 then 44 :: c.corr else []) else []) ++
        opt " m:" c.rmsMag ++ opt " t:" c.rmsTime ++ [10])
  else if c.trkSub ≠ [] ∨ c.obsId ≠ [] ∨ c.trkId ≠ [] then
    give { c with trkSub := [], obsId := [], trkId := [] }
      (bytes "COM IDs" ++ opt " trkSub:" c.trkSub ++ opt " obsID:" c.obsId ++ opt " trkID:" c.trkId ++ [10])
  else if c.fullRa ≠ [] ∨ c.fullDec ≠ [] ∨ c.t2k ≠ none then
    give { c with fullRa := [], fullDec := [], t2k := none }
      (bytes "COM RA/dec " ++ (if c.fullRa ≠ [] then c.fullRa else [45]) ++ 32 :: (if c.fullDec ≠ [] then c.fullDec else [45]) ++
        (c.t2k.elim [] fun x => 32 :: Time.fmtFixed 15 x) ++ [10])
  else if c.fullMag ≠ [] then give { c with fullMag := [] } (bytes "COM full mag " ++ c.fullMag ++ [10])
  else if at? c.band 1 ≠ 0 ∨ (32 < at? c.notes 0 ∧ at? c.notes 0 < 128) ∨ (32 ≤ at? c.prog 0 ∧ at? c.prog 0 < 128) then
    give { c with band := c.band.take 1, notes := [], prog := [] }
      (bytes "COM ADES tags" ++ (if at? c.band 1 ≠ 0 then bytes " band:" ++ c.band else []) ++
        (if 32 ≤ at? c.notes 0 ∧ at? c.notes 0 < 128 then bytes " notes:" ++ c.notes else []) ++
        (if 32 ≤ at? c.prog 0 ∧ at? c.prog 0 < 128 then bytes " progcode:" ++ c.prog else []))
  else if c.vel ≠ (0, 0, 0) then
    let m : ℚ := if c.line2 32 = 50 then auPerDay else 1
    give { c with vel := (0, 0, 0) }
      (bytes "COM vel (km/s) " ++ (text c.line 15).take 14 ++ [32, 32] ++ fixed7 true (c.vel.1 * m) ++ fixed7 false (c.vel.2.1 * m) ++
        fixed7 false (c.vel.2.2 * m) ++ 32 :: text c.line 77)
  else if c.line 0 ≠ 0 then
    (if c.line2 0 ≠ 0 then second c else .ok c.line2).bind fun l2 =>
      .ok ({ c with line := blit c.line 0 [0], line2 := l2 }, some (text c.line 0), c.getting)
  else if c.line2 0 ≠ 0 then give { c with line2 := blit c.line2 0 [0] } (text c.line2 0)
  else .ok ({ c with getting := false }, none, false)

/-! ## PSV and other lines -/

/-- The part of `s` before the next `'|'`, and what comes after it if there is one. -/
def cut (s : List Nat) : List Nat × Option (List Nat) :=
  (s.takeWhile (· ≠ 124), match s.dropWhile (· ≠ 124) with | [] => none | _ :: r => some r)

/-- The value of a PSV field, lines 911-915: `s` begins at the field and goes on to the end of the line. -/
def psvValue (s : List Nat) : List Nat × List Nat :=
  let s := skipWs s
  let v := s.takeWhile fun c => c ≠ 124 ∧ 32 ≤ c ∧ c < 128
  let len := (v.reverse.dropWhile (· = 32)).length
  (s.take len, s.drop len)

/-- `process_psv_tag`, lines 905-919; only the context is of interest. -/
def psvTag (e : Ext) (c : Ctx) (itag : Int) (s : List Nat) : Outcome Ctx :=
  let v := psvValue s
  if v.1 ≠ [] ∧ itag ≥ 0 then (processTag e c itag v.1 v.2).bind fun r => .ok r.1 else .ok c

/-- The loop of lines 996-1005. -/
def psvFields (e : Ext) : Ctx → List Int → List Nat → Outcome Ctx
  | c, [], _ => .ok c
  | c, [t], s => (psvTag e c t s).bind fun c => (check (cut s).2.isNone).bind fun _ => .ok c
  | c, t :: ts, s => (psvTag e c t s).bind fun c => match (cut s).2 with
    | none => .abort
    | some r => psvFields e c ts r

/-- `process_psv_line`, lines 978-1008: `none` when the number of fields is not right. -/
def psvLine (e : Ext) (c : Ctx) (tags : List Int) (s : List Nat) : Outcome (Option Ctx) :=
  if s.count 124 + 1 ≠ tags.length then .ok none
  else (psvFields e (setup c) tags s).bind fun c => .ok (some c)

/-- The starts of the fields of a PSV header, lines 1023-1036 and 1045-1059: the rest of the line from each field on. -/
def headerFields : Nat → List Nat → List (List Nat)
  | 0, _ => []
  | n + 1, s => skipWs s :: match (cut (skipWs s)).2 with
    | none => []
    | some r => headerFields n r

/-- `check_for_psv_header`, lines 1015-1062: `none` when it is not a header. -/
def psvHeader (c : Ctx) (s : List Nat) : Outcome (Option Ctx) :=
  let fs := headerFields (s.length + 1) s
  if fs.all (fun f => isLower (at? f 0)) = false ∨ fs.length < 4 then .ok none
  else
    let ts := fs.map fun f => findTag f (f.takeWhile fun c => c ≠ 124 ∧ 32 < c ∧ c < 128).length
    if ts.all (0 < ·) then .ok (some { c with psv := some ts }) else .abort

/-- `process_psv_header`, lines 1064-1092: context, output and the value returned. -/
def hashLine (e : Ext) (c : Ctx) (s : List Nat) : Outcome (Ctx × List Nat × Int) :=
  let n := ((s.drop 2).takeWhile fun c => 32 < c ∧ c < 128).length
  let itag := findTag (s.drop 2) n
  if itag < 0 then .ok (c, [], 0)
  else if at? s 0 = 35 then (c.st.write 1 itag).bind fun st => .ok ({ c with st := st }, [], 2)
  else
    (c.st.write 2 itag).bind fun st =>
    let v := skipWs (s.drop (2 + n))
    let len := (v.takeWhile fun c => 32 ≤ c ∧ c < 128).length
    (processTag e { c with st := ⟨3, st.tags⟩ } itag (v.take len) (v.drop len)).bind fun r =>
      .ok ({ r.1 with st := ⟨0, r.1.st.tags⟩ }, r.2)

/-- `check_for_tholen_sigmas`, lines 945-976. -/
def tholen (c : Ctx) (s : List Nat) : Option Ctx :=
  let l := s.take 80
  if s.length ≥ 92 ∧ at? s 92 < 32 ∧ at? s 82 = 46 ∧ at? s 88 = 46 ∧ at? s 80 = 32 ∧ at? s 86 = 32 ∧
      isValidMpcCode (s.drop 77) = true ∧ (extractDate l).1 ≠ 0 then
    let c := setup c
    let d := Desig.createPackedDesig (l.take 12)
    let line := blit c.line 0 (l ++ [0])
    some { c with
      rmsRa := (s.drop 81).take 5, rmsDec := (s.drop 87).take 5, getting := true
      line := if d.1 = 0 then blit line 0 d.2 else line }
  else none

/-- Whether `pat` occurs in `s`. -/
def strstr (s pat : List Nat) : Bool := match s with
  | [] => pat.isEmpty
  | c :: cs => Desig.startsWith pat (c :: cs) || strstr cs pat

/-- One pass of the loop over an XML line, lines 1164-1213; `out` is the contents of `obuff`. -/
inductive XStep where
  | next (rest : List Nat) (c : Ctx) (out : List Nat) (rval : Int)
  | done (c : Ctx) (out : List Nat) (rval : Int)
  | stop (c : Ctx) (rval : Int)      -- `return` from inside the loop

def xmlStep (e : Ext) (s : List Nat) (c : Ctx) (out : List Nat) (rval : Int) : Outcome XStep :=
  if rval < 0 then .ok (.done c out rval) else
  match s with
  | [] => .ok (.done c out rval)
  | b :: cs =>
    if b = 60 then
      match cs.dropWhile (· ≠ 62) with
      | [] => .ok (.stop c (-4))
      | _ :: rest =>
        let t := findTag cs (cs.takeWhile (· ≠ 62)).length
        let closing := at? cs 0 == 47
        (tagStep c.st rval closing t).bind fun r =>
          let c := { c with st := r.1 }
          let c := if t = optical then (if closing then { c with getting := true } else setup c) else c
          .ok (.next (skipWs rest) c out r.2)
    else if c.st.depth ≠ 0 then
      (c.st.read (c.st.depth - 1)).bind fun itag =>
        (processTag e c itag (s.take (textLen s)) (s.drop (textLen s))).bind fun r =>
          .ok (.next (skipWs (s.drop (textLen s))) r.1 r.2.1 r.2.2)
    else .ok (.stop c rval)

/-- At most `n` passes; `none` when the loop is still going.  `buff` is the input, which is still there after a `return` from
    inside the loop. -/
def xmlRun (e : Ext) (buff : List Nat) : Nat → List Nat → Ctx → List Nat → Int → Option (Outcome (Ctx × List Nat × Int))
  | 0, _, _, _, _ => none
  | n + 1, s, c, out, rval => match xmlStep e s c out rval with
    | .ok (.done c out r) => some (if r = 0 then .ok (c, out, r) else
        (getLine c).bind fun g => .ok (g.1, g.2.1.getD out, r))
    | .ok (.stop c r) => some (.ok (c, buff, r))
    | .ok (.next rest c out r) => xmlRun e buff n rest c out r
    | .abort => some .abort
    | .ub => some .ub

/-- The value returned by a call that hands out a line. -/
def handOut (buff : List Nat) (c : Ctx) : Option (Outcome (Ctx × List Nat × Int)) :=
  some ((getLine c).bind fun g => .ok (g.1, g.2.1.getD buff, if g.2.2 then 1 else 0))

/-- A PSV data line, lines 1118-1128: whether it was one. -/
def psvTry (e : Ext) (c : Ctx) (s : List Nat) : Outcome (Ctx × Bool) := match c.psv with
  | none => .ok (c, false)
  | some ts => (psvLine e c ts s).bind fun r => match r with
    | some c => .ok (c, true)
    | none => .ok ({ c with psv := none, st := ⟨0, c.st.tags⟩ }, false)

/-- `xlate_ades2mpc_in_place`, lines 1098-1230: context, contents of the buffer (where the value returned is not zero), value
    returned.  `none`: the loop over the line has not ended after `n` passes. -/
def xlate (e : Ext) (n : Nat) (c : Ctx) (s : List Nat) : Option (Outcome (Ctx × List Nat × Int)) :=
  if c.passed then some (.ok ({ c with passed := false }, s, 0))
  else if c.getting then handOut s c
  else
    let c := if c.st.depth = 0 ∧ strstr s (bytes "<optical>") = true then { c with st := ⟨1, c.st.tags⟩ } else c
    match psvHeader c s with
    | .abort => some .abort
    | .ub => some .ub
    | .ok (some c) => some (.ok ({ c with st := ⟨1, c.st.tags⟩ }, s, 0))
    | .ok none => match psvTry e c s with
      | .abort => some .abort
      | .ub => some .ub
      | .ok (c, true) => handOut s { c with getting := true }
      | .ok (c, false) => match tholen c s with
        | some c => handOut s { c with getting := true }
        | none =>
          match (if at? s 1 = 32 ∧ (at? s 0 = 35 ∨ at? s 0 = 33) then hashLine e c s else .ok (c, [], 0)) with
          | .abort => some .abort
          | .ub => some .ub
          | .ok (c, out, r) =>
            if r = 1 then some (.ok ({ c with passed := true }, out, 1))
            else if r ≠ 0 then some (.ok (c, s, 0))
            else if c.st.depth = 0 ∧ strstr s (bytes "<ades version") = false then
              some (.ok ({ c with passed := true }, s, 1))
            else xmlRun e s n (skipWs s) c [] 0

/-- The end of a line taken off, lines 1265-1267. -/
def trim (s : List Nat) : List Nat := s.takeWhile fun c => c ≠ 10 ∧ c ≠ 13 ∧ c ≠ 0

/-- The rounds that one line of input leads to when `fgets_with_ades_xlation`, lines 1256-1270, is called again and again: as
    long as the value returned is not zero, a line (with that value) is given to the caller and the buffer is translated again.
    `none`: not finished after `n` rounds. -/
def rounds (e : Ext) : Nat → Ctx → List Nat → Option (Outcome (Ctx × List (List Nat × Int)))
  | 0, _, _ => none
  | n + 1, c, s => match xlate e (s.length + 1) c s with
    | none => none
    | some .abort => some .abort
    | some .ub => some .ub
    | some (.ok (c, out, r)) =>
      if r = 0 then some (.ok (c, []))
      else match rounds e n c (trim out) with
        | some (.ok (c, outs)) => some (.ok (c, (trim out, r) :: outs))
        | x => x

/-- All lines of a file, each without its end. -/
def translate (e : Ext) (n : Nat) : Ctx → List (List Nat) → Option (Outcome (Ctx × List (List Nat × Int)))
  | c, [] => some (.ok (c, []))
  | c, l :: ls => match rounds e n c l with
    | some (.ok (c, outs)) => match translate e n c ls with
      | some (.ok (c, outs')) => some (.ok (c, outs ++ outs'))
      | x => x
    | x => x

end Verif.AdesObs
