import Verif.Model.Bytes
import Verif.Model.Date

/-!
# Model: the program that makes the table of Chinese years (/repo/chinese.cpp)

Lines are bytes without the zero, shorter than 60, and what is beyond a line's end is zero (for the first line the code has what the stack had
there).  `long` and `int` are `Int`; what is printed is left out.  `argv[2]` gives the number of years `n`.
-/

namespace Verif.ChinesePack

open Verif Verif.Date

/-- The byte at an index; zero beyond the end. -/
def byte (l : List Nat) (i : Nat) : Nat := l.getD i 0

/-- `YEAR_DATA`, lines 70-74. -/
@[ext] structure Year where
  mask : Nat
  inter : Nat
  offset : Nat
deriving DecidableEq

/-- The variables of lines 74, 78-80; `data i` is `ydata[i]`. -/
structure Static where
  n : Int
  year0 : Int
  bitmask : Nat
  prevJd : Int
  data : Int → Year

/-- An assignment to `ydata[year - year0]`, if there is such an entry. -/
def Static.set (s : Static) (year : Int) (f : Year → Year) : Static :=
  if year ≥ s.year0 ∧ year < s.year0 + s.n then { s with data := fun i => if i = year - s.year0 then f (s.data i) else s.data i } else s

/-- The variables of `dump_data`. -/
structure Loop where
  month : Int
  year : Int
  inter : Int
  s : Static

/-- Lines 106-109: the bit for the month that ends, if it had thirty days, and the next bit. -/
def Static.bit (jd prevYear : Int) (s : Static) : Static :=
  let t := if jd - s.prevJd = 30 then s.set prevYear (fun y => { y with mask := y.mask ||| s.bitmask }) else s
  { t with bitmask := t.bitmask * 2 % 65536 }

/-- Lines 113-117: the year begins. -/
def Static.begin (jd year : Int) (s : Static) : Static :=
  Static.set { s with bitmask := 1 } year (fun y => { y with offset := ((jd - (year * 365 + year.tdiv 4 + 757861)) % 256).toNat })

/-- Lines 124-126: a leap month. -/
def Static.leap (year : Int) (number : Nat) (s : Static) : Static := s.set year (fun y => { y with inter := number % 256 })

/-- Line 139: the day is kept. -/
def Static.keep (jd : Int) (s : Static) : Static := { s with prevJd := jd }

/-- Lines 100-140: a new moon; `next` if another follows without a principal term between them. -/
def moon (all : Nat) (next : Bool) (jd : Int) (g : Loop) : Loop :=
  let prevMonth := (g.month + 10).tmod 12 + 1
  let prevYear := g.year - (if prevMonth = 12 then 1 else 0)
  let s := g.s.bit jd prevYear
  let s := if g.month = 1 ∧ g.inter ≠ 1 then s.begin jd g.year else s
  if all = 25 ∧ g.inter = 0 ∧ next = true then ⟨g.month, g.year, prevMonth, (s.leap prevYear prevMonth.toNat).keep jd⟩
  else if g.month + 1 = 13 then ⟨1, g.year + 1, g.inter, s.keep jd⟩
  else ⟨g.month + 1, g.year, g.inter, s.keep jd⟩

/-- The loop of lines 98-141; `after` is `text[n_found]`, which `main` has set (line 168). -/
def moons (all : Nat) (after : List Nat) : List (List Nat) → Loop → Loop
  | [], g => g
  | l :: ls, g => moons all after ls (if byte l 8 = 32 then moon all (byte (ls.headD after) 8 = 32) (atoi l) g else g)

/-- `dump_data`, lines 82-142, for 24 or 25 lines. -/
def dump (text : List (List Nat)) (after : List Nat) (s : Static) : Static :=
  let year := atoi ((text.headD []).drop 35)
  let s := if s.year0 = 0 then { s with year0 := s16 (year + 1) } else s
  (moons text.length after text ⟨12, year, 0, s⟩).s

/-- Lines 166-167: one byte less for years before -999. -/
def shift (l : List Nat) : List Nat := if byte l 26 = 58 then l.take 17 ++ l.drop 18 else l

/-- Line 169: a winter solstice. -/
def marked (l : List Nat) : Bool := byte l 33 = 49 && byte l 34 = 49

/-- The loop of lines 164-184; `none` if it ends the program. -/
def loop : List (List Nat) → List (List Nat) → Static → Option Static
  | [], _, s => some s
  | l :: ls, text, s =>
    let l := shift l
    let s := if marked l = true ∧ (text.length = 24 ∨ text.length = 25) then dump text l s else s
    let text := if marked l then [] else text
    let text := text ++ [l]
    if text.length > 25 then none else loop ls text s

/-- The variables at the start, lines 78-80, 157-158. -/
def Static.start (n : Int) : Static := { n := n, year0 := 0, bitmask := 1, prevJd := 0, data := fun _ => ⟨0, 0, 0⟩ }

/-- A 16-bit integer as two bytes, lines 190-191. -/
def put16 (v : Int) : List Nat := [(v % 256).toNat, (v / 256 % 256).toNat]

/-- `oval`, lines 194-196. -/
def packed (y : Year) : Nat := y.mask + y.inter * 8192 + y.offset * 8192 * 14

/-- Three bytes, line 197. -/
def put24 (v : Nat) : List Nat := [v % 256, v / 256 % 256, v / 65536 % 256]

/-- The file, lines 190-204. -/
def write (s : Static) : List Nat :=
  put16 s.n ++ put16 s.year0 ++ (List.range s.n.toNat).flatMap fun (i : Nat) => put24 (packed (s.data (i : Int)))

/-- The program: the file for a list of lines. -/
def make (n : Int) (lines : List (List Nat)) : Option (List Nat) := (loop lines [] (Static.start n)).map write

/-! ## The reader -/

/-- `get_chinese_year_data`, /repo/date.cpp:600-630, with the table given: days of the year and the intercalary month. -/
def read (file : List Nat) (year : Int) : Option (YearData × Nat) :=
  let index := year - s16 (byte file 3 * 256 + byte file 2 : Nat)
  let n := s16 (byte file 1 * 256 + byte file 0 : Nat)
  if index < 0 ∨ index ≥ n then none
  else
    let k := 4 + 3 * index.toNat
    let v := byte file (k + 2) * 65536 + byte file (k + 1) * 256 + byte file k
    let m := (v >>> 13) % 14
    some (chineseUnpack year v, if m ≠ 0 then m + 1 else 0)

end Verif.ChinesePack
