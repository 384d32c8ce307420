import Verif.Model.Scan
import Verif.Model.MpcLine
import Verif.Model.Ctime

/-!
# Model of the program that joins files of TLEs, /repo/them_cat.c

Files are lists of the pieces that `fgets` gives: lines, cut after 199 bytes, without zero bytes.  `double`s are rational
numbers.  Both files can be opened, and what is written arrives.  `now` is the text of `ctime`.
-/

namespace Verif.ThemCat

/-- `!memcmp( buff, p, strlen( p))`. -/
def starts (p : String) (l : List Nat) : Bool := l.take p.length == bytes p

/-- The lines up to `# Ephem range:`, lines 52-54: that line and those after it. -/
def range : List (List Nat) → Option (List Nat × List (List Nat))
  | [] => none
  | l :: ls => if starts "# Ephem range:" l then some (l, ls) else range ls

/-- The `n` lines skipped, lines 56-58: what `buff` has then, and the lines left. -/
def skip : Nat → List Nat → List (List Nat) → List Nat × List (List Nat)
  | 0, buff, ls => (buff, ls)
  | n + 1, buff, [] => skip n buff []
  | n + 1, _, l :: ls => skip n l ls

/-- `sscanf( buff + 15, "%lf %lf", ...)`, line 55; `none` if a number is missing. -/
def twoNumbers (l : List Nat) : Option (ℚ × ℚ) :=
  match Scan.scanReal (K := ℚ) (l.drop 15) with
  | none => none
  | some (a, r) => match Scan.scanReal (K := ℚ) r with
    | none => none
    | some (b, _) => some (a, b)

/-- A text stored at `buff + i`, before the line's end or at it: what was after it is lost.  After the end it is not seen. -/
def over (i : Nat) (l t : List Nat) : List Nat := if l.length < i then l else l.take i ++ t

/-- The new end of the range, lines 63-64. -/
def editRange (last : ℚ) (l : List Nat) : Outcome (List Nat) :=
  if starts "# Ephem range:" l then
    let t := Time.fmtFixed 6 last ++ bytes " 1.000000\n"
    if t.length ≥ 172 then .abort else .ok (over 28 l t)
  else .ok l

/-- The line with the last date in words, lines 65-66. -/
def editEnd (newEnd l : List Nat) : List Nat := if starts "# Ephemeris end:" l then newEnd else l

/-- The time of the update, lines 67-68. -/
def editTime (now l : List Nat) : List Nat := if starts "# Last updated with" l then over 42 l now else l

/-- A line of the old file as it is written, lines 63-70. -/
def edit (last : ℚ) (newEnd now l : List Nat) : Outcome (List Nat) :=
  (editRange last l).bind fun l => .ok (editTime now (editEnd newEnd l))

/-- The line before the last TLE to keep, line 71. -/
def isLast (jd0 : ℚ) (l : List Nat) : Bool := starts "# MJD " l && decide (MpcLine.atof (l.drop 6) = jd0 - 1)

/-- The loop over the old file and the assertion after it, lines 61-74: the lines written, and those left. -/
def copy (jd0 last : ℚ) (newEnd now : List Nat) : List (List Nat) → Outcome (List (List Nat) × List (List Nat))
  | [] => .abort
  | l :: ls =>
    (edit last newEnd now l).bind fun l' =>
      if isLast jd0 l' then .ok ([l'], ls)
      else (copy jd0 last newEnd now ls).bind fun r => .ok (l' :: r.1, r.2)

/-- The program, lines 41-88: what replaces the old file.  A new file without the range leaves `jd0_new` unset or taken from
    some other line; this is taken to be undefined.  If the assertion fails, the old file stays as it is. -/
def merge (now : List Nat) (old new : List (List Nat)) : Outcome (List (List Nat)) :=
  match range new with
  | none => .ub
  | some (r, ls) =>
    match twoNumbers r with
    | none => .ub
    | some (jd0, last) =>
      (copy jd0 last (skip 3 r ls).1 now old).bind fun o => .ok (o.1 ++ o.2.take 3 ++ (skip 3 r ls).2)

end Verif.ThemCat
