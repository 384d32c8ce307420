import Verif.Model.Multipart

/-!
# Model of the reader of Gaia tables, /repo/csv2ades.c

`findSub` is `strstr`.  Texts are C strings, with their line ends.
-/

namespace Verif.Csv

open Verif.Multipart (findSub)

/-- `strchr( s, ',') + 1`. -/
def afterComma : List Nat → Option (List Nat)
  | [] => none
  | c :: s => if c = 44 then some s else afterComma s

/-- `n` fields further, /repo/csv2ades.c:69-74. -/
def skip : Nat → List Nat → Option (List Nat)
  | 0, s => some s
  | n + 1, s => (afterComma s).bind (skip n)

/-- `get_csv`, /repo/csv2ades.c:55-80, with the size of `obuff`: the text stored.  `abort` for an assertion that fails,
    `ub` when more is stored than there is room for. -/
def getCsv (size : Nat) (row header tag : List Nat) (maxLen : Nat) : Outcome (List Nat) :=
  match findSub tag header with
  | none => .abort
  | some found =>
    match skip ((header.take (header.length - found.length)).count 44) row with
    | none => .abort
    | some s =>
      let v := (s.takeWhile fun c => decide (c ≠ 44)).take maxLen
      if v.length < size then .ok v else .ub

/-- `file_needed`, /repo/csv2ades.c:164-172. -/
def fileNeeded (file low high : Int) : Bool :=
  (List.range 20).any fun k => decide (low + k ≤ high ∧ Int.tmod (low + k + 11) 20 = file)

end Verif.Csv
