import Verif.Model.Unpack

/-!
# Model of the designation packing in /repo/mpc_fmt.cpp

`number` is a 32-bit `unsigned` and wraps.  `sub_designator` is an `int`; the model does not wrap it
(in C, `quick_atoi` and the product with 25 overflow, with undefined behaviour, for
sub-designators from 85899965 on).  The result is the return value and the twelve bytes
stored.
-/

namespace Verif.Desig

/-- `extract_roman_numeral`, /repo/mpc_fmt.cpp:581-617. -/
def extractRomanLoop : Int → List Nat → Int
  | rval, [] => rval
  | rval, c :: cs =>
    let n := at? cs 0
    if c = 73 then extractRomanLoop (rval + if n = 86 ∨ n = 88 then -1 else 1) cs            -- I
    else if c = 86 then extractRomanLoop (rval + 5) cs                                      -- V
    else if c = 88 then extractRomanLoop (rval + if n = 76 ∨ n = 67 then -10 else 10) cs     -- X
    else if c = 76 then extractRomanLoop (rval + 50) cs                                     -- L
    else if c = 67 then extractRomanLoop (rval + if n = 68 ∨ n = 77 then -100 else 100) cs   -- C
    else if c = 68 then extractRomanLoop (rval + 500) cs                                    -- D
    else if c = 77 then extractRomanLoop (rval + 1000) cs                                   -- M
    else -1

def extractRoman (s : List Nat) : Int := extractRomanLoop 0 s

/-- Does `s` start with `pre`, as `!strncmp( s, pre, strlen( pre))`. -/
def startsWith (pre s : List Nat) : Bool := s.take pre.length == pre

/-- `pack_permanent_natsat`, /repo/mpc_fmt.cpp:625-649: the packed form, `none` for -1. -/
def packPermanentNatsat (name : List Nat) : Option (List Nat) :=
  planetNames.findSome? fun planet =>
    if startsWith planet name ∧ at? name planet.length = 32 then
      let rest := name.drop (planet.length + 1)
      let n := if atoi rest = 0 then extractRoman rest else atoi rest
      if n > 0 ∧ n < 1000 then some ([at? name 0] ++ pad 3 n.toNat ++ bytes "S       ") else none
    else none

/-- `pack_provisional_natsat`, /repo/mpc_fmt.cpp:653-672. -/
def packProvisionalNatsat (name : List Nat) : Option (List Nat) :=
  if at? name 0 = 83 ∧ at? name 1 = 47 ∧ name.length > 9 ∧ at? name 6 = 32 ∧ at? name 8 = 32
      ∧ strchr (bytes "MVEMJSUNP") (at? name 7) then
    let year := atoi (name.drop 2)
    let num := atoi (name.drop 9)
    if year > 1900 ∧ year < 2100 ∧ num > 0 ∧ num < 620 then
      some (bytes "    S" ++ [65 + year.toNat / 100 - 10] ++ pad 2 (year.toNat % 100) ++
        [at? name 7, intToMutantHexChar (num / 10), 48 + num.toNat % 10, 48])
    else none
  else none

/-- Twelve spaces, /repo/mpc_fmt.cpp:724. -/
def blank12 : List Nat := List.replicate 12 32

/-- Store bytes at an offset. -/
def put (p : List Nat) (i : Nat) (bs : List Nat) : List Nat :=
  match bs with
  | [] => p
  | b :: bs => put (p.set i b) (i + 1) bs

/-- The final fallback, /repo/mpc_fmt.cpp:889-904.  `full` is the name including a comet prefix,
    `len` its length after trimming. -/
def packFallback (p full : List Nat) (len : Nat) : Int × List Nat :=
  if len ≤ 7 then (-1, put p 5 (full.take len))
  else (-1, put p 0 (36 :: full.take 11))

/-- `surveys[]` and `surveys_packed[]`, /repo/mpc_fmt.cpp:765-778. -/
def surveys : List (List Nat × List Nat) :=
  [(bytes "P-L", bytes "PLS"), (bytes "T-1", bytes "T1S"), (bytes "T-2", bytes "T2S"),
   (bytes "T-3", bytes "T3S")]

/-- The name as a provisional designation, /repo/mpc_fmt.cpp:780-834, starting from the blank packed
    designation: 0 or -1, and the bytes stored so far (the fallback overwrites only part of them).
    `i` is the index of the half-month letter, `comet` the comet prefix letter or 0. -/
def packProvisional (o : List Nat) (i len number : Nat) (comet : Nat) : Int × List Nat :=
  let p := blank12
  let p := if number < 6200 then p.set 5 (intToMutantHexChar (number / 100 : Nat)) else p
  let p := p.set 6 (at? o 2)
  let p := p.set 7 (at? o 3)
  let p := p.set 8 (toUpper (at? o i))
  let i := i + 1
  let second := isUpper (at? o i)
  let mangled : Bool := !second && comet == 0
  let p := if second then p.set 11 (at? o i) else if comet = 0 then p else p.set 11 48
  let i := if second then i + 1 else i
  let sub := readDigits 0 (o.drop i)
  if number < 6200 then
    let n : Int := ((sub : Int) - 620) * 25 + at? p 11 - 65
    let n := if at? p 11 > 73 then n - 1 else n
    let ext : Bool := !decide (sub < 620) && decide (2000 ≤ number) && decide (number < 2062)
    let mangled := mangled || (ext && decide (n ≥ 62 * 62 * 62 * 62))
    let p :=
      if sub < 620 then
        (p.set 10 (intToMutantHexChar (sub % 10 : Nat))).set 9 (intToMutantHexChar (sub / 10 : Nat))
      else if ext && !decide (n ≥ 62 * 62 * 62 * 62) then
        put (((p.set 5 95).set 6 (intToMutantHexChar ((number : Int) - 2000))).set 7 (at? p 8)) 8
          (encodeMutantHex 4 n).1
      else p
    let i := i + digitCount (o.drop i)
    let p := if comet ≠ 0 then p.set 4 comet else p
    let frag : Bool := comet ≠ 0 ∧ at? o i = 45 ∧ isUpper (at? o (i + 1))
    let p := if frag then p.set 11 (at? o (i + 1) + 97 - 65) else p
    let i := if frag then i + 2 else i
    (if i = len ∧ !mangled then 0 else -1, p)
  else (-1, p)

/-- Everything after the prefix, number and length are known, /repo/mpc_fmt.cpp:737-905.  `full` is
    the name with any comet prefix, `o` the name without it, `comet` the prefix letter or 0,
    `number` and `i` the value and count of the leading digits of `o`, `len` the length of `o` without
    closing parenthesis and trailing spaces. -/
def createBranch (full o : List Nat) (comet : Nat) (paren : Bool) (number i len : Nat) : Int × List Nat :=
  let fallback (p : List Nat) := packFallback p full (if comet ≠ 0 then len + 2 else len)
  if 0 < number ∧ number < 10000 ∧ at? o i ≠ 0 ∧ (at? o (i + 1) = 0 ∨ at? o (i + 1) = 45)
      ∧ strchr (bytes "PDI") (at? o i) then
    let p := put blank12 0 (pad 4 number ++ [at? o i])
    if at? o (i + 1) = 45 ∧ isUpper (at? o (i + 2)) then
      if isUpper (at? o (i + 3)) then
        (0, (p.set 10 (at? o (i + 2) + 97 - 65)).set 11 (at? o (i + 3) + 97 - 65))
      else (0, p.set 11 (at? o (i + 2) + 97 - 65))
    else (0, p)
  else
    let i := if i < len ∧ at? o i = 32 then i + 1 else i
    if 999 < number ∧ number < 9000 ∧ isUpper (at? o i) then
      match surveys.find? (fun s => o.drop i == s.1) with
      | some s => (0, put (put blank12 8 (o.take 4)) 5 s.2)
      | none =>
        let r := packProvisional o i len number comet
        if r.1 = 0 then r else fallback r.2
    else if paren ∧ i = len ∧ number < 620000 + 62 * 62 * 62 * 62 ∧ 0 < number ∧ comet = 0 then
      if number < 620000 then
        (0, [intToMutantHexChar (number / 10000 : Nat)] ++ pad 4 (number % 10000) ++ bytes "       ")
      else (0, put blank12 0 (126 :: (encodeMutantHex 4 ((number : Int) - 620000)).1))
    else if number < 10000 ∧ 0 < number ∧ comet ≠ 0 then
      let nfrag : Nat :=
        if at? o i = 45 ∧ isUpper (at? o (i + 1)) then
          if i + 2 = len then 1
          else if i + 3 = len ∧ isUpper (at? o (i + 2)) then 2 else 0
        else 0
      if i = len ∨ nfrag ≠ 0 then
        let p := pad 4 number ++ [comet] ++ bytes "       "
        if nfrag = 1 then (0, p.set 11 (at? o (i + 1) + 97 - 65))
        else if nfrag = 2 then
          (0, (p.set 10 (at? o (i + 1) + 97 - 65)).set 11 (at? o (i + 2) + 97 - 65))
        else (0, p)
      else fallback blank12
    else if 1957 ≤ number ∧ number < 2100 ∧ at? o 4 = 45 ∧ 9 ≤ len ∧ len ≤ 11 then
      if isDigit (at? o 5) ∧ isDigit (at? o 6) ∧ isDigit (at? o 7) ∧ isUpper (at? o 8) then
        (0, put blank12 0 (o.take len))
      else fallback blank12
    else
      match packPermanentNatsat o with
      | some p => (0, p)
      | none => match packProvisionalNatsat o with
        | some p => (0, p)
        | none => fallback blank12

/-- Length of the first `n` bytes of `o` without trailing spaces. -/
def trimLen (o : List Nat) (n : Nat) : Nat := ((o.take n).reverse.dropWhile (· == 32)).length

/-- The leading number and the length, /repo/mpc_fmt.cpp:726-736. -/
def createCore (full o : List Nat) (comet : Nat) (paren : Bool) : Int × List Nat :=
  let number := readDigits 0 o % 4294967296
  let i := digitCount o
  let len := trimLen o (if paren then o.length - 1 else o.length)
  createBranch full o comet
    (paren || (i == len && decide (0 < number) && decide (number < 1000000) && decide (5 ≤ i)))
    number i len

/-- The comet prefix, /repo/mpc_fmt.cpp:718-722. -/
def createComet (o : List Nat) (paren : Bool) : Int × List Nat :=
  if at? o 1 = 47 ∧ strchr (bytes "PCXDA") (at? o 0) then createCore o (o.drop 2) (at? o 0) paren
  else createCore o o 0 paren

/-- `create_mpc_packed_desig`, /repo/mpc_fmt.cpp:694-906: return value and the twelve bytes stored. -/
def createPackedDesig (name : List Nat) : Int × List Nat :=
  let o := name.dropWhile (· == 32)
  let j := 1 + digitCount (o.drop 1)
  if at? o 0 = 40 ∧ at? o j = 41 ∧ at? o (j + 1) = 0 then createComet (o.drop 1) true
  else createComet o false

end Verif.Desig
