import Verif.Model.CString

/-!
# Model of `_text_search_and_replace`, /repo/mpc_code.cpp:753-775

The text is in memory; the pattern and the replacement are separate strings.
-/

namespace Verif.CString

/-- `memmove( dst, src, n)`. -/
def memmove (m : Mem) (dst src n : Nat) : Mem := fun a => if dst ≤ a ∧ a < dst + n then m (src + (a - dst)) else m a

/-- `memcpy( dst, bytes, length)`. -/
def memcpy (m : Mem) (dst : Nat) (l : List Nat) : Mem := fun a => if dst ≤ a ∧ a < dst + l.length then at? l (a - dst) else m a

/-- `!memcmp( str, oldstr, oldlen)`. -/
def sameAt (m : Mem) (str : Nat) (old : List Nat) : Bool := (List.range old.length).all fun i => m (str + i) == at? old i

/-- The loop of `_text_search_and_replace`, /repo/mpc_code.cpp:760-773: memory and count; `none` when more than
    `fuel` rounds are needed. -/
def replaceLoop (old new : List Nat) : Nat → Mem → Nat → Nat → Nat → Option (Mem × Nat)
  | 0, m, _, ilen, rval => if ilen ≥ old.length then none else some (m, rval)
  | fuel + 1, m, str, ilen, rval =>
    if ilen ≥ old.length then
      if sameAt m str old then
        let m := memmove m (str + new.length) (str + old.length) (ilen - old.length + 1)
        let m := memcpy m str new
        replaceLoop old new fuel m (str + new.length) (ilen - old.length) (rval + 1)
      else replaceLoop old new fuel m (str + 1) (ilen - 1) rval
    else some (m, rval)

/-- `_text_search_and_replace( str, oldstr, newstr)`, for a text of at most `fuel` bytes. -/
def searchAndReplace (fuel : Nat) (m : Mem) (str : Nat) (old new : List Nat) : Option (Mem × Nat) :=
  replaceLoop old new fuel m str (findEnd m fuel str - str) 0

end Verif.CString
