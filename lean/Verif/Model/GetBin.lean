import Verif.Model.CInt

/-!
# Model of the binary readers, /repo/get_bin.h

`USE_TYPE_PUNNING` is undefined at line 48 whatever the machine, so only the second branch is compiled.  A
pointer is the function giving the byte at each offset from it.
-/

namespace Verif.GetBin

/-- `get16bits`, /repo/get_bin.h:62-63, in 32-bit unsigned arithmetic. -/
def get16bits (d : Nat → Nat) : Nat := ((d 1 <<< 8) % 2 ^ 32 + d 0) % 2 ^ 32

/-- `get32bits`, /repo/get_bin.h:64-67. -/
def get32bits (d : Nat → Nat) : Nat :=
  ((d 3 <<< 24) % 2 ^ 32 + (d 2 <<< 16) % 2 ^ 32 + (d 1 <<< 8) % 2 ^ 32 + d 0) % 2 ^ 32

/-- `get16sbits`, /repo/get_bin.h:69. -/
def get16sbits (d : Nat → Nat) : Int := s16 (get16bits d)

/-- `get32sbits`, /repo/get_bin.h:70. -/
def get32sbits (d : Nat → Nat) : Int := s32 (get32bits d)

/-- The loop of `get_double`, /repo/get_bin.h:79-85, on a little-endian machine (`bigEndian = false`) or a
    big-endian one: the eight bytes of the result's memory, `none` if not written. -/
def getDoubleBytes (bigEndian : Bool) (d : Nat → Nat) : Nat → Option Nat :=
  (List.range 8).foldl
    (fun buff k => fun j => if j = (if bigEndian then 7 - k else k) then some (d k) else buff j)
    fun _ => none

end Verif.GetBin
