/-!
# C integer arithmetic used by the models

`long` and `int` values are modelled as unbounded `Int` (range assumptions are stated where
they matter).  C's `/` and `%` on signed operands truncate toward zero: `Int.tdiv`, `Int.tmod`.
-/

namespace Verif

/-- `mod( x, y)`: the non-negative remainder.  /repo/date.cpp:85-92. -/
def cmod (x y : Int) : Int :=
  let rval := x.tmod y
  if rval < 0 then rval + y else rval

/-- Conversion of an `int`/`long` to a (signed, 8-bit) `char`, as on x86:
    the value wraps modulo 256 into -128..127. -/
def schar (x : Int) : Int := (x + 128) % 256 - 128

/-- Conversion to a 16-bit signed integer (`(int16_t)`), wrapping.  /repo/get_bin.h:69. -/
def s16 (x : Int) : Int := (x + 32768) % 65536 - 32768

/-- Conversion to a 32-bit signed integer (`(int32_t)`), wrapping.  /repo/get_bin.h:70. -/
def s32 (x : Int) : Int := (x + 2147483648) % 4294967296 - 2147483648

end Verif
