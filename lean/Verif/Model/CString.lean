import Verif.Model.Bytes

/-!
# Model of the bounded string functions, /repo/snprintf.cpp:52-247, and of `remove_char`

The destination is a byte-addressed memory; the source of a copy is a separate (non-overlapping)
string, given by its bytes without the terminator.  `size_t` does not wrap.
-/

namespace Verif.CString

open Verif

/-- Byte-addressed memory. -/
abbrev Mem := Nat → Nat

/-- `*p = v`. -/
def write (m : Mem) (p v : Nat) : Mem := fun a => if a = p then v else m a

/-- The loop `while( --nleft != 0)` of `strlcpy`, /repo/snprintf.cpp:134-137.  The first argument is
    the value of `nleft` before the decrement, known to be non-zero, minus one.  Result: memory,
    final `nleft`, and the final offsets of `dst` and `src`. -/
def cpyLoop (src : List Nat) : Nat → Mem → Nat → Nat → Mem × Nat × Nat × Nat
  | 0, m, d, s => (m, 0, d, s)
  | n + 1, m, d, s =>
    let m := write m d (at? src s)
    if at? src s = 0 then (m, n + 1, d + 1, s + 1) else cpyLoop src n m (d + 1) (s + 1)

/-- `while( *src++) ;` from offset `s`: the final offset. -/
def skipToEnd (src : List Nat) : Nat → Nat → Nat
  | 0, s => s + 1
  | fuel + 1, s => if at? src s = 0 then s + 1 else skipToEnd src fuel (s + 1)

/-- `strlcpy( dst, src, dsize)`, /repo/snprintf.cpp:127-149: memory and return value. -/
def strlcpy (m : Mem) (dst : Nat) (src : List Nat) (dsize : Nat) : Mem × Nat :=
  let (m, nleft, d, s) := if dsize ≠ 0 then cpyLoop src (dsize - 1) m dst 0 else (m, 0, dst, 0)
  if nleft = 0 then
    let m := if dsize ≠ 0 then write m d 0 else m
    (m, skipToEnd src src.length s - 1)
  else (m, s - 1)

/-- `while( n-- != 0 && *dst != '\0') dst++`: the final `dst`, /repo/snprintf.cpp:167-168. -/
def findEnd (m : Mem) : Nat → Nat → Nat
  | 0, d => d
  | n + 1, d => if m d ≠ 0 then findEnd m n (d + 1) else d

/-- The copying loop of `strlcat`, /repo/snprintf.cpp:174-180, over the bytes of `src`: memory and `dst`. -/
def catLoop : List Nat → Mem → Nat → Nat → Mem × Nat
  | [], m, _, d => (m, d)
  | c :: cs, m, n, d => if n ≠ 0 then catLoop cs (write m d c) (n - 1) (d + 1) else catLoop cs m n d

/-- `strlcat( dst, src, dsize)`, /repo/snprintf.cpp:159-184. -/
def strlcat (m : Mem) (dst : Nat) (src : List Nat) (dsize : Nat) : Mem × Nat :=
  let d := findEnd m dsize dst
  let dlen := d - dst
  let n := dsize - dlen
  if n = 0 then (m, dlen + src.length)
  else
    let (m, d) := catLoop src m (n - 1) d
    (write m d 0, dlen + src.length)

/-- `strlcpy_err`, /repo/snprintf.cpp:192-204: the program exits on truncation. -/
def strlcpyErr (m : Mem) (dst : Nat) (src : List Nat) (dsize : Nat) : Outcome (Mem × Nat) :=
  let r := strlcpy m dst src dsize
  if r.2 ≥ dsize then .abort else .ok r

/-- `strlcat_err`, /repo/snprintf.cpp:206-218. -/
def strlcatErr (m : Mem) (dst : Nat) (src : List Nat) (dsize : Nat) : Outcome (Mem × Nat) :=
  let r := strlcat m dst src dsize
  if r.2 ≥ dsize then .abort else .ok r

/-- The C library's `vsnprintf` for formatted text `txt`: same effect as `strlcpy`. -/
def vsnprintf (m : Mem) (dst size : Nat) (txt : List Nat) : Mem × Nat := strlcpy m dst txt size

/-- `_sn_append`, /repo/snprintf.cpp:52-73, for a destination holding a string of `ilen` bytes and
    formatted text `txt`; `strict` is `no_truncation`. -/
def snAppend (strict : Bool) (m : Mem) (dst ilen maxLen : Nat) (txt : List Nat) : Outcome (Mem × Nat) :=
  if ilen > maxLen then .abort
  else
    let (m, rval) := vsnprintf m (dst + ilen) (maxLen - ilen) txt
    if rval + ilen ≥ maxLen ∧ strict then .abort else .ok (m, rval + ilen)

/-- The loop of `remove_char`, /repo/miscell.cpp:284-292, in memory from `buff`: `none` if more than
    `fuel` steps are needed. -/
def removeLoop (removed buff : Nat) : Nat → Mem → Nat → Nat → Option Mem
  | 0, _, _, _ => none
  | fuel + 1, m, i, j =>
    if m (buff + i) = 0 then some (write m (buff + j) 0)
    else if m (buff + i) ≠ removed then
      removeLoop removed buff fuel (write m (buff + j) (m (buff + i))) (i + 1) (j + 1)
    else removeLoop removed buff fuel m (i + 1) j

/-- `remove_char( buff, removed)`, run for at most `fuel` steps. -/
def removeChar (fuel : Nat) (m : Mem) (buff removed : Nat) : Option Mem := removeLoop removed buff fuel m 0 0

end Verif.CString
