import Verif.Model.GetBin

/-!
# Property theorems: binary readers (C48)
-/

namespace Verif.Props

open Verif Verif.GetBin

/-- The bytes at `d` are the low bytes of `v`, least significant first (two's complement if `v < 0`). -/
def LittleEndian (n : Nat) (v : Int) (d : Nat → Nat) : Prop :=
  ∀ i < n, (d i : Int) = v / 256 ^ i % 256

/-- **C48.** Sixteen bits, unsigned. -/
theorem C48_get16 (v : Int) (d : Nat → Nat) (h0 : 0 ≤ v) (h1 : v < 2 ^ 16) (h : LittleEndian 2 v d) :
    (get16bits d : Int) = v := by
  have a := h 0 (by omega)
  have b := h 1 (by omega)
  unfold get16bits
  simp only [Nat.shiftLeft_eq]
  omega

/-- **C48.** Thirty-two bits, unsigned. -/
theorem C48_get32 (v : Int) (d : Nat → Nat) (h0 : 0 ≤ v) (h1 : v < 2 ^ 32) (h : LittleEndian 4 v d) :
    (get32bits d : Int) = v := by
  have a := h 0 (by omega)
  have b := h 1 (by omega)
  have e := h 2 (by omega)
  have f := h 3 (by omega)
  unfold get32bits
  simp only [Nat.shiftLeft_eq]
  omega

/-- **C48.** Sixteen bits, signed. -/
theorem C48_get16s (v : Int) (d : Nat → Nat) (h0 : -2 ^ 15 ≤ v) (h1 : v < 2 ^ 15) (h : LittleEndian 2 v d) :
    get16sbits d = v := by
  have a := h 0 (by omega)
  have b := h 1 (by omega)
  unfold get16sbits get16bits s16
  simp only [Nat.shiftLeft_eq]
  omega

/-- **C48.** Thirty-two bits, signed. -/
theorem C48_get32s (v : Int) (d : Nat → Nat) (h0 : -2 ^ 31 ≤ v) (h1 : v < 2 ^ 31) (h : LittleEndian 4 v d) :
    get32sbits d = v := by
  have a := h 0 (by omega)
  have b := h 1 (by omega)
  have e := h 2 (by omega)
  have f := h 3 (by omega)
  unfold get32sbits get32bits s32
  simp only [Nat.shiftLeft_eq]
  omega

/-- The same with the bounds written out. -/
theorem get16_lit (v : Int) (d : Nat → Nat) (h0 : 0 ≤ v) (h1 : v < 65536) (h : LittleEndian 2 v d) : (get16bits d : Int) = v := C48_get16 v d h0 h1 h
theorem get16s_lit (v : Int) (d : Nat → Nat) (h0 : -32768 ≤ v) (h1 : v < 32768) (h : LittleEndian 2 v d) : get16sbits d = v := C48_get16s v d h0 h1 h
theorem get32s_lit (v : Int) (d : Nat → Nat) (h0 : -2147483648 ≤ v) (h1 : v < 2147483648) (h : LittleEndian 4 v d) : get32sbits d = v :=
  C48_get32s v d h0 h1 h

/-- **C48.** `get_double` writes all eight bytes of the result, each once: in file order on a little-endian
    machine, reversed on a big-endian one. -/
theorem C48_double (d : Nat → Nat) (j : Nat) (hj : j < 8) :
    getDoubleBytes false d j = some (d j) ∧ getDoubleBytes true d j = some (d (7 - j)) := by
  have : j = 0 ∨ j = 1 ∨ j = 2 ∨ j = 3 ∨ j = 4 ∨ j = 5 ∨ j = 6 ∨ j = 7 := by omega
  rcases this with rfl | rfl | rfl | rfl | rfl | rfl | rfl | rfl <;> exact ⟨rfl, rfl⟩

/-- **C48.** Nothing outside the eight bytes is written. -/
theorem C48_double_only (bigEndian : Bool) (d : Nat → Nat) (j : Nat) (hj : 8 ≤ j) : getDoubleBytes bigEndian d j = none := by
  have e : List.range 8 = [0, 1, 2, 3, 4, 5, 6, 7] := by decide
  unfold getDoubleBytes
  rw [e]
  cases bigEndian <;> simp only [List.foldl_cons, List.foldl_nil, if_true, if_false, Bool.false_eq_true] <;>
    repeat (rw [if_neg (by omega)])

example : LittleEndian 2 (-2) (fun i => if i = 0 then 254 else 255) := by
  intro i hi
  have : i = 0 ∨ i = 1 := by omega
  rcases this with rfl | rfl <;> decide

example : get32sbits (fun i => [254, 255, 255, 255].getD i 0) = -2 := by decide

end Verif.Props
