import Verif.Model.MpcLine

/-!
# Model of the search for a region, /repo/mpc_code.cpp:397-432

Numbers are rational (no rounding errors).  The file is a list of bytes without NUL; `char` is signed.
-/

namespace Verif.Region

open Verif Verif.MpcLine

/-- `fgets( buff, n + 1, ifile)`: what is read, and the rest of the file. -/
def fgets : Nat → List Nat → List Nat × List Nat
  | 0, s => ([], s)
  | _, [] => ([], [])
  | n + 1, c :: s => if c = 10 then ([c], s) else ((c :: (fgets n s).1), (fgets n s).2)

theorem fgets_length (n : Nat) (s : List Nat) : (fgets n s).2.length ≤ s.length := by
  induction n generalizing s with
  | zero => simp [fgets]
  | succ n ih =>
    cases s with
    | nil => simp [fgets]
    | cons c s =>
      unfold fgets
      split
      · simp
      · have := ih s
        simp only [List.length_cons]
        omega

/-- The loops `while( x - c > 180.) x -= 360.`, lines 412-413 and 416-417. -/
def down (c x : ℚ) : ℚ := if 180 < x - c then down c (x - 360) else x
termination_by ⌈x - c⌉.toNat
decreasing_by
  have h1 : ⌈x - 360 - c⌉ = ⌈x - c⌉ - 360 := by
    have : x - 360 - c = x - c - (360 : Int) := by push_cast; ring
    rw [this, Int.ceil_sub_intCast]
  have h2 : 180 < ⌈x - c⌉ := by
    rw [Int.lt_ceil]
    assumption_mod_cast
  omega

/-- The loops `while( x - c < -180.) x += 360.`, lines 414-415 and 418-419. -/
def up (c x : ℚ) : ℚ := if x - c < -180 then up c (x + 360) else x
termination_by (-⌊x - c⌋).toNat
decreasing_by
  have h1 : ⌊x + 360 - c⌋ = ⌊x - c⌋ + 360 := by
    have : x + 360 - c = x - c + (360 : Int) := by push_cast; ring
    rw [this, Int.floor_add_intCast]
  have h2 : ⌊x - c⌋ < -180 := by
    rw [Int.floor_lt]
    assumption_mod_cast
  omega

/-- Lines 407-431 for one line: `buff` if the place is in the region, or nothing.  `ub`: bytes after the end of the line are read. -/
def regionLine (tbuff : List Nat) (lat lon : ℚ) : Outcome (List Nat) :=
  if at? tbuff 0 = 35 then .ok []
  else
    (quickAtof tbuff).bind fun l1 =>
      if tbuff.length < 20 then .ub
      else
        (quickAtof (tbuff.drop 20)).bind fun l2 =>
          let d1 := up 0 (down 0 (l1 - lon))
          let d2 := up d1 (down d1 (l2 - lon))
          if d1 * d2 < 0 then
            (quickAtof (tbuff.drop 10)).bind fun b1 =>
              if tbuff.length < 30 then .ub
              else
                (quickAtof (tbuff.drop 30)).bind fun b2 =>
                  if (b1 - lat) * (b2 - lat) < 0 then
                    if tbuff.length < 40 then .ub else .ok ((tbuff.drop 40).takeWhile fun c => 32 ≤ c && c < 128)
                  else .ok []
          else .ok []

/-- `extract_region_data_for_lat_lon`, lines 397-432: `buff` and the value returned. -/
def extractRegion (file : List Nat) (lat lon : ℚ) : Outcome (List Nat × Int) :=
  if h : file = [] then .ok ([], -2)
  else
    (regionLine (fgets 89 file).1 lat lon).bind fun buff => if buff ≠ [] then .ok (buff, 0) else extractRegion (fgets 89 file).2 lat lon
termination_by file.length
decreasing_by
  cases file with
  | nil => exact absurd rfl h
  | cons c s =>
    unfold fgets
    split
    · simp
    · have := fgets_length 88 s
      simp only [List.length_cons]
      omega

end Verif.Region
