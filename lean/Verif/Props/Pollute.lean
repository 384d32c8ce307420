import Mathlib.Tactic.Linarith
import Mathlib.Tactic.Ring
import Mathlib.Tactic.NormNum
import Verif.Model.Pollute
import Verif.Spec.Raster

/-!
# C119: the part of the map of night lights
-/

namespace Verif.Props

open Verif.Pollute
open Verif.Spec.Raster (pixels InColumn InRow blank window)

theorem pollute_trunc {x : ℚ} (h : 0 ≤ x) : B32.trunc x = ⌊x⌋ := by
  unfold B32.trunc
  rw [if_neg (not_lt.2 h)]

theorem across_col {lon : ℚ} (h : -180 ≤ lon) (h' : lon < 180) :
    B32.trunc (across lon) = ⌊across lon⌋ ∧ 0 ≤ ⌊across lon⌋ ∧ ⌊across lon⌋ < 13500 := by
  have h0 : 0 ≤ across lon := by unfold across; linarith
  have h1 : across lon < 13500 := by unfold across; linarith
  exact ⟨pollute_trunc h0, Int.floor_nonneg.2 h0, Int.floor_lt.2 (by exact_mod_cast h1)⟩

theorem below_line {lat : ℚ} (h : -90 < lat) (h' : lat ≤ 90) :
    line lat = ⌊below lat⌋ ∧ 0 ≤ ⌊below lat⌋ ∧ ⌊below lat⌋ < 6750 := by
  have h0 : 0 ≤ below lat := by unfold below; linarith
  have h1 : below lat < 6750 := by unfold below; linarith
  exact ⟨pollute_trunc h0, Int.floor_nonneg.2 h0, Int.floor_lt.2 (by exact_mod_cast h1)⟩

theorem column_floor {lon : ℚ} (h : -180 ≤ lon) (h' : lon < 180) : column lon = ⌊across lon⌋ := by
  obtain ⟨a, b, c⟩ := across_col h h'
  unfold column
  rw [a, Int.tmod_eq_of_lt b c]

/-- The pixel marked is the one with the coordinates. -/
theorem C119_centre (lon lat : ℚ) (h : -180 ≤ lon) (h' : lon < 180) (g : -90 < lat) (g' : lat ≤ 90) :
    InColumn 13500 lon (column lon) ∧ 0 ≤ column lon ∧ column lon < 13500 ∧
    InRow 6750 lat (line lat) ∧ 0 ≤ line lat ∧ line lat < 6750 := by
  obtain ⟨-, b, c⟩ := across_col h h'
  obtain ⟨d, e, f⟩ := below_line g g'
  rw [column_floor h h', d]
  have h1 := Int.floor_le (across lon)
  have h2 := Int.lt_floor_add_one (across lon)
  have h3 := Int.floor_le (below lat)
  have h4 := Int.lt_floor_add_one (below lat)
  have ha : across lon = (180 + lon) * 13500 / 360 := rfl
  have hb : below lat = (90 - lat) * 6750 / 180 := rfl
  refine ⟨⟨?_, ?_⟩, b, c, ⟨?_, ?_⟩, e, f⟩ <;> push_cast <;> linarith

/-- Longitudes may be counted to the east up to any number of turns. -/
theorem C119_turns (lon : ℚ) (h : -180 ≤ lon) (n : Nat) : column (lon + 360 * n) = column lon := by
  have h0 : 0 ≤ across lon := by unfold across; linarith
  have hn : (0 : ℚ) ≤ n := Nat.cast_nonneg n
  have e : across (lon + 360 * n) = across lon + ((13500 * n : Int) : ℚ) := by unfold across; push_cast; ring
  have h1 : 0 ≤ across (lon + 360 * n) := by rw [e]; push_cast; linarith
  unfold column
  rw [pollute_trunc h0, pollute_trunc h1, e, Int.floor_add_intCast]
  rw [Int.tmod_eq_emod_of_nonneg (by have := Int.floor_nonneg.2 h0; omega), Int.tmod_eq_emod_of_nonneg (Int.floor_nonneg.2 h0)]
  exact Int.add_mul_emod_self_left _ _ _

theorem file_read (img : Nat → Nat → Nat) (k m : Nat) (h : k + m ≤ 13500 * 6750) :
    ((Spec.Raster.file img).drop (18 + k)).take m = (List.range m).map fun x => img ((k + x) / 13500) ((k + x) % 13500) := by
  have hl : (bytes "P5\n13500 6750\n255\n").length = 18 := by decide
  unfold Spec.Raster.file
  rw [← hl, List.drop_length_add_append]
  apply List.ext_getElem?
  intro i
  unfold pixels
  by_cases hi : i < m
  · rw [List.getElem?_take_of_lt hi, List.getElem?_drop, List.getElem?_map, List.getElem?_map, List.getElem?_range hi,
      List.getElem?_range (by omega)]
    rfl
  · rw [List.getElem?_eq_none (by simp only [List.length_take]; omega), List.getElem?_eq_none (by simp; omega)]

theorem shade_blank (v : Nat) : shade v = blank v v v := by
  unfold shade blank csi
  simp [bytes]

theorem mark_blank : mark = blank 255 128 0 := by decide

/-- A line of the terminal: `n` pixels to either side of the marked one. -/
def strip (img : Nat → Nat) (n : Nat) (here : Bool) : List Nat :=
  ((List.range (n * 2)).flatMap fun j => if here = true ∧ j = n then blank 255 128 0 else blank (img j) (img j) (img j)) ++
    ([27, 91] ++ bytes "49m\n")

theorem cells_strip (img : Nat → Nat) (n : Nat) (here : Bool) :
    cells n here ((List.range (n * 2)).map img) = strip img n here := by
  unfold cells strip
  congr 1
  apply List.flatMap_congr
  intro j hj
  have hj : j < n * 2 := List.mem_range.1 hj
  have e : ((List.range (n * 2)).map img).getD j 0 = img j := by
    rw [List.getD_eq_getElem?_getD, List.getElem?_map, List.getElem?_range hj]
    rfl
  rw [e, mark_blank, shade_blank]
  by_cases hc : j = n ∧ here = true
  · rw [if_pos hc, if_pos hc.symm]
  · rw [if_neg hc, if_neg (fun x => hc x.symm)]

/-- The rows shown, each from where it is in the file; all of them are in the file. -/
theorem rows_strips (img : Nat → Nat → Nat) (n : Nat) (h100 : n ≤ 100) (x0 y0 : Int) (m : Nat) :
    ∀ (y : Int) (pos : Nat), 0 ≤ y * 13500 + (x0 - n) → (y + m - 1) * 13500 + (x0 - n) + n * 2 ≤ 13500 * 6750 →
    rows (Spec.Raster.file img) n x0 y0 m y pos = .ok ((List.range m).flatMap fun (i : Nat) =>
      strip (fun j => img ((((y + i) * 13500 + (x0 - n)).toNat + j) / 13500) ((((y + i) * 13500 + (x0 - n)).toNat + j) % 13500)) n
        (decide (y + i = y0))) := by
  induction m with
  | zero => intro y pos _ _; rfl
  | succ m ih =>
    intro y pos hy hm
    push_cast at hm
    rw [rows]
    have hp : seek pos (place n x0 y) = 18 + (y * 13500 + (x0 - n)).toNat := by
      unfold seek place
      rw [if_pos (by omega)]
      omega
    have hr := file_read img (y * 13500 + (x0 - n)).toNat (n * 2) (by omega)
    simp only [hp, hr]
    rw [List.length_map, List.length_range, if_neg (by omega), if_pos rfl, ih (y + 1) _ (by omega) (by omega)]
    simp only [Outcome.bind]
    rw [cells_strip, List.range_succ_eq_map, List.flatMap_cons, List.flatMap_map]
    congr 2
    · simp only [Nat.cast_zero, add_zero]
    · apply List.flatMap_congr
      intro i _
      have e : y + 1 + (i : Int) = y + ((i + 1 : Nat) : Int) := by push_cast; ring
      rw [e]

/-- A window within the map is shown as it is. -/
theorem C119_window (img : Nat → Nat → Nat) (lon lat : ℚ) (h : -180 ≤ lon) (h' : lon < 180) (g : -90 < lat) (g' : lat ≤ 90)
    (n : Nat) (h100 : n ≤ 100) (c r : Nat) (hc : InColumn 13500 lon (c + n : Nat)) (hr : InRow 6750 lat (r + n : Nat))
    (hw : c + n * 2 ≤ 13500) (hh : r + n * 2 ≤ 6750) :
    main (Spec.Raster.file img) lon lat n = .ok (window img r c n) := by
  have ha : across lon = (180 + lon) * 13500 / 360 := rfl
  have hb : below lat = (90 - lat) * 6750 / 180 := rfl
  obtain ⟨hc1, hc2⟩ := hc
  obtain ⟨hr1, hr2⟩ := hr
  push_cast at hc1 hc2 hr1 hr2
  have ec : column lon = (c + n : Nat) := by
    rw [column_floor h h', Int.floor_eq_iff, ha]
    push_cast
    constructor <;> linarith
  have er : line lat = (r + n : Nat) := by
    rw [(below_line g g').1, Int.floor_eq_iff, hb]
    push_cast
    constructor <;> linarith
  unfold main
  rw [if_neg (by
    rintro (k | k)
    · rw [abs_of_nonneg (by rw [ha]; linarith), ha] at k
      norm_num at k
      linarith
    · rw [abs_of_nonneg (by rw [hb]; linarith), hb] at k
      norm_num at k
      linarith)]
  rw [ec, er, Int.toNat_natCast, rows_strips img n h100 _ _ _ _ _ (by push_cast; omega) (by push_cast; omega)]
  congr 1
  unfold window
  apply List.flatMap_congr
  intro i hi
  unfold strip
  congr 1
  apply List.flatMap_congr
  intro j hj
  have hi : i < n * 2 := List.mem_range.1 hi
  have hj : j < n * 2 := List.mem_range.1 hj
  have e : ((((r + n : Nat) : Int) - n + i) * 13500 + (((c + n : Nat) : Int) - n)).toNat + j = 13500 * (r + i) + (c + j) := by
    push_cast; omega
  have d1 : (13500 * (r + i) + (c + j)) / 13500 = r + i := by omega
  have d2 : (13500 * (r + i) + (c + j)) % 13500 = c + j := by omega
  beta_reduce
  rw [e, d1, d2]
  have hd : (decide ((((r + n : Nat) : Int) - n + i) = ((r + n : Nat) : Int)) = true ∧ j = n) ↔ (i = n ∧ j = n) := by
    rw [decide_eq_true_iff]
    push_cast
    constructor
    · rintro ⟨a, b⟩; exact ⟨by omega, b⟩
    · rintro ⟨a, b⟩; exact ⟨by omega, b⟩
  by_cases hx : i = n ∧ j = n
  · rw [if_pos hx, if_pos (hd.2 hx)]
  · rw [if_neg hx, if_neg (fun k => hx (hd.1 k))]

/-- The middle of the map, twenty pixels to either side. -/
example (img : Nat → Nat → Nat) : main (Spec.Raster.file img) 0 0 (20 : Nat) = .ok (window img 3355 6730 20) :=
  C119_window img 0 0 (by norm_num) (by norm_num) (by norm_num) (by norm_num) 20 (by norm_num) 6730 3355
    ⟨by norm_num, by norm_num⟩ ⟨by norm_num, by norm_num⟩ (by norm_num) (by norm_num)

/-- Near 180 degrees west the pixels to the left are not those across the meridian in the same row, but one row higher. -/
theorem C119_edge (img : Nat → Nat → Nat) (n : Nat) (h100 : n ≤ 100) (r c : Nat) (hc : c < n) (hr : r + 1 < 6750) (j : Nat)
    (hj : j < n - c) (pos : Nat) (y0 : Int) :
    ∃ f : Nat → Nat, rows (Spec.Raster.file img) n c y0 1 (r + 1 : Nat) pos = .ok (strip f n (decide (((r + 1 : Nat) : Int) = y0))) ∧
      f j = img r (13500 + c - n + j) := by
  refine ⟨fun j => img ((((((r + 1 : Nat) : Int) + (0 : Nat)) * 13500 + ((c : Int) - n)).toNat + j) / 13500)
    ((((((r + 1 : Nat) : Int) + (0 : Nat)) * 13500 + ((c : Int) - n)).toNat + j) % 13500),
    (rows_strips img n h100 c y0 1 (r + 1 : Nat) pos (by push_cast; omega) (by push_cast; omega)).trans ?_, ?_⟩
  · rw [show List.range 1 = [0] from rfl, List.flatMap_cons, List.flatMap_nil, List.append_nil]
    rw [show ((r + 1 : Nat) : Int) + ((0 : Nat) : Int) = ((r + 1 : Nat) : Int) from by simp]
  · have e : ((((r + 1 : Nat) : Int) + (0 : Nat)) * 13500 + ((c : Int) - n)).toNat + j = 13500 * r + (13500 + c - n + j) := by
      push_cast; omega
    have d1 : (13500 * r + (13500 + c - n + j)) / 13500 = r := by omega
    have d2 : (13500 * r + (13500 + c - n + j)) % 13500 = 13500 + c - n + j := by omega
    show img _ _ = _
    rw [e, d1, d2]

example (img : Nat → Nat → Nat) : ∃ f : Nat → Nat, rows (Spec.Raster.file img) 20 (5 : Nat) 3375 1 (3374 + 1 : Nat) 0 =
    .ok (strip f 20 (decide (((3374 + 1 : Nat) : Int) = 3375))) ∧ f 2 = img 3374 13487 :=
  C119_edge img 20 (by norm_num) 3374 5 (by norm_num) (by norm_num) 2 (by norm_num) 0 3375

/-- Near the north pole the rows above the map are taken from the begin of the file, with its header. -/
theorem C119_pole (file : List Nat) (n : Nat) (h0 : n * 2 ≤ file.length) (h100 : n ≤ 100) (x0 y0 y : Int) (m : Nat)
    (hl : 18 + y * 13500 + (x0 - n) < 0) :
    rows file n x0 y0 (m + 1) y 0 =
      (rows file n x0 y0 m (y + 1) (n * 2)).bind fun t => .ok (cells n (decide (y = y0)) (file.take (n * 2)) ++ t) := by
  rw [rows]
  have hp : seek 0 (place n x0 y) = 0 := by
    unfold seek place
    rw [if_neg (by omega)]
  simp only [hp, List.drop_zero, Nat.zero_add]
  rw [List.length_take, min_eq_left h0, if_neg (by omega), if_pos rfl]

/-- More than a hundred pixels to either side overflow the buffer. -/
theorem C119_overflow (img : Nat → Nat → Nat) (n : Nat) (h100 : 100 < n) (x0 y0 y : Int) (m pos : Nat) (hy : 0 ≤ y * 13500 + (x0 - n))
    (hm : y * 13500 + (x0 - n) + n * 2 ≤ 13500 * 6750) : rows (Spec.Raster.file img) n x0 y0 (m + 1) y pos = .ub := by
  rw [rows]
  have hp : seek pos (place n x0 y) = 18 + (y * 13500 + (x0 - n)).toNat := by
    unfold seek place
    rw [if_pos (by omega)]
    omega
  have hr := file_read img (y * 13500 + (x0 - n)).toNat (n * 2) (by omega)
  simp only [hp, hr]
  rw [List.length_map, List.length_range, if_pos (by omega)]

example (img : Nat → Nat → Nat) : rows (Spec.Raster.file img) 101 6750 3375 202 3274 0 = .ub :=
  C119_overflow img 101 (by norm_num) 6750 3375 3274 201 0 (by norm_num) (by norm_num)

end Verif.Props
