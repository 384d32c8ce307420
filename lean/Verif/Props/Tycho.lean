import Mathlib.Tactic.Linarith
import Mathlib.Tactic.LinearCombination
import Mathlib.Tactic.FieldSimp
import Mathlib.Tactic.SplitIfs
import Mathlib.Tactic.IntervalCases
import Verif.Model.Tycho
import Verif.Spec.Cubic

/-!
# Property theorems: colours of stars in the Tycho and Johnson systems (C118)
-/

namespace Verif.Props

open Verif Verif.Tycho Verif.Spec.Cubic

/-- The colours of the table's rows. -/
def rowColor (k : Int) : ℚ := -1 / 4 + k / 20

theorem scale_eq (x : ℚ) : (x + 1 / 4) / (1 / 20) = 20 * x + 5 := by ring

theorem trunc_pos {x : ℚ} (h : -1 / 4 ≤ x) : B32.trunc ((x + 1 / 4) / (1 / 20)) = ⌊20 * x + 5⌋ := by
  rw [scale_eq]
  unfold B32.trunc
  rw [if_neg (by linarith)]

/-- C118: the four rows used are in the table, and the colour is between the second and the third of them, but for the ends. -/
theorem C118_rows {x : ℚ} (h1 : -1 / 4 ≤ x) :
    0 ≤ loc x ∧ loc x + 3 < table.length ∧ (rowColor (loc x + 1) ≤ x ∨ loc x = 0) ∧ (x < rowColor (loc x + 2) ∨ loc x + 3 = 45) := by
  have hl : table.length = 46 := by decide
  have a := Int.floor_le (20 * x + 5)
  have b := Int.lt_floor_add_one (20 * x + 5)
  have c : 0 ≤ ⌊20 * x + 5⌋ := Int.floor_nonneg.2 (by linarith)
  rw [hl]
  unfold loc rowColor
  rw [trunc_pos h1]
  generalize ⌊20 * x + 5⌋ = f at *
  simp only
  by_cases e1 : f - 1 < 0
  · rw [if_pos e1, if_neg (by decide)]
    have : f = 0 := by omega
    rw [this] at b
    refine ⟨by decide, by decide, .inr rfl, .inl ?_⟩
    push_cast at b ⊢
    linarith
  · rw [if_neg e1]
    by_cases e2 : 46 - 4 ≤ f - 1
    · rw [if_pos e2]
      have : (43 : ℚ) ≤ f := by exact_mod_cast (show 43 ≤ f by omega)
      refine ⟨by decide, by decide, .inl ?_, .inr (by decide)⟩
      push_cast
      linarith
    · rw [if_neg e2]
      refine ⟨by omega, by push_cast; omega, .inl ?_, .inl ?_⟩ <;> push_cast <;> linarith

/-- C118: each result is the value of the cubic polynomial through the four rows. -/
theorem C118_cubic (col : Int × Int × Int → Int) (x : ℚ) :
    Through ([0, 1, 2, 3].map fun (k : Int) => (rowColor (loc x + k), entry col (loc x + k) / 1000)) x (interpolate col x) := by
  unfold interpolate
  rw [scale_eq]
  generalize loc x = l
  simp only [List.map_cons, List.map_nil, add_zero]
  generalize entry col l = t0
  generalize entry col (l + 1) = t1
  generalize entry col (l + 2) = t2
  generalize entry col (l + 3) = t3
  unfold rowColor
  push_cast
  generalize (l : ℚ) = u
  constructor
  · have key : ∀ z0 z1 z2 z3 : ℚ, ∃ a b c d : ℚ, ∀ y : ℚ, poly a b c d y =
        1 / 1000 * (z0 * ((20 * y + 5 - u - 1) * (20 * y + 5 - u - 2) * (20 * y + 5 - u - 3) / -6) + z1 * ((20 * y + 5 - u) * (20 * y + 5 - u - 2) * (20 * y + 5 - u - 3) / 2) +
          z2 * ((20 * y + 5 - u) * (20 * y + 5 - u - 1) * (20 * y + 5 - u - 3) / -2) + z3 * ((20 * y + 5 - u) * (20 * y + 5 - u - 1) * (20 * y + 5 - u - 2) / 6)) := by
      intro z0 z1 z2 z3
      -- with s = 5 - u the products are expanded in powers of y
      refine ⟨1 / 1000 * (z0 * ((5 - u - 1) * (5 - u - 2) * (5 - u - 3) / -6) + z1 * ((5 - u) * (5 - u - 2) * (5 - u - 3) / 2) +
          z2 * ((5 - u) * (5 - u - 1) * (5 - u - 3) / -2) + z3 * ((5 - u) * (5 - u - 1) * (5 - u - 2) / 6)),
        20 / 1000 * (z0 * ((5 - u - 1) * (5 - u - 2) + (5 - u - 1) * (5 - u - 3) + (5 - u - 2) * (5 - u - 3)) / -6 +
          z1 * ((5 - u) * (5 - u - 2) + (5 - u) * (5 - u - 3) + (5 - u - 2) * (5 - u - 3)) / 2 +
          z2 * ((5 - u) * (5 - u - 1) + (5 - u) * (5 - u - 3) + (5 - u - 1) * (5 - u - 3)) / -2 +
          z3 * ((5 - u) * (5 - u - 1) + (5 - u) * (5 - u - 2) + (5 - u - 1) * (5 - u - 2)) / 6),
        400 / 1000 * (z0 * (3 * (5 - u) - 6) / -6 + z1 * (3 * (5 - u) - 5) / 2 + z2 * (3 * (5 - u) - 4) / -2 + z3 * (3 * (5 - u) - 3) / 6),
        8000 / 1000 * (z0 / -6 + z1 / 2 + z2 / -2 + z3 / 6), ?_⟩
      intro y
      unfold poly
      ring
    obtain ⟨a, b, c, d, h⟩ := key t0 t1 t2 t3
    refine ⟨a, b, c, d, ?_⟩
    simp only [List.mem_cons, List.not_mem_nil, or_false, forall_eq_or_imp, forall_eq]
    refine ⟨?_, ?_, ?_, ?_⟩ <;> rw [h] <;> ring
  · intro a b c d h
    simp only [List.mem_cons, List.not_mem_nil, or_false, forall_eq_or_imp, forall_eq] at h
    obtain ⟨h0, h1, h2, h3⟩ := h
    have e0 : t0 = 1000 * poly a b c d (-1 / 4 + u / 20) := by rw [h0]; ring
    have e1 : t1 = 1000 * poly a b c d (-1 / 4 + (u + 1) / 20) := by rw [h1]; ring
    have e2 : t2 = 1000 * poly a b c d (-1 / 4 + (u + 2) / 20) := by rw [h2]; ring
    have e3 : t3 = 1000 * poly a b c d (-1 / 4 + (u + 3) / 20) := by rw [h3]; ring
    rw [e0, e1, e2, e3]
    unfold poly
    ring

/-- C118: at the colours of the table the results are the table's. -/
theorem C118_table {k : Int} (h1 : 0 ≤ k) (h2 : k ≤ 45) :
    colors (rowColor k) = .ok (some (entry (·.1) k / 1000, entry (·.2.1) k / 1000 + rowColor k, entry (·.2.2) k / 1000)) := by
  have q1 : (0 : ℚ) ≤ k := by exact_mod_cast h1
  have q2 : (k : ℚ) ≤ 45 := by exact_mod_cast h2
  have r1 : -1 / 4 ≤ rowColor k := by unfold rowColor; linarith
  have r2 : rowColor k ≤ 2 := by unfold rowColor; linarith
  obtain ⟨a, b, c, d⟩ := C118_rows r1
  have hl : table.length = 46 := by decide
  rw [hl] at b
  have hk : ∃ j : Int, 0 ≤ j ∧ j ≤ 3 ∧ k = loc (rowColor k) + j := by
    refine ⟨k - loc (rowColor k), ?_, ?_, by omega⟩
    · rcases c with c | c
      · unfold rowColor at c
        have : ((loc (-1 / 4 + (k : ℚ) / 20) + 1 : Int) : ℚ) ≤ k := by linarith
        have : loc (-1 / 4 + (k : ℚ) / 20) + 1 ≤ k := by exact_mod_cast this
        unfold rowColor
        omega
      · omega
    · rcases d with d | d
      · unfold rowColor at d
        have : (k : ℚ) < ((loc (-1 / 4 + (k : ℚ) / 20) + 2 : Int) : ℚ) := by linarith
        have : k < loc (-1 / 4 + (k : ℚ) / 20) + 2 := by exact_mod_cast this
        unfold rowColor
        omega
      · omega
  have key : ∀ col : Int × Int × Int → Int, interpolate col (rowColor k) = entry col k / 1000 := by
    intro col
    obtain ⟨⟨p, q, r, s, hp⟩, hu⟩ := C118_cubic col (rowColor k)
    rw [hu p q r s hp]
    obtain ⟨j, j1, j2, e⟩ := hk
    have := hp (rowColor (loc (rowColor k) + j), entry col (loc (rowColor k) + j) / 1000)
      (List.mem_map.2 ⟨j, by simp only [List.mem_cons, List.not_mem_nil, or_false]; omega, rfl⟩)
    rw [← e] at this
    exact this
  unfold colors
  rw [scale_eq, if_neg (by rw [abs_of_nonneg (by linarith)]; norm_num; linarith), if_neg (by rintro (h | h) <;> linarith), key, key, key]

/-- C118: outside -0.25 to 2 there are no results, and inside there are. -/
theorem C118_range {x : ℚ} (h : |x| ≤ 10 ^ 7) : colors x = .ok none ↔ x < -1 / 4 ∨ 2 < x := by
  unfold colors
  obtain ⟨a, b⟩ := abs_le.1 h
  rw [scale_eq, if_neg (by rw [not_le, abs_lt]; constructor <;> norm_num at a b ⊢ <;> linarith)]
  split_ifs with h
  · simp [h]
  · simp [h]

/-- Finding: far outside, the number is converted to an `int` before it is refused. -/
theorem C118_far {x : ℚ} (h : 10 ^ 9 ≤ |x|) : colors x = .ub := by
  unfold colors
  rw [scale_eq, if_pos]
  rcases le_abs'.1 h with h | h
  · rw [abs_of_neg (by norm_num at h ⊢; linarith)]
    norm_num at h ⊢
    linarith
  · rw [abs_of_pos (by norm_num at h ⊢; linarith)]
    norm_num at h ⊢
    linarith

/-- Finding: the older formula jumps at its last colour, 1.8, by 0.032; there it forgets its correction. -/
theorem C118_jump : johnson (9 / 5) = 153 / 100 ∧
    ∀ x, 7 / 5 ≤ x → x < 9 / 5 → johnson x = 17 / 20 * x - 8 / 1000 - 6 / 100 * (x - 7 / 5) ∧ johnson x < 1498 / 1000 := by
  constructor
  · unfold johnson
    norm_num
  · intro x h1 h2
    have e : johnson x = 17 / 20 * x - 8 / 1000 - 6 / 100 * (x - 7 / 5) := by
      unfold johnson
      rw [if_neg (by rintro (h | h) <;> linarith), if_neg (by linarith), if_neg (by linarith), if_neg (by linarith), if_pos h2]
      ring
    exact ⟨e, by rw [e]; linarith⟩

/-- C118: elsewhere it has no jumps: its pieces have the same values where they meet. -/
theorem C118_pieces (x y : ℚ) (hx : -1 / 5 ≤ x) (hy : y < 9 / 5) (h : x ≤ y) : 79 / 100 * (y - x) ≤ johnson y - johnson x ∧ johnson y - johnson x ≤ 97 / 100 * (y - x) := by
  unfold johnson
  have a : ¬(y < -1 / 5 ∨ 9 / 5 < y) := by rintro (h | h) <;> linarith
  have b : ¬(x < -1 / 5 ∨ 9 / 5 < x) := by rintro (h | h) <;> linarith
  rw [if_neg a, if_neg b]
  split_ifs <;> constructor <;> linarith

/-- The colour of the sun, or nearly: between two rows. -/
example : -1 / 4 ≤ (0.72 : ℚ) ∧ (0.72 : ℚ) ≤ 2 ∧ loc 0.72 = 18 := by
  refine ⟨by norm_num, by norm_num, ?_⟩
  decide +kernel

end Verif.Props
