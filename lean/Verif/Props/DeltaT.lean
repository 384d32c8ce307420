import Verif.Model.DeltaT
import Verif.Props.LeapSeconds
import Mathlib.Tactic.Linarith
import Mathlib.Tactic.NormNum
import Mathlib.Tactic.Ring
import Mathlib.Tactic.FieldSimp
import Mathlib.Tactic.Positivity
import Mathlib.Tactic.GCongr

/-!
# Property theorems: Delta-T table (C34), polynomials before 1620 (C58), predicted leap seconds (C32)
-/

namespace Verif.Props

open Verif Verif.DeltaT

variable {K : Type} [Field K] [LinearOrder K] [FloorRing K] [IsStrictOrderedRing K]

theorem table_length : deltaTTable.length = 203 := by decide +kernel

omit [IsStrictOrderedRing K] in
/-- **C34.** The two entries used are inside the table, for every year from 1620 on. -/
theorem C34_index_in_table (loc : K) (h : 0 ≤ loc) :
    0 ≤ tableIndex loc ∧ tableIndex loc + 1 < deltaTTable.length := by
  unfold tableIndex
  rw [table_length]
  have := Int.floor_nonneg.2 h
  split <;> omega

/-- On the stretch between entries `k` and `k + 1` (both ends included) Delta-T is the straight line
    between them. -/
theorem C34_linear (k : Nat) (hk : k < 202) (t : K) (h0 : 0 ≤ t) (h1 : t ≤ 1) :
    tableDeltaT (1620 + 2 * ((k : K) + t)) = ((1 - t) * (entry k : K) + t * (entry (k + 1) : K)) / 100 := by
  have hloc : (1620 + 2 * ((k : K) + t) - 1620) / 2 = (k : K) + t := by ring
  unfold tableDeltaT
  simp only [hloc]
  by_cases ht : t < 1 ∨ k = 201
  · have hidx : tableIndex ((k : K) + t) = k := by
      unfold tableIndex
      rw [table_length]
      rcases ht with ht | ht
      · have hf : ⌊(k : K) + t⌋ = (k : Int) := by
          rw [Int.floor_eq_iff]; constructor
          · push_cast; linarith
          · push_cast; linarith
        rw [hf]; split <;> omega
      · subst ht
        have hf : (201 : Int) ≤ ⌊((201 : Nat) : K) + t⌋ := by
          rw [Int.le_floor]; push_cast; linarith
        split <;> omega
    rw [hidx]
    have hd : (k : K) + t - ((k : Int) : K) = t := by push_cast; ring
    rw [hd, if_neg (not_lt.2 h1)]
    push_cast
    ring
  · have ht1 : t = 1 := le_antisymm h1 (not_lt.1 fun h => ht (Or.inl h))
    have hk2 : k ≠ 201 := fun h => ht (Or.inr h)
    subst ht1
    have hf : ⌊(k : K) + 1⌋ = (k : Int) + 1 := by
      rw [Int.floor_eq_iff]; constructor
      · push_cast; linarith
      · push_cast; linarith
    have hidx : tableIndex ((k : K) + 1) = k + 1 := by
      unfold tableIndex
      rw [table_length, hf]; split <;> omega
    rw [hidx]
    have hd : (k : K) + 1 - (((k : Int) + 1 : Int) : K) = 0 := by push_cast; ring
    rw [hd, if_neg (by simp)]
    push_cast
    ring

/-- **C34.** Delta-T passes through every tabulated value: entry `k` is that of the year 1620 + 2k. -/
theorem C34_passes_through (k : Nat) (hk : k < 203) :
    tableDeltaT (1620 + 2 * (k : K)) = (entry k : K) / 100 := by
  rcases Nat.lt_or_ge k 202 with h | h
  · have := C34_linear (K := K) k h 0 (le_refl _) zero_le_one
    simp only [add_zero, sub_zero, one_mul, zero_mul] at this
    exact this
  · obtain rfl : k = 202 := by omega
    have := C34_linear (K := K) 201 (by omega) 1 zero_le_one (le_refl _)
    have e : (1620 + 2 * (((201 : Nat) : K) + 1)) = 1620 + 2 * ((202 : Nat) : K) := by push_cast; ring
    rw [e] at this
    rw [this]
    have : ((201 : Nat) : Int) + 1 = ((202 : Nat) : Int) := by norm_num
    rw [this]; ring

theorem steps_bounded : ∀ i : Fin 202, (entry (i.val + 1) - entry i.val).natAbs ≤ 900 := by decide +kernel

theorem step_le (k : Nat) (hk : k < 202) : |((entry (k + 1) : K) - (entry k : K)) / 100| ≤ 9 := by
  have h := steps_bounded ⟨k, hk⟩
  simp only at h
  have h2 : |entry (k + 1) - entry k| ≤ 900 := by
    rw [Int.abs_eq_natAbs]; exact_mod_cast h
  have h3 : |((entry (k + 1) - entry k : Int) : K)| ≤ 900 := by
    rw [← Int.cast_abs]; exact_mod_cast h2
  push_cast at h3
  rw [abs_div, abs_of_pos (by norm_num : (0:K) < 100)]
  rw [div_le_iff₀ (by norm_num)]
  linarith

/-- Delta-T at entry points `a ≤ b` differs by at most 9 s per step. -/
theorem entries_lipschitz (a n : Nat) (h : a + n < 203) :
    |((entry (a + n : Nat) : K) - (entry a : K)) / 100| ≤ 9 * n := by
  induction n with
  | zero => simp
  | succ n ih =>
    have h1 := ih (by omega)
    have h2 := step_le (K := K) (a + n) (by omega)
    have e : ((a + n : Nat) : Int) + 1 = ((a + (n + 1) : Nat) : Int) := by push_cast; ring
    rw [e] at h2
    have : ((entry (a + (n + 1) : Nat) : K) - (entry a : K)) / 100 =
        ((entry (a + (n + 1) : Nat) : K) - (entry (a + n : Nat) : K)) / 100 + ((entry (a + n : Nat) : K) - (entry a : K)) / 100 := by ring
    rw [this]
    refine (abs_add_le _ _).trans ?_
    have c : ((n + 1 : Nat) : K) = (n : K) + 1 := by push_cast; ring
    rw [c]
    linarith

/-- Every year in the table's range is on one of its stretches. -/
theorem on_stretch (y : K) (h0 : 1620 ≤ y) (h1 : y ≤ 2024) :
    ∃ k : Nat, ∃ t : K, k < 202 ∧ 0 ≤ t ∧ t ≤ 1 ∧ y = 1620 + 2 * ((k : K) + t) := by
  by_cases h : y = 2024
  · refine ⟨201, 1, by omega, zero_le_one, le_refl _, ?_⟩
    rw [h]; push_cast; norm_num
  · have hl : (y - 1620) / 2 < 202 := by
      rw [div_lt_iff₀ (by norm_num)]
      have : y < 2024 := lt_of_le_of_ne h1 h
      linarith
    have hn : 0 ≤ (y - 1620) / 2 := div_nonneg (by linarith) (by norm_num)
    have f0 : 0 ≤ ⌊(y - 1620) / 2⌋ := Int.floor_nonneg.2 hn
    have f1 : ⌊(y - 1620) / 2⌋ < 202 := by
      rw [Int.floor_lt]; exact_mod_cast hl
    obtain ⟨k, hk⟩ := Int.eq_ofNat_of_zero_le f0
    refine ⟨k, (y - 1620) / 2 - k, by omega, ?_, ?_, ?_⟩
    · have := Int.floor_le ((y - 1620) / 2)
      rw [hk] at this; push_cast at this; linarith
    · have := Int.lt_floor_add_one ((y - 1620) / 2)
      rw [hk] at this; push_cast at this; linarith
    · ring

/-- Within one stretch, Delta-T changes by at most 9 s times the change of `t`. -/
theorem in_stretch (k : Nat) (hk : k < 202) (s t : K) (hs : 0 ≤ s) (hst : s ≤ t) (ht : t ≤ 1) :
    |tableDeltaT (1620 + 2 * ((k : K) + t)) - tableDeltaT (1620 + 2 * ((k : K) + s))| ≤ 9 * (t - s) := by
  rw [C34_linear k hk t (by linarith) ht, C34_linear k hk s hs (by linarith)]
  have : ((1 - t) * (entry k : K) + t * (entry (k + 1) : K)) / 100 - ((1 - s) * (entry k : K) + s * (entry (k + 1) : K)) / 100
      = ((entry (k + 1) : K) - (entry k : K)) / 100 * (t - s) := by ring
  rw [this, abs_mul, abs_of_nonneg (sub_nonneg.2 hst)]
  exact mul_le_mul_of_nonneg_right (step_le k hk) (sub_nonneg.2 hst)

/-- **C34.** Between 1620 and 2024 Delta-T is continuous: it changes by at most 4.5 s per year. -/
theorem C34_continuous (a b : K) (h0 : 1620 ≤ a) (hab : a ≤ b) (h1 : b ≤ 2024) :
    |tableDeltaT b - tableDeltaT a| ≤ 9 / 2 * (b - a) := by
  obtain ⟨i, s, hi, hs0, hs1, rfl⟩ := on_stretch a h0 (by linarith)
  obtain ⟨j, t, hj, ht0, ht1, rfl⟩ := on_stretch b (by linarith) h1
  rcases Nat.lt_trichotomy i j with h | h | h
  · obtain ⟨n, rfl⟩ : ∃ n, j = i + 1 + n := ⟨j - i - 1, by omega⟩
    have e1 := in_stretch (K := K) i hi s 1 hs0 hs1 (le_refl _)
    have e2 := entries_lipschitz (K := K) (i + 1) n (by omega)
    have e3 := in_stretch (K := K) (i + 1 + n) hj 0 t (le_refl _) ht0 ht1
    have p1 := C34_passes_through (K := K) (i + 1) (by omega)
    have p2 := C34_passes_through (K := K) (i + 1 + n) (by omega)
    have c1 : (1620 + 2 * ((i : K) + 1)) = 1620 + 2 * ((i + 1 : Nat) : K) := by push_cast; ring
    rw [c1, p1] at e1
    rw [add_zero, p2] at e3
    rw [abs_le] at e1 e2 e3 ⊢
    push_cast at *
    constructor <;> linarith [e1.1, e1.2, e2.1, e2.2, e3.1, e3.2]
  · subst h
    have := in_stretch (K := K) i hi s t hs0 (by linarith) ht1
    refine this.trans (le_of_eq ?_); ring
  · have : (j : K) + 1 ≤ (i : K) := by exact_mod_cast h
    have e : (1620 + 2 * ((j : K) + t)) = 1620 + 2 * ((i : K) + s) := by linarith
    rw [e]; simp

example : (1620 : ℚ) ≤ 1984 ∧ (1984 : ℚ) ≤ 2024 ∧ entry 182 = 5380 := by
  refine ⟨by norm_num, by norm_num, by decide +kernel⟩

/-- **C34.** After 2024 Delta-T is the last stretch prolonged plus 32.5 s per century squared. -/
theorem C34_after_table (y : K) (h : 2024 ≤ y) :
    tableDeltaT y = 6918 / 100 - 55 / 1000 * (y - 2024) + 325 / 100000 * (y - 2024) ^ 2 := by
  have hidx : tableIndex ((y - 1620) / 2) = 201 := by
    unfold tableIndex
    rw [table_length]
    have : (202 : Int) ≤ ⌊(y - 1620) / 2⌋ := by
      rw [Int.le_floor]; push_cast; linarith
    rw [if_pos (by omega)]; rfl
  have e1 : entry 201 = 6929 := by decide +kernel
  have e2 : entry (201 + 1) = 6918 := by decide +kernel
  unfold tableDeltaT
  simp only [hidx, e1, e2]
  split
  · push_cast; ring
  · rename_i hn
    have : y = 2024 := by
      push_cast at hn
      linarith
    subst this
    push_cast; norm_num

/-- **C34.** Finding: Delta-T is not continuous at 1620.  It is 124 s from 1620 on, but less than 97 s in
    the year before. -/
theorem C34_jump_1620 : (deltaT (1620 : K) = 124) ∧ ∀ y : K, 1619 ≤ y → y < 1620 → deltaT y < 97 := by
  constructor
  · unfold deltaT
    rw [if_neg (lt_irrefl _)]
    have := C34_passes_through (K := K) 0 (by omega)
    have e : entry ((0 : Nat) : Int) = 12400 := by decide +kernel
    rw [e] at this
    norm_num at this
    exact this
  · intro y h0 h1
    unfold deltaT
    rw [if_pos h1]
    have hf : pieces.find? (fun p => p.covers y)
        = pieces[3]? := by
      have a1 : ¬ y < -500 := by linarith
      have a2 : ¬ y < 500 := by linarith
      have a3 : ¬ y < 1600 := by linarith
      have a4 : (1600 : K) ≤ y := by linarith
      simp [pieces, Piece.covers, a1, a2, a3, a4, h1]
    rw [hf]
    simp only [pieces, List.getElem?_cons_succ, List.getElem?_cons_zero, evalPiece, evalLoop]
    push_cast
    have e1 : 19 / 100 ≤ (y - 1600) / 100 := by linarith
    have e2 : (y - 1600) / 100 ≤ 20 / 100 := by linarith
    generalize (y - 1600) / 100 = x at *
    have hx : x ^ 3 ≤ (20 / 100) ^ 3 := pow_le_pow_left₀ (by linarith) e2 3
    have hx2 : (19 / 100) ^ 2 ≤ x ^ 2 := pow_le_pow_left₀ (by norm_num) e1 2
    norm_num at hx hx2 ⊢
    have c : x * x = x ^ 2 := by ring
    have d : x ^ 2 * x = x ^ 3 := by ring
    rw [c, d]
    linarith

omit [IsStrictOrderedRing K] in
/-- **C58.** Delta-T at the end of each of the four polynomial pieces and at the start of the next: it
    jumps by -0.0236609375 s in -500, by -0.08711875 s in 500 and by -0.2511145408 s in 1600. -/
theorem C58_ends :
    (pieces.map fun p => (p.start, p.stop)) = [(none, -500), (some (-500), 500), (some 500, 1600), (some 1600, 1620)] ∧
    (pieces.map fun p => evalPiece p (p.stop : K)) =
      [1720368 / 100, 57101317890625 / 10 ^ 10, 1202511145408 / 10 ^ 10, 95378176 / 10 ^ 6] ∧
    (pieces.tail.map fun p => evalPiece p ((p.start.getD 0 : Int) : K)) =
      [1720368 / 100 - 236609375 / 10 ^ 10, 57101317890625 / 10 ^ 10 - 871187500 / 10 ^ 10,
       1202511145408 / 10 ^ 10 - 2511145408 / 10 ^ 10] := by
  refine ⟨rfl, ?_, ?_⟩ <;> norm_num [pieces, evalPiece, evalLoop]

/-- **C58.** Before 1620 every year falls in exactly one piece, whose polynomial gives Delta-T. -/
theorem C58_one_piece (y : K) (h : y < 1620) :
    ∃ p ∈ pieces, (∀ a, p.start = some a → (a : K) ≤ y) ∧ y < (p.stop : K) ∧ deltaT y = evalPiece p y ∧
      ∀ q ∈ pieces, (∀ a, q.start = some a → (a : K) ≤ y) → y < (q.stop : K) → q.start = p.start := by
  have key : ∀ p ∈ pieces, (∀ a, p.start = some a → (a : K) ≤ y) → y < (p.stop : K) →
      pieces.find? (fun p => p.covers y) = some p := by
    intro p hp h1 h2
    simp only [pieces, List.mem_cons, List.not_mem_nil, or_false] at hp
    rcases hp with rfl | rfl | rfl | rfl
    · simp only [] at h2; push_cast at h2
      simp [pieces, Piece.covers, h2]
    · have h1 := h1 _ rfl
      simp only [] at h2; push_cast at h1 h2
      simp [pieces, Piece.covers, h2, h1, not_lt.2 h1]
    · have h1 := h1 _ rfl
      simp only [] at h2; push_cast at h1 h2
      have : ¬ y < -500 := by linarith
      simp [pieces, Piece.covers, h2, h1, not_lt.2 h1, this]
    · have h1 := h1 _ rfl
      simp only [] at h2; push_cast at h1 h2
      have a1 : ¬ y < -500 := by linarith
      have a2 : ¬ y < 500 := by linarith
      simp [pieces, Piece.covers, h2, h1, not_lt.2 h1, a1, a2]
  have hex : ∃ p ∈ pieces, (∀ a, p.start = some a → (a : K) ≤ y) ∧ y < (p.stop : K) := by
    rcases lt_or_ge y (-500) with h1 | h1
    · exact ⟨_, List.mem_cons_self .., by simp, by push_cast; exact h1⟩
    rcases lt_or_ge y 500 with h2 | h2
    · refine ⟨_, List.mem_cons_of_mem _ (List.mem_cons_self ..), ?_, by push_cast; exact h2⟩
      intro a ha; cases ha; push_cast; exact h1
    rcases lt_or_ge y 1600 with h3 | h3
    · refine ⟨_, List.mem_cons_of_mem _ (List.mem_cons_of_mem _ (List.mem_cons_self ..)), ?_, by push_cast; exact h3⟩
      intro a ha; cases ha; push_cast; exact h2
    · refine ⟨_, List.mem_cons_of_mem _ (List.mem_cons_of_mem _ (List.mem_cons_of_mem _ (List.mem_cons_self ..))), ?_, by push_cast; exact h⟩
      intro a ha; cases ha; push_cast; exact h3
  obtain ⟨p, hp, h1, h2⟩ := hex
  refine ⟨p, hp, h1, h2, ?_, ?_⟩
  · unfold deltaT
    rw [if_pos h, key p hp h1 h2]
  · intro q hq g1 g2
    have := key q hq g1 g2
    rw [key p hp h1 h2] at this
    rw [Option.some.inj this]

/-! ## Predicted leap seconds -/

omit [IsStrictOrderedRing K] in
theorem deltaT_table (y : K) (h : 1620 ≤ y) : deltaT y = tableDeltaT y := by
  unfold deltaT; rw [if_neg (not_lt.2 h)]

/-- From 2021 Delta-T is never below 68.684 s. -/
theorem deltaT_low (y : K) (h : 2021 ≤ y) : 68684 / 1000 ≤ deltaT y := by
  rw [deltaT_table y (by linarith)]
  rcases le_or_gt 2024 y with h2 | h2
  · rw [C34_after_table y h2]
    nlinarith [sq_nonneg (y - 2024 - 8)]
  · obtain ⟨k, t, hk, t0, t1, rfl⟩ := on_stretch y (by linarith) h2.le
    rw [C34_linear k hk t t0 t1]
    have hk2 : k = 200 ∨ k = 201 := by
      have : (199 : K) < k := by linarith
      have : 199 < k := by exact_mod_cast this
      omega
    have e0 : entry 200 = 6936 := by decide +kernel
    have e1 : entry 201 = 6929 := by decide +kernel
    have e2 : entry 202 = 6918 := by decide +kernel
    rcases hk2 with rfl | rfl
    · norm_num [e0, e1]; linarith
    · norm_num [e2, e1]; linarith

theorem deltaT_high (y : K) (h : 2021 ≤ y) (h' : y ≤ 2040) : deltaT y < 69684 / 1000 := by
  rw [deltaT_table y (by linarith)]
  rcases le_or_gt 2024 y with h2 | h2
  · rw [C34_after_table y h2]
    nlinarith
  · obtain ⟨k, t, hk, t0, t1, rfl⟩ := on_stretch y (by linarith) h2.le
    rw [C34_linear k hk t t0 t1]
    have hk2 : k = 200 ∨ k = 201 := by
      have : (199 : K) < k := by linarith
      have : 199 < k := by exact_mod_cast this
      omega
    have e0 : entry 200 = 6936 := by decide +kernel
    have e1 : entry 201 = 6929 := by decide +kernel
    have e2 : entry 202 = 6918 := by decide +kernel
    rcases hk2 with rfl | rfl
    · norm_num [e0, e1]; linarith
    · norm_num [e2, e1]; linarith

theorem deltaT_increasing (a b : K) (h : 2035 ≤ a) (hab : a ≤ b) : deltaT a ≤ deltaT b := by
  rw [deltaT_table a (by linarith), deltaT_table b (by linarith), C34_after_table a (by linarith), C34_after_table b (by linarith)]
  nlinarith

/-- From 2021 the whole seconds of the prediction never decrease. -/
theorem prediction_monotone (a b : K) (h : 2021 ≤ a) (hab : a ≤ b) :
    ⌊deltaT a + 1 / 2 - (32184 : K) / 1000⌋ ≤ ⌊deltaT b + 1 / 2 - (32184 : K) / 1000⌋ := by
  rcases le_or_gt a 2035 with h2 | h2
  · have : ⌊deltaT a + 1 / 2 - (32184 : K) / 1000⌋ ≤ 37 := by
      have := deltaT_high a h (by linarith)
      have : ⌊deltaT a + 1 / 2 - (32184 : K) / 1000⌋ < 38 := by
        rw [Int.floor_lt]; push_cast; linarith
      omega
    refine this.trans ?_
    rw [Int.le_floor]
    have := deltaT_low b (by linarith)
    push_cast; linarith
  · apply Int.floor_le_floor
    have := deltaT_increasing a b h2.le hab
    linarith

theorem leapCount_le (m : Int) : leapCount m ≤ 37 := by
  unfold leapCount
  have := List.countP_le_length (p := fun d : Int × Int => decide (firstOfMonth d.1 d.2 ≤ m)) (l := leapDates)
  have e : leapDates.length = 28 := by decide
  omega

theorem halfYear_mono (a b : Int) (h : Leap.JAN_1 1 ≤ a) (hab : a ≤ b) :
    (Leap.halfYear a).1 ≤ (Leap.halfYear b).1 ∧ (Leap.halfYear a).2 ≤ (Leap.halfYear b).2 := by
  obtain ⟨⟨y, hy⟩, a1, a2⟩ := C33_half_year a h
  obtain ⟨⟨z, hz⟩, b1, b2⟩ := C33_half_year b (by omega)
  have hmono : ∀ y z : Int, y < z → firstOfMonth 1 (y + 1) ≤ firstOfMonth 1 z := by
    intro y z hyz
    rw [← C31_jan, ← C31_jan, jan1_closed, jan1_closed]; omega
  have hj7 : ∀ y, firstOfMonth 1 y < firstOfMonth 7 y ∧ firstOfMonth 7 y < firstOfMonth 1 (y + 1) := by
    intro y
    rw [jul_spec, ← C31_jan, ← C31_jan]
    have := jan_length y
    split at this <;> omega
  have q2 := hj7 y
  have q3 := hj7 z
  rcases Int.lt_trichotomy y z with h | h | h
  · have q1 := hmono y z h
    rcases hy with ⟨e1, e2⟩ | ⟨e1, e2⟩ <;> rcases hz with ⟨e3, e4⟩ | ⟨e3, e4⟩ <;> omega
  · subst h
    rcases hy with ⟨e1, e2⟩ | ⟨e1, e2⟩ <;> rcases hz with ⟨e3, e4⟩ | ⟨e3, e4⟩ <;> omega
  · have q1 := hmono z y h
    rcases hy with ⟨e1, e2⟩ | ⟨e1, e2⟩ <;> rcases hz with ⟨e3, e4⟩ | ⟨e3, e4⟩ <;> omega

theorem dec2021 : firstOfMonth 12 2021 = 59549 := by
  have := C31_months 12 2021 (by omega) (by omega)
  rw [← Option.some.inj this]; decide

theorem half_2021 : Leap.halfYear 59549 = (59396, 59580) := by decide

theorem year_ge (s : Int) (h : 59396 + 59580 ≤ s) : (2021 : K) ≤ yearOf ((4800001 : K) / 2 + (s : K) / 2) := by
  have : ((59396 + 59580 : Int) : K) ≤ (s : K) := by exact_mod_cast h
  unfold yearOf
  push_cast at this
  have h2 : (21 : K) ≤ ((4800001 : K) / 2 + (s : K) / 2 - 2451545) / (1461 / 4) := by
    rw [le_div_iff₀ (by norm_num)]; linarith
  linarith

theorem year_mono (s t : Int) (h : s ≤ t) :
    yearOf ((4800001 : K) / 2 + (s : K) / 2) ≤ yearOf ((4800001 : K) / 2 + (t : K) / 2) := by
  have : (s : K) ≤ (t : K) := by exact_mod_cast h
  unfold yearOf
  have : ((4800001 : K) / 2 + (s : K) / 2 - 2451545) / (1461 / 4) ≤ ((4800001 : K) / 2 + (t : K) / 2 - 2451545) / (1461 / 4) := by
    apply div_le_div_of_nonneg_right _ (by norm_num); linarith
  linarith

omit [IsStrictOrderedRing K] in
/-- TAI - UTC with the default prediction and no end date given. -/
theorem predicted (lastMjd mjd : Int) (h : 59549 ≤ mjd) (hl : mjd ≤ lastMjd) :
    Leap.taiMinusUtc lastMjd (defaultPredict K) mjd =
      some (defaultPredict K ((Leap.halfYear mjd).1 + (Leap.halfYear mjd).2)) := by
  have e : Leap.DEC_1 2021 = 59549 := by decide
  unfold Leap.taiMinusUtc
  simp only []
  rw [if_neg (c := mjd > lastMjd) (by omega), if_pos (by omega)]

/-- **C32.** With the program's own prediction, TAI - UTC exists on every day from 1972 on. -/
theorem C32_total (lastMjd mjd : Int) (h1 : firstOfMonth 1 1972 ≤ mjd) (h3 : mjd ≤ lastMjd) :
    ∃ x, Leap.taiMinusUtc lastMjd (defaultPredict K) mjd = some x ∧ 10 ≤ x := by
  rcases lt_or_ge mjd 59549 with h | h
  · refine ⟨_, C32_tabulated _ _ mjd h1 (by rw [dec2021]; exact h) h3, ?_⟩
    have e : leapCount (firstOfMonth 1 1972) ≤ leapCount mjd := leapCount_mono h1
    have e2 := C32_tabulated (firstOfMonth 1 1972) (fun _ => 0) (firstOfMonth 1 1972) (le_refl _)
      (by rw [dec2021, ← C31_jan]; decide) (le_refl _)
    rw [← C31_jan] at e2 e
    have e3 : Leap.taiMinusUtc (Leap.JAN_1 1972) (fun _ => 0) (Leap.JAN_1 1972) = some 10 := by decide
    rw [e3] at e2
    have := Option.some.inj e2
    omega
  · refine ⟨_, predicted lastMjd mjd h h3, ?_⟩
    have hj : Leap.JAN_1 1 = -678575 := by decide
    have hm := halfYear_mono 59549 mjd (by omega) h
    rw [half_2021] at hm
    have := deltaT_low _ (year_ge (K := K) ((Leap.halfYear mjd).1 + (Leap.halfYear mjd).2) (by simp only [] at hm; omega))
    have h37 : (37 : Int) ≤ defaultPredict K ((Leap.halfYear mjd).1 + (Leap.halfYear mjd).2) := by
      unfold defaultPredict
      rw [Int.le_floor]; push_cast at *; linarith
    omega

/-- **C32.** With the program's own prediction, TAI - UTC never decreases from 1972 on. -/
theorem C32_monotone (lastMjd a b x y : Int) (h1 : firstOfMonth 1 1972 ≤ a) (hab : a ≤ b) (h3 : b ≤ lastMjd)
    (hx : Leap.taiMinusUtc lastMjd (defaultPredict K) a = some x)
    (hy : Leap.taiMinusUtc lastMjd (defaultPredict K) b = some y) : x ≤ y := by
  have hj : Leap.JAN_1 1 = -678575 := by decide
  rcases lt_or_ge b 59549 with hb | hb
  · exact C32_monotone_tabulated lastMjd _ a b x y h1 hab (by rw [dec2021]; exact hb) h3 hx hy
  have hm := halfYear_mono 59549 b (by omega) hb
  rw [half_2021] at hm
  simp only [] at hm
  rw [predicted lastMjd b hb h3] at hy
  obtain rfl := Option.some.inj hy
  rcases lt_or_ge a 59549 with ha | ha
  · rw [C32_tabulated lastMjd _ a h1 (by rw [dec2021]; exact ha) (by omega)] at hx
    obtain rfl := Option.some.inj hx
    have := leapCount_le a
    have hd := deltaT_low _ (year_ge (K := K) ((Leap.halfYear b).1 + (Leap.halfYear b).2) (by omega))
    have h37 : (37 : Int) ≤ defaultPredict K ((Leap.halfYear b).1 + (Leap.halfYear b).2) := by
      unfold defaultPredict
      rw [Int.le_floor]; push_cast at *; linarith
    omega
  · rw [predicted lastMjd a ha (by omega)] at hx
    obtain rfl := Option.some.inj hx
    have hma := halfYear_mono 59549 a (by omega) ha
    rw [half_2021] at hma
    simp only [] at hma
    have hmm := halfYear_mono a b (by omega) hab
    exact prediction_monotone _ _ (year_ge _ (by omega)) (year_mono _ _ (by omega))

/-- **C32.** With the program's own prediction, TAI - UTC changes only at the start of January or July. -/
theorem C32_changes (lastMjd mjd : Int) (h1 : firstOfMonth 1 1972 ≤ mjd)
    (hn : ∀ y, mjd + 1 ≠ firstOfMonth 1 y ∧ mjd + 1 ≠ firstOfMonth 7 y) :
    Leap.taiMinusUtc lastMjd (defaultPredict K) (mjd + 1) = Leap.taiMinusUtc lastMjd (defaultPredict K) mjd := by
  by_cases hs : mjd + 1 = firstOfMonth 12 2021
  · rw [dec2021] at hs
    obtain rfl : mjd = 59548 := by omega
    rcases lt_or_ge lastMjd 59549 with hl | hl
    · unfold Leap.taiMinusUtc
      simp only []
      rw [if_pos (c := (59548 : Int) + 1 > lastMjd) (by omega)]
      by_cases h : (59548 : Int) > lastMjd
      · rw [if_pos h]
      · rw [if_neg h, show lastMjd = 59548 by omega]
    · rw [show (59548 : Int) + 1 = 59549 from rfl, predicted lastMjd 59549 (le_refl _) hl, half_2021]
      have e : Leap.taiMinusUtc lastMjd (defaultPredict K) 59548 = some 37 := by
        have : Leap.searchDown 59548 Leap.leapIntervals.length = some 37 := by decide
        have e : Leap.DEC_1 2021 = 59549 := by decide
        unfold Leap.taiMinusUtc
        simp only []
        rw [if_neg (c := (59548 : Int) > lastMjd) (by omega), if_neg (by omega), this]
      rw [e]
      congr 1
      unfold defaultPredict
      have hy := year_ge (K := K) (59396 + 59580) (le_refl _)
      have hl := deltaT_low _ hy
      have hh := deltaT_high _ hy (by unfold yearOf; push_cast; norm_num)
      rw [Int.floor_eq_iff]
      constructor
      · push_cast at *; linarith
      · push_cast at *; linarith
  · exact C32_changes_any_prediction lastMjd _ mjd h1 hs hn

example : firstOfMonth 1 1972 ≤ 70000 := by rw [← C31_jan]; decide

omit [FloorRing K] in
/-- **C34.** The year used for a Julian Date: 2000 at noon of 1 January 2000, and one more every 365.25 days. -/
theorem C34_year (n : K) : yearOf (2451545 + 365.25 * n) = 2000 + n := by
  unfold yearOf
  norm_num

end Verif.Props
