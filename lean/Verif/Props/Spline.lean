import Verif.Model.Spline
import Mathlib.LinearAlgebra.Lagrange
import Mathlib.Data.Rat.Floor
import Mathlib.Algebra.Polynomial.Derivative
import Mathlib.Tactic.Linarith
import Mathlib.Tactic.NormNum
import Mathlib.Tactic.Ring
import Mathlib.Tactic.FieldSimp

/-!
# Property theorems: cubic (C37) and Lagrange (C38) interpolation in a table
-/

set_option linter.unusedSectionVars false

namespace Verif.Props

open Verif Verif.Spline Polynomial

variable {K : Type} [Field K] [LinearOrder K] [FloorRing K]

/-! ## Cubic interpolation -/

/-- **C37.** The error code: 0 with two entries on each side, -1 in the first or last interval of the
    table, -2 otherwise. -/
theorem C37_err_code [IsStrictOrderedRing K] (table : Int → K) (n : Int) (hn : 4 ≤ n) (x : K) :
    (cubic table n x).2 =
      if 1 ≤ x ∧ x < (n : K) - 2 then 0 else if 0 ≤ x ∧ x < (n : K) - 1 then -1 else -2 := by
  have g1 : (1 ≤ x) ↔ 1 ≤ ⌊x⌋ := by rw [Int.le_floor]; norm_num
  have g0 : (0 ≤ x) ↔ 0 ≤ ⌊x⌋ := by rw [Int.le_floor]; norm_num
  have l2 : (x < (n : K) - 2) ↔ ⌊x⌋ < n - 2 := by rw [Int.floor_lt]; norm_num
  have l1 : (x < (n : K) - 1) ↔ ⌊x⌋ < n - 1 := by rw [Int.floor_lt]; norm_num
  unfold cubic cubicIndex
  simp only []
  split_ifs <;> first | rfl | (exfalso; simp only [g1, g0, l2, l1] at *; omega)

theorem cubicIndex_range (n : Int) (hn : 4 ≤ n) (x : K) :
    1 ≤ (cubicIndex n x).1 ∧ (cubicIndex n x).1 ≤ n - 3 := by
  unfold cubicIndex
  simp only []
  split
  · simp only []; omega
  · split <;> simp only [] <;> omega

/-- **C37.** Only entries 0 to n - 1 are used. -/
theorem C37_reads_inside (t u : Int → K) (n : Int) (hn : 4 ≤ n) (x : K)
    (h : ∀ i, 0 ≤ i → i < n → t i = u i) : cubic t n x = cubic u n x := by
  obtain ⟨h1, h2⟩ := cubicIndex_range n hn x
  unfold cubic cubicAt
  simp only []
  rw [h _ (by omega) (by omega), h _ (by omega) (by omega), h _ (by omega) (by omega), h _ (by omega) (by omega)]

/-- **C37.** Every entry except the first and the last is met.
    The property asks for every entry; the two ends are in fact missed, see `C37_misses_ends`. -/
theorem C37_passes_through_partial [IsStrictOrderedRing K] (table : Int → K) (n : Int) (hn : 4 ≤ n) (k : Int) (h1 : 1 ≤ k)
    (h2 : k ≤ n - 2) : (cubic table n (k : K)).1 = table k := by
  unfold cubic cubicIndex
  simp only [Int.floor_intCast]
  rw [if_neg (by omega)]
  by_cases h : k > n - 3
  · rw [if_pos h]
    obtain rfl : n = k + 2 := by omega
    simp only []
    unfold cubicAt
    have e : k + 2 - 3 + 1 = k := by omega
    simp only [e]
    push_cast
    have e2 : k + 2 - 3 + 2 = k + 1 := by omega
    rw [e2]
    ring
  · rw [if_neg h]
    unfold cubicAt
    simp

/-- **C37.** Finding: at the first entry the value is off by the third difference of the first four
    entries, and likewise at the last. -/
theorem C37_misses_ends [IsStrictOrderedRing K] (table : Int → K) (n : Int) (hn : 4 ≤ n) :
    (cubic table n 0).1 = table 0 + (table 0 - 3 * table 1 + 3 * table 2 - table 3) ∧
    (cubic table n ((n - 1 : Int) : K)).1 = table (n - 1) +
      (table (n - 1) - 3 * table (n - 2) + 3 * table (n - 3) - table (n - 4)) := by
  constructor
  · unfold cubic cubicIndex
    simp only [Int.floor_zero]
    rw [if_pos (by omega)]
    unfold cubicAt
    norm_num
    ring
  · unfold cubic cubicIndex
    simp only [Int.floor_intCast]
    rw [if_neg (by omega), if_pos (by omega)]
    unfold cubicAt
    have e1 : n - 3 + 1 = n - 2 := by omega
    have e2 : n - 3 - 1 = n - 4 := by omega
    have e3 : n - 3 + 2 = n - 1 := by omega
    simp only [e1, e2, e3]
    push_cast
    ring

/-- The cubic as a polynomial. -/
noncomputable def cubicPoly (table : Int → K) (idx : Int) : K[X] :=
  let X' := X - C (idx : K)
  let c := (table (idx + 1) - table (idx - 1)) * (1 / 2)
  let y1 := table (idx + 1) - table idx
  let a := (table (idx + 2) - table idx) * (1 / 2) - 2 * y1 + c
  let b := y1 - a - c
  C (table idx) + X' * (C c + X' * (C b + X' * C a))

/-- **C37.** Between entries the result is a polynomial; neighbouring pieces have the same value and the
    same first derivative, (t[k+1] - t[k-1]) / 2, at entry `k`. -/
theorem C37_smooth [IsStrictOrderedRing K] (table : Int → K) (n : Int) (hn : 4 ≤ n) :
    ∃ p : Int → K[X],
      (∀ i : Int, 1 ≤ i → i ≤ n - 3 → ∀ x : K, (i : K) ≤ x → x ≤ (i : K) + 1 → (cubic table n x).1 = (p i).eval x) ∧
      (∀ x : K, x ≤ 1 → (cubic table n x).1 = (p 1).eval x) ∧
      (∀ x : K, (n : K) - 2 ≤ x → (cubic table n x).1 = (p (n - 3)).eval x) ∧
      ∀ k : Int, (p (k - 1)).eval (k : K) = table k ∧ (p k).eval (k : K) = table k ∧
        (derivative (p (k - 1))).eval (k : K) = (table (k + 1) - table (k - 1)) / 2 ∧
        (derivative (p k)).eval (k : K) = (table (k + 1) - table (k - 1)) / 2 := by
  have hev : ∀ (i : Int) (x : K), (cubicPoly table i).eval x = cubicAt table i x := by
    intro i x
    simp [cubicPoly, cubicAt]
  have hval : ∀ k : Int, (cubicPoly table (k - 1)).eval (k : K) = table k ∧ (cubicPoly table k).eval (k : K) = table k := by
    intro k
    rw [hev, hev]
    unfold cubicAt
    have e1 : k - 1 + 1 = k := by omega
    have e2 : k - 1 + 2 = k + 1 := by omega
    simp only [e1, e2]
    push_cast
    constructor <;> ring
  have hin : ∀ i : Int, 1 ≤ i → i ≤ n - 3 → ∀ x : K, (i : K) ≤ x → x < (i : K) + 1 →
      (cubic table n x).1 = (cubicPoly table i).eval x := by
    intro i h1 h2 x h3 h4
    have hf : ⌊x⌋ = i := Int.floor_eq_iff.2 ⟨h3, h4⟩
    rw [hev]
    unfold cubic cubicIndex
    simp only [hf]
    rw [if_neg (by omega), if_neg (by omega)]
  have hlast : ∀ x : K, (n : K) - 2 ≤ x → (cubic table n x).1 = (cubicPoly table (n - 3)).eval x := by
    intro x hx
    have hf : n - 2 ≤ ⌊x⌋ := by rw [Int.le_floor]; push_cast; exact hx
    rw [hev]
    unfold cubic cubicIndex
    simp only []
    rw [if_neg (by omega), if_pos (by omega)]
  refine ⟨cubicPoly table, ?_, ?_, hlast, ?_⟩
  · intro i h1 h2 x h3 h4
    rcases lt_or_eq_of_le h4 with h | h
    · exact hin i h1 h2 x h3 h
    · have hx : x = ((i + 1 : Int) : K) := by rw [h]; push_cast; ring
      subst hx
      have hv := hval (i + 1)
      rw [show i + 1 - 1 = i by omega] at hv
      rw [hv.1]
      exact C37_passes_through_partial table n hn (i + 1) (by omega) (by omega)
  · intro x hx
    rcases lt_or_eq_of_le hx with h | h
    · have hf : ⌊x⌋ < 1 := by rw [Int.floor_lt]; push_cast; exact h
      rw [hev]
      unfold cubic cubicIndex
      simp only []
      rw [if_pos hf]
    · subst h
      exact hin 1 (by omega) (by omega) 1 (by push_cast; exact le_refl _) (by push_cast; linarith)
  · intro k
    refine ⟨(hval k).1, (hval k).2, ?_, ?_⟩
    · unfold cubicPoly
      have e1 : k - 1 + 1 = k := by omega
      have e2 : k - 1 + 2 = k + 1 := by omega
      simp only [e1, e2]
      simp only [derivative_add, derivative_mul, derivative_C, derivative_sub, derivative_X, eval_add, eval_mul,
        eval_C, eval_sub, eval_X, eval_zero, eval_one]
      push_cast
      ring
    · unfold cubicPoly
      simp only [derivative_add, derivative_mul, derivative_C, derivative_sub, derivative_X, eval_add, eval_mul,
        eval_C, eval_sub, eval_X, eval_zero, eval_one]
      ring

/-- **C37.** Quadratics are reproduced exactly, beyond the ends of the table too. -/
theorem C37_quadratics [IsStrictOrderedRing K] (table : Int → K) (n : Int) (hn : 4 ≤ n) (p q r : K)
    (h : ∀ i : Int, 0 ≤ i → i < n → table i = p * (i : K) ^ 2 + q * (i : K) + r) (x : K) :
    (cubic table n x).1 = p * x ^ 2 + q * x + r := by
  obtain ⟨h1, h2⟩ := cubicIndex_range n hn x
  unfold cubic cubicAt
  simp only []
  rw [h _ (by omega) (by omega), h _ (by omega) (by omega), h _ (by omega) (by omega), h _ (by omega) (by omega)]
  push_cast
  ring

example : (cubic (fun i => ((i : ℚ)) ^ 2) 5 (7 / 2)).1 = 49 / 4 := by
  rw [C37_quadratics (fun i => ((i : ℚ)) ^ 2) 5 (by norm_num) 1 0 0 (fun i _ _ => by ring)]
  norm_num

/-! ## Lagrange interpolation -/

/-- Nodes 0, 1, …, n - 1. -/
def node (K : Type) [Field K] (i : Nat) : K := (i : K)

theorem node_inj [CharZero K] (s : Set Nat) : Set.InjOn (node K) s := fun _ _ _ _ h => Nat.cast_injective h

/-- The denominators. -/
def denom (K : Type) [Field K] (n i : Nat) : K := ∏ j ∈ (Finset.range n).erase i, (node K i - node K j)

theorem denom_split (i m : Nat) :
    denom K (i + 1 + m) i = (∏ j ∈ Finset.range i, ((i : K) - (j : K))) * ∏ j ∈ Finset.range m, (-((j : K) + 1)) := by
  have h1 : denom K (i + 1 + m) i = ∏ j ∈ Finset.range (i + 1 + m), (if j = i then 1 else ((i : K) - (j : K))) := by
    unfold denom node
    rw [← Finset.prod_erase (Finset.range (i + 1 + m)) (a := i) (f := fun j => if j = i then 1 else ((i : K) - (j : K))) (by simp)]
    apply Finset.prod_congr rfl
    intro j hj
    rw [if_neg (Finset.ne_of_mem_erase hj)]
  rw [h1, Finset.prod_range_add, Finset.prod_range_succ, if_pos rfl, mul_one]
  congr 1
  · apply Finset.prod_congr rfl
    intro j hj
    rw [if_neg (Nat.ne_of_lt (Finset.mem_range.1 hj))]
  · apply Finset.prod_congr rfl
    intro j _
    rw [if_neg (by omega)]
    push_cast
    ring

theorem denom_zero (m : Nat) : denom K (1 + m) 0 = ∏ j ∈ Finset.range m, (-((j : K) + 1)) := by
  have := denom_split (K := K) 0 m
  rw [show 0 + 1 + m = 1 + m by omega] at this
  rw [this]; simp

theorem denom_step [CharZero K] (n i : Nat) (h : i + 1 < n) :
    denom K n (i + 1) = denom K n i * (((i + 1 : Nat) : K) / (((i + 1 : Nat) : K) - (n : K))) := by
  obtain ⟨m, rfl⟩ : ∃ m, n = i + 1 + 1 + m := ⟨n - i - 2, by omega⟩
  have h1 := denom_split (K := K) (i + 1) m
  have h2 := denom_split (K := K) i (m + 1)
  rw [show i + 1 + (m + 1) = i + 1 + 1 + m by omega] at h2
  rw [h1, h2, Finset.prod_range_succ (n := m), Finset.prod_range_succ' (n := i)]
  have e : ∀ j ∈ Finset.range i, ((i + 1 : Nat) : K) - ((j + 1 : Nat) : K) = (i : K) - (j : K) := by
    intro j _; push_cast; ring
  rw [Finset.prod_congr rfl e]
  have hne : (m : K) + 1 ≠ 0 := by
    have : ((m + 1 : Nat) : K) ≠ 0 := by exact_mod_cast Nat.succ_ne_zero m
    push_cast at this; exact this
  have hd : ((i + 1 : Nat) : K) - ((i + 1 + 1 + m : Nat) : K) = -((m : K) + 1) := by push_cast; ring
  rw [hd]
  field_simp
  push_cast
  ring

theorem loop1_c (x : K) (n : Nat) : (lagrangeLoop1 x n).1 = ∏ j ∈ Finset.range n, (x - node K j) := by
  induction n with
  | zero => simp [lagrangeLoop1]
  | succ n ih => rw [Finset.prod_range_succ, ← ih]; rfl

theorem loop1_sum (x : K) (n : Nat) : (lagrangeLoop1 x n).2.2 = ∑ j ∈ Finset.range n, (x - node K j)⁻¹ := by
  induction n with
  | zero => simp [lagrangeLoop1]
  | succ n ih =>
    rw [Finset.sum_range_succ, ← ih]
    show (lagrangeLoop1 x n).2.2 + 1 / (x - (n : K)) = _
    rw [one_div]; rfl

theorem loop1_t (x : K) (n : Nat) : (lagrangeLoop1 x (1 + n)).2.1 = denom K (1 + n) 0 := by
  rw [denom_zero]
  induction n with
  | zero => simp [lagrangeLoop1]
  | succ n ih =>
    rw [Finset.prod_range_succ, ← ih, show 1 + (n + 1) = (1 + n) + 1 by omega]
    show (if 1 + n = 0 then _ else (lagrangeLoop1 x (1 + n)).2.1 * -((1 + n : Nat) : K)) = _
    rw [if_neg (by omega)]
    push_cast
    ring

theorem loop2 [CharZero K] (f : Int → K) (x y0 S : K) (n m : Nat) (hm : m ≤ n) :
    (m ≠ 0 → (lagrangeLoop2 f x y0 (denom K n 0) S n m).1 = denom K n (m - 1)) ∧
    (lagrangeLoop2 f x y0 (denom K n 0) S n m).2.1 =
      ∑ j ∈ Finset.range m, (f j - y0) / (denom K n j * (x - node K j)) ∧
    (lagrangeLoop2 f x y0 (denom K n 0) S n m).2.2 =
      ∑ j ∈ Finset.range m, (S - (x - node K j)⁻¹) * f j / (denom K n j * (x - node K j)) := by
  induction m with
  | zero => simp [lagrangeLoop2]
  | succ m ih =>
    obtain ⟨i1, i2, i3⟩ := ih (by omega)
    have ht : (lagrangeLoop2 f x y0 (denom K n 0) S n (m + 1)).1 = denom K n m := by
      show (if m = 0 then (lagrangeLoop2 f x y0 (denom K n 0) S n m).1 else
        (lagrangeLoop2 f x y0 (denom K n 0) S n m).1 * ((m : K) / ((m : K) - (n : K)))) = _
      by_cases h : m = 0
      · subst h; rw [if_pos rfl]; rfl
      · rw [if_neg h, i1 h]
        obtain ⟨k, rfl⟩ : ∃ k, m = k + 1 := ⟨m - 1, by omega⟩
        rw [denom_step n k (by omega)]
        rfl
    refine ⟨fun _ => ?_, ?_, ?_⟩
    · rw [ht]; rfl
    · rw [Finset.sum_range_succ, ← i2, ← ht]; rfl
    · rw [Finset.sum_range_succ, ← i3, ← ht, inv_eq_one_div]; rfl

theorem denom_weight (n i : Nat) : (denom K n i)⁻¹ = Lagrange.nodalWeight (Finset.range n) (node K) i := by
  unfold denom Lagrange.nodalWeight
  rw [Finset.prod_inv_distrib]

/-- Off the grid, the loops give the interpolation polynomial's value and derivative. -/
theorem loops_eval [CharZero K] (f : Int → K) (x : K) (n : Nat) (hn : 1 ≤ n) (hx : ∀ i < n, x ≠ (i : K)) (P : K[X])
    (hdeg : P.degree < n) (hP : ∀ i < n, f i = P.eval (i : K)) (y0 : K) :
    (lagrangeLoop2 f x y0 (lagrangeLoop1 x n).2.1 (lagrangeLoop1 x n).2.2 n n).2.1 * (lagrangeLoop1 x n).1 + y0 = P.eval x ∧
    (lagrangeLoop2 f x y0 (lagrangeLoop1 x n).2.1 (lagrangeLoop1 x n).2.2 n n).2.2 * (lagrangeLoop1 x n).1 = (derivative P).eval x := by
  have ht : (lagrangeLoop1 x n).2.1 = denom K n 0 := by
    obtain ⟨k, rfl⟩ : ∃ k, n = 1 + k := ⟨n - 1, by omega⟩
    exact loop1_t x k
  rw [ht]
  obtain ⟨-, h2, h3⟩ := loop2 f x y0 (lagrangeLoop1 x n).2.2 n n (le_refl _)
  rw [h2, h3, loop1_c, loop1_sum]
  have hxn : ∀ i ∈ Finset.range n, x ≠ node K i := fun i hi => hx i (Finset.mem_range.1 hi)
  have hnodal : (∏ j ∈ Finset.range n, (x - node K j)) = eval x (Lagrange.nodal (Finset.range n) (node K)) :=
    Lagrange.eval_nodal.symm
  have hint : ∀ Q : K[X], Q.degree < n → Q = Lagrange.interpolate (Finset.range n) (node K) (fun i => Q.eval (node K i)) := by
    intro Q hQ
    apply Lagrange.eq_interpolate (node_inj _)
    rw [Finset.card_range]; exact hQ
  constructor
  · have hq : (P - C y0).degree < n := by
      refine lt_of_le_of_lt (degree_sub_le _ _) (max_lt hdeg ?_)
      refine lt_of_le_of_lt degree_C_le ?_
      exact_mod_cast hn
    have e := hint _ hq
    have ev : eval x (P - C y0) = eval x (Lagrange.interpolate (Finset.range n) (node K) (fun i => (P - C y0).eval (node K i))) := by
      rw [← e]
    rw [Lagrange.eval_interpolate_not_at_node _ hxn] at ev
    rw [hnodal, mul_comm]
    have : (∑ j ∈ Finset.range n, (f j - y0) / (denom K n j * (x - node K j))) =
        ∑ i ∈ Finset.range n, Lagrange.nodalWeight (Finset.range n) (node K) i * (x - node K i)⁻¹ * (P - C y0).eval (node K i) := by
      apply Finset.sum_congr rfl
      intro i hi
      rw [← denom_weight, hP i (Finset.mem_range.1 hi), div_eq_mul_inv, mul_inv]
      simp only [eval_sub, eval_C, node]
      ring
    rw [this, ← ev]
    simp
  · have e := hint P hdeg
    have hd : ∀ i ∈ Finset.range n, eval x (derivative (Lagrange.basis (Finset.range n) (node K) i)) =
        eval x (Lagrange.nodal (Finset.range n) (node K)) *
          (((∑ j ∈ Finset.range n, (x - node K j)⁻¹) - (x - node K i)⁻¹) * (Lagrange.nodalWeight (Finset.range n) (node K) i * (x - node K i)⁻¹)) := by
      intro i hi
      have hb : Lagrange.basis (Finset.range n) (node K) i =
          C (Lagrange.nodalWeight (Finset.range n) (node K) i) * Lagrange.nodal ((Finset.range n).erase i) (node K) := by
        rw [Lagrange.basis_eq_prod_sub_inv_mul_nodal_div hi, ← Lagrange.nodal_erase_eq_nodal_div hi]
      rw [hb, derivative_C_mul, eval_mul, eval_C, Lagrange.derivative_nodal, eval_finsetSum]
      have her : ∀ (s : Finset Nat), (∀ k ∈ s, x ≠ node K k) → ∀ j ∈ s,
          eval x (Lagrange.nodal (s.erase j) (node K)) = eval x (Lagrange.nodal s (node K)) * (x - node K j)⁻¹ := by
        intro s hs j hj
        rw [Lagrange.nodal_eq_mul_nodal_erase hj, eval_mul]
        have : x - node K j ≠ 0 := sub_ne_zero.2 (hs j hj)
        simp only [eval_sub, eval_X, eval_C]
        field_simp
      have hs2 : ∀ k ∈ (Finset.range n).erase i, x ≠ node K k := fun k hk => hxn k (Finset.mem_of_mem_erase hk)
      rw [Finset.sum_congr rfl (fun j hj => her _ hs2 j hj), ← Finset.mul_sum, her _ hxn i hi,
        ← Finset.add_sum_erase _ (fun j => (x - node K j)⁻¹) hi]
      ring
    have ev : eval x (derivative P) = ∑ i ∈ Finset.range n, P.eval (node K i) *
        eval x (derivative (Lagrange.basis (Finset.range n) (node K) i)) := by
      conv_lhs => rw [e]
      rw [Lagrange.interpolate_apply, derivative_sum, eval_finsetSum]
      apply Finset.sum_congr rfl
      intro i _
      rw [derivative_C_mul, eval_mul, eval_C]
    rw [ev, hnodal, Finset.sum_mul]
    apply Finset.sum_congr rfl
    intro i hi
    rw [hd i hi, ← denom_weight, hP i (Finset.mem_range.1 hi), div_eq_mul_inv, mul_inv]
    simp only [node]
    ring

theorem lagrangeIndex_range (n : Int) (x : K) (k : Nat) (h : (k : Int) ≤ n) :
    0 ≤ lagrangeIndex n x k ∧ lagrangeIndex n x k + k ≤ n := by
  unfold lagrangeIndex
  simp only []
  split
  · omega
  · split <;> omega

/-- Off the grid points of the table, the shifted argument is not a node. -/
theorem off_node [IsStrictOrderedRing K] (n : Int) (x : K) (k : Nat) (h : (k : Int) ≤ n)
    (hx : ¬ (x = (trunc (x + 1 / 2) : K) ∧ trunc (x + 1 / 2) ≥ 0 ∧ trunc (x + 1 / 2) < n)) (i : Nat) (hi : i < k) :
    x - (lagrangeIndex n x k : K) ≠ (i : K) := by
  intro he
  apply hx
  obtain ⟨h1, h2⟩ := lagrangeIndex_range n x k h
  have hxe : x = ((lagrangeIndex n x k + i : Int) : K) := by push_cast; linarith
  generalize lagrangeIndex n x k = idx at *
  have htr : trunc (x + 1 / 2) = idx + i := by
    unfold trunc
    have h0 : (0 : K) ≤ ((idx + i : Int) : K) := by exact_mod_cast (by omega : (0 : Int) ≤ idx + i)
    rw [if_pos (by rw [hxe]; linarith), Int.floor_eq_iff]
    constructor
    · rw [hxe]; linarith
    · rw [hxe]; linarith
  rw [htr]
  exact ⟨hxe, by omega, by omega⟩

/-- **C38.** A polynomial of degree below the number of points is reproduced exactly, at every argument,
    inside the table, at its entries, or beyond its ends. -/
theorem C38_exact [IsStrictOrderedRing K] (table : Int → K) (n : Int) (k : Nat) (hk : 1 ≤ k) (hkn : (k : Int) ≤ n) (P : K[X])
    (hdeg : P.degree < k) (hP : ∀ i : Int, 0 ≤ i → i < n → table i = P.eval (i : K)) (x : K) :
    lagrange table n x k = P.eval x := by
  unfold lagrange
  simp only []
  by_cases hx : x = (trunc (x + 1 / 2) : K) ∧ trunc (x + 1 / 2) ≥ 0 ∧ trunc (x + 1 / 2) < n
  · rw [if_pos hx, hP _ hx.2.1 hx.2.2, ← hx.1]
  · rw [if_neg hx]
    obtain ⟨h1, h2⟩ := lagrangeIndex_range n x k hkn
    have hoff := off_node n x k hkn hx
    unfold lagrangeOff
    simp only []
    have hcomp : (P.comp (X + C ((lagrangeIndex n x k : Int) : K))).degree < k := by
      refine lt_of_le_of_lt ?_ hdeg
      rcases eq_or_ne P 0 with h | h
      · subst h; simp
      · rw [degree_eq_natDegree h]
        refine degree_le_of_natDegree_le ?_
        rw [natDegree_comp, natDegree_X_add_C, mul_one]
    have := (loops_eval (fun i => table (lagrangeIndex n x k + i)) (x - (lagrangeIndex n x k : K)) k hk hoff
      (P.comp (X + C ((lagrangeIndex n x k : Int) : K))) hcomp (by
        intro i hi
        rw [hP _ (by omega) (by omega)]
        simp [add_comm]) (table (lagrangeIndex n x k + (k / 2 : Nat)))).1
    rw [this]
    simp

/-- **C38.** Off the table's entries the derivative returned is that of the polynomial. -/
theorem C38_derivative [IsStrictOrderedRing K] (table : Int → K) (n : Int) (k : Nat) (hk : 1 ≤ k) (hkn : (k : Int) ≤ n) (P : K[X])
    (hdeg : P.degree < k) (hP : ∀ i : Int, 0 ≤ i → i < n → table i = P.eval (i : K)) (x : K)
    (hx : ∀ i : Int, 0 ≤ i → i < n → x ≠ (i : K)) :
    lagrangeDeriv table n x k = (derivative P).eval x := by
  have hx' : ¬ (x = (trunc (x + 1 / 2) : K) ∧ trunc (x + 1 / 2) ≥ 0 ∧ trunc (x + 1 / 2) < n) :=
    fun h => hx _ h.2.1 h.2.2 h.1
  unfold lagrangeDeriv
  simp only []
  rw [if_neg hx']
  obtain ⟨h1, h2⟩ := lagrangeIndex_range n x k hkn
  have hoff := off_node n x k hkn hx'
  unfold lagrangeOff
  simp only []
  have hcomp : (P.comp (X + C ((lagrangeIndex n x k : Int) : K))).degree < k := by
    refine lt_of_le_of_lt ?_ hdeg
    rcases eq_or_ne P 0 with h | h
    · subst h; simp
    · rw [degree_eq_natDegree h]
      refine degree_le_of_natDegree_le ?_
      rw [natDegree_comp, natDegree_X_add_C, mul_one]
  have := (loops_eval (fun i => table (lagrangeIndex n x k + i)) (x - (lagrangeIndex n x k : K)) k hk hoff
    (P.comp (X + C ((lagrangeIndex n x k : Int) : K))) hcomp (by
      intro i hi
      rw [hP _ (by omega) (by omega)]
      simp [add_comm]) (table (lagrangeIndex n x k + (k / 2 : Nat)))).2
  rw [this, derivative_comp]
  simp

/-- **C38.** At a table entry the derivative is the central difference over 2e-5 of the polynomial. -/
theorem C38_derivative_at_entry [IsStrictOrderedRing K] (table : Int → K) (n : Int) (k : Nat) (hk : 1 ≤ k) (hkn : (k : Int) ≤ n) (P : K[X])
    (hdeg : P.degree < k) (hP : ∀ i : Int, 0 ≤ i → i < n → table i = P.eval (i : K)) (i : Int) (h0 : 0 ≤ i) (hi : i < n) :
    lagrangeDeriv table n (i : K) k = (P.eval ((i : K) + 1 / 10 ^ 5) - P.eval ((i : K) - 1 / 10 ^ 5)) / (2 * (1 / 10 ^ 5)) := by
  have htr : trunc ((i : K) + 1 / 2) = i := by
    unfold trunc
    have h0' : (0 : K) ≤ (i : K) := by exact_mod_cast h0
    rw [if_pos (by linarith), Int.floor_eq_iff]
    constructor <;> linarith
  unfold lagrangeDeriv
  simp only [htr]
  rw [if_pos ⟨trivial, h0, hi⟩, C38_exact table n k hk hkn P hdeg hP, C38_exact table n k hk hkn P hdeg hP]

theorem loop2_congr (f g : Int → K) (x y0 t S : K) (n m : Nat) (h : ∀ i < m, f (i : Nat) = g (i : Nat)) :
    lagrangeLoop2 f x y0 t S n m = lagrangeLoop2 g x y0 t S n m := by
  induction m with
  | zero => rfl
  | succ m ih =>
    unfold lagrangeLoop2
    rw [ih (fun i hi => h i (by omega)), h m (by omega)]

/-- **C38.** Only entries 0 to n - 1 are used. -/
theorem C38_reads_inside (t u : Int → K) (n : Int) (k : Nat) (hk : 1 ≤ k) (hkn : (k : Int) ≤ n) (x : K)
    (h : ∀ i, 0 ≤ i → i < n → t i = u i) :
    lagrange t n x k = lagrange u n x k ∧ lagrangeDeriv t n x k = lagrangeDeriv u n x k := by
  have hoff : ∀ x : K, lagrangeOff t n x k = lagrangeOff u n x k := by
    intro x
    obtain ⟨h1, h2⟩ := lagrangeIndex_range n x k hkn
    unfold lagrangeOff
    simp only []
    have hh : k / 2 < k := by omega
    rw [h (lagrangeIndex n x k + ((k / 2 : Nat) : Int)) (by omega) (by omega),
      loop2_congr (fun i => t (lagrangeIndex n x k + i)) (fun i => u (lagrangeIndex n x k + i)) _ _ _ _ k k
        (fun i hi => h _ (by omega) (by omega))]
  have hval : ∀ x : K, lagrange t n x k = lagrange u n x k := by
    intro x
    unfold lagrange
    simp only []
    rw [hoff]
    split
    · rename_i hc; rw [h _ hc.2.1 hc.2.2]
    · rfl
  refine ⟨hval x, ?_⟩
  unfold lagrangeDeriv
  simp only [hval, hoff]

/-- **C38.** Finding: asked for more points than the table has, it reads before the table. -/
theorem C38_too_many_points [IsStrictOrderedRing K] (n : Int) (k : Nat) (h : n < k) (x : K) (hx : (n : K) ≤ x - (k : K) / 2) (hn : 0 ≤ n) :
    lagrangeIndex n x k < 0 := by
  have : n ≤ ⌊x - (k : K) / 2⌋ := by rw [Int.le_floor]; exact hx
  unfold lagrangeIndex
  simp only []
  rw [if_neg (by omega), if_pos (by omega)]
  omega

example : lagrange (fun i => ((i : ℚ)) ^ 2) 5 (7 / 2) 3 = 49 / 4 := by
  rw [C38_exact (fun i => ((i : ℚ)) ^ 2) 5 3 (by norm_num) (by norm_num) (X ^ 2)
    (by rw [degree_X_pow]; exact_mod_cast (by norm_num : (2 : ℕ) < 3)) (by intro i _ _; simp)]
  norm_num

/-- **C38.** Away from the ends, the entries used are the `k` nearest to `x`: tables which agree within `k/2` of `x`
    give the same value. -/
theorem C38_nearest [IsStrictOrderedRing K] (t u : Int → K) (n : Int) (k : Nat) (hk : 1 ≤ k) (x : K)
    (h1 : (k : K) / 2 ≤ x + 1) (h2 : x + (k : K) / 2 < n)
    (h : ∀ i : Int, |(i : K) - x| ≤ (k : K) / 2 → t i = u i) : lagrange t n x k = lagrange u n x k := by
  have hidx : lagrangeIndex n x k = ⌊x - (k : K) / 2⌋ + 1 := by
    unfold lagrangeIndex
    have a1 : -1 ≤ ⌊x - (k : K) / 2⌋ := by rw [Int.le_floor]; push_cast; linarith
    have a2 : ⌊x - (k : K) / 2⌋ < n - k := by rw [Int.floor_lt]; push_cast; linarith
    simp only
    rw [if_neg (by omega), if_neg (by omega)]
  have e : ∀ i : Nat, i < k → t (lagrangeIndex n x k + (i : Int)) = u (lagrangeIndex n x k + (i : Int)) := by
    intro i hi
    apply h
    rw [hidx]
    have b1 := Int.floor_le (x - (k : K) / 2)
    have b2 := Int.lt_floor_add_one (x - (k : K) / 2)
    have hi' : (i : K) + 1 ≤ k := by exact_mod_cast hi
    have hi0 : (0 : K) ≤ i := Nat.cast_nonneg i
    rw [abs_le]
    push_cast
    constructor <;> linarith
  have e0 : ∀ i : Int, x = (i : K) → t i = u i := by
    intro i hi
    apply h
    rw [← hi, sub_self, abs_zero]
    positivity
  have off : lagrangeOff t n x k = lagrangeOff u n x k := by
    unfold lagrangeOff
    simp only
    rw [loop2_congr (fun i => t (lagrangeIndex n x k + i)) (fun i => u (lagrangeIndex n x k + i)) _ _ _ _ _ k e]
    rw [e (k / 2) (by omega)]
  unfold lagrange
  simp only
  split
  · next hh => exact e0 _ hh.1
  · rw [off]

end Verif.Props
