import Mathlib.Tactic.Ring
import Mathlib.Tactic.SplitIfs
import Mathlib.Tactic.IntervalCases
import Verif.Model.Persian
import Verif.Spec.Drift

/-!
# Property theorems: the constants of the Persian calendar (C116)
-/

namespace Verif.Props

open Verif Verif.Persian Verif.Spec.Drift Verif.Date

/-! ## The years that match -/

theorem algo_begins (c1 c2 o z y : Int) : algo c1 c2 o z y = begins c1 c2 o z y := by
  unfold algo begins
  rw [Int.mul_comm y c1, Int.mul_comm y 365]

theorem bad_none (f : Int → Int) (ds : List Int) : ∀ y, bad f y ds = none ↔ ∀ (k : Nat) (d : Int), ds[k]? = some d → d = f (y + k) := by
  induction ds with
  | nil => intro y; simp [bad]
  | cons d ds ih =>
    intro y
    unfold bad
    by_cases h : f y = d
    · rw [if_neg (by simpa using h), ih]
      constructor
      · intro hk k e he
        cases k with
        | zero => simp at he; rw [← he, ← h]; simp
        | succ k =>
          rw [hk k e (by simpa using he)]
          congr 1; push_cast; ring
      · intro hk k e he
        rw [hk (k + 1) e (by simpa using he)]
        congr 1; push_cast; ring
    · rw [if_pos h]
      simp only [reduceCtorEq, false_iff]
      intro hk
      have := hk 0 d rfl
      simp at this
      exact h this.symm

theorem bad_some (f : Int → Int) (ds : List Int) : ∀ y z, bad f y ds = some z ↔
    ∃ (j : Nat) (d : Int), z = y + j ∧ ds[j]? = some d ∧ d ≠ f z ∧ ∀ (k : Nat) (d : Int), (ds.take j)[k]? = some d → d = f (y + k) := by
  induction ds with
  | nil => intro y z; simp [bad]
  | cons d ds ih =>
    intro y z
    unfold bad
    by_cases h : f y = d
    · rw [if_neg (by simpa using h), ih]
      constructor
      · rintro ⟨j, e, h1, h2, h3, h4⟩
        refine ⟨j + 1, e, by push_cast; omega, by simpa using h2, h3, ?_⟩
        intro k e he
        cases k with
        | zero => simp at he; rw [← he, ← h]; simp
        | succ k =>
          rw [h4 k e (by simpa using he)]
          congr 1; push_cast; ring
      · rintro ⟨j, e, h1, h2, h3, h4⟩
        cases j with
        | zero =>
          simp at h1 h2
          rw [← h2, h1] at h3
          exact absurd h.symm h3
        | succ j =>
          refine ⟨j, e, by push_cast at h1; omega, by simpa using h2, h3, ?_⟩
          intro k e he
          rw [h4 (k + 1) e (by simpa using he)]
          congr 1; push_cast; ring
    · rw [if_pos h]
      constructor
      · intro e
        cases e
        refine ⟨0, d, by simp, rfl, fun e => h e.symm, by simp⟩
      · rintro ⟨j, e, h1, h2, h3, h4⟩
        cases j with
        | zero => simp at h1; rw [h1]
        | succ j =>
          have := h4 0 d (by simp)
          simp at this
          exact absurd this.symm h

/-! ## The search -/

/-- The zero of an offset. -/
theorem zero_begins (y1 c1 c2 o first z : Int) : first = begins c1 c2 o z y1 ↔ z = zero y1 c1 c2 o first := by
  unfold begins zero
  rw [Int.mul_comm y1 c1]
  omega

theorem search_says (y1 c1 c2 first : Int) (jds : List Int) (n : Nat) : ∀ (o m : Int),
    let r := search y1 c1 c2 first jds n o m
    (∀ p, p ∈ r.1 ↔ o ≤ p.1 ∧ p.1 < o + n ∧ p.2 = zero y1 c1 c2 p.1 first ∧ bad (algo c1 c2 p.1 p.2) y1 jds = none) ∧
    r.1.Pairwise (fun p q => p.1 < q.1) ∧ m ≤ r.2 ∧
    (∀ k y, o ≤ k → k < o + n → bad (algo c1 c2 k (zero y1 c1 c2 k first)) y1 jds = some y → y ≤ r.2) ∧
    (r.2 = m ∨ ∃ k, o ≤ k ∧ k < o + n ∧ bad (algo c1 c2 k (zero y1 c1 c2 k first)) y1 jds = some r.2) := by
  induction n with
  | zero =>
    intro o m
    refine ⟨fun p => ?_, .nil, le_refl _, fun k y h1 h2 => by omega, .inl rfl⟩
    simp only [search, List.not_mem_nil, false_iff]
    omega
  | succ n ih =>
    intro o m
    cases hb : bad (algo c1 c2 o (zero y1 c1 c2 o first)) y1 jds with
    | none =>
      obtain ⟨i1, i2, i3, i4, i5⟩ := ih (o + 1) m
      have e : search y1 c1 c2 first jds (n + 1) o m =
          ((o, zero y1 c1 c2 o first) :: (search y1 c1 c2 first jds n (o + 1) m).1, (search y1 c1 c2 first jds n (o + 1) m).2) := by
        simp only [search, hb]
      simp only [e]
      refine ⟨fun p => ?_, ?_, i3, ?_, ?_⟩
      · rw [List.mem_cons, i1]
        constructor
        · rintro (rfl | ⟨h1, h2, h3⟩)
          · exact ⟨le_refl _, by push_cast; omega, rfl, hb⟩
          · exact ⟨by omega, by push_cast; omega, h3⟩
        · rintro ⟨h1, h2, h3, h4⟩
          by_cases e : p.1 = o
          · left
            rw [e] at h3
            exact Prod.ext e h3
          · right
            exact ⟨by omega, by push_cast at h2; omega, h3, h4⟩
      · refine List.Pairwise.cons (fun p hp => ?_) i2
        have := ((i1 p).1 hp).1
        show o < p.1
        omega
      · intro k y h1 h2 h3
        by_cases e : k = o
        · rw [e, hb] at h3
          cases h3
        · exact i4 k y (by omega) (by push_cast at h2; omega) h3
      · rcases i5 with h | ⟨k, h1, h2, h3⟩
        · exact .inl h
        · exact .inr ⟨k, by omega, by push_cast; omega, h3⟩
    | some y0 =>
      obtain ⟨i1, i2, i3, i4, i5⟩ := ih (o + 1) (if m < y0 then y0 else m)
      have e : search y1 c1 c2 first jds (n + 1) o m = search y1 c1 c2 first jds n (o + 1) (if m < y0 then y0 else m) := by
        simp only [search, hb]
      have hle : m ≤ (if m < y0 then y0 else m) ∧ y0 ≤ (if m < y0 then y0 else m) := by split_ifs <;> omega
      simp only [e]
      refine ⟨fun p => ?_, i2, ?_, ?_, ?_⟩
      · rw [i1]
        constructor
        · rintro ⟨h1, h2, h3⟩
          exact ⟨by omega, by push_cast; omega, h3⟩
        · rintro ⟨h1, h2, h3, h4⟩
          by_cases e : p.1 = o
          · rw [h3, e, hb] at h4
            cases h4
          · exact ⟨by omega, by push_cast at h2; omega, h3, h4⟩
      · exact hle.1.trans i3
      · intro k y h1 h2 h3
        by_cases e : k = o
        · rw [e, hb] at h3
          cases h3
          exact hle.2.trans i3
        · exact i4 k y (by omega) (by push_cast at h2; omega) h3
      · rcases i5 with h | ⟨k, h1, h2, h3⟩
        · by_cases hm : m < y0
          · rw [if_pos hm] at h
            right
            refine ⟨o, le_refl _, by push_cast; omega, ?_⟩
            rw [if_pos hm, h, hb]
          · rw [if_neg hm] at h
            left
            rw [if_neg hm]
            exact h
        · exact .inr ⟨k, by omega, by push_cast; omega, h3⟩

/-- C116: the offsets printed are those with which all years begin on the right days, with their zeroes, in order. -/
theorem C116_offsets (y1 c1 c2 : Int) {jds : List Int} (h : jds ≠ []) :
    ∃ r, find y1 c1 c2 jds = .ok r ∧ (∀ o z, (o, z) ∈ r.1 ↔ 0 ≤ o ∧ o < c2 ∧ Matches c1 c2 o z y1 jds) ∧ r.1.Pairwise (fun p q => p.1 < q.1) := by
  obtain ⟨d, ds, rfl⟩ := List.exists_cons_of_ne_nil h
  obtain ⟨h1, h2, -⟩ := search_says y1 c1 c2 d (d :: ds) c2.toNat 0 (-100000)
  refine ⟨_, rfl, fun o z => ?_, h2⟩
  rw [h1, bad_none]
  unfold Matches
  simp only [algo_begins]
  constructor
  · rintro ⟨a, b, -, e⟩
    exact ⟨a, by omega, e⟩
  · rintro ⟨a, b, e⟩
    refine ⟨a, by omega, ?_, e⟩
    have := e 0 d rfl
    rw [← zero_begins]
    simpa using this

/-- C116: the last line printed: the furthest year up to which an offset goes wrong. -/
theorem C116_reached (y1 c1 c2 : Int) {jds : List Int} (h : jds ≠ []) :
    ∃ r, find y1 c1 c2 jds = .ok r ∧ -100000 ≤ r.2 ∧ (∀ o y, 0 ≤ o → o < c2 → FirstMiss c1 c2 o y1 jds y → y ≤ r.2) ∧
      (r.2 = -100000 ∨ ∃ o, 0 ≤ o ∧ o < c2 ∧ FirstMiss c1 c2 o y1 jds r.2) := by
  obtain ⟨d, ds, rfl⟩ := List.exists_cons_of_ne_nil h
  obtain ⟨-, -, h3, h4, h5⟩ := search_says y1 c1 c2 d (d :: ds) c2.toNat 0 (-100000)
  have key : ∀ o y, FirstMiss c1 c2 o y1 (d :: ds) y ↔ bad (algo c1 c2 o (zero y1 c1 c2 o d)) y1 (d :: ds) = some y := by
    intro o y
    rw [bad_some]
    simp only [algo_begins]
    constructor
    · rintro ⟨z, f, j, e, a1, a2, a3, a4, a5, a6⟩
      have hf : f = d := by simpa using a1.symm
      rw [hf, zero_begins] at a2
      rw [a2] at a5 a6
      exact ⟨j, e, a3, a4, a5, a6⟩
    · rintro ⟨j, e, a3, a4, a5, a6⟩
      exact ⟨_, d, j, e, rfl, (zero_begins _ _ _ _ _ _).2 rfl, a3, a4, a5, a6⟩
  refine ⟨_, rfl, h3, fun o y a b c => h4 o y a (by omega) ((key o y).1 c), ?_⟩
  rcases h5 with h5 | ⟨o, a, b, c⟩
  · exact .inl h5
  · exact .inr ⟨o, a, by omega, (key _ _).2 c⟩

/-- Finding: with no years, a day beyond the table is read. -/
theorem C116_empty (y1 c1 : Int) {c2 : Int} (h : 0 < c2) : find y1 c1 c2 [] = .ub := if_pos h

/-! ## The table in date.cpp -/

/-- The first year of each block. -/
def blockStart (i : Nat) : Int := if i = 0 then LOWER_PERSIAN_YEAR else jalaliBreaks.getD (i - 1) 0

theorem jalali_block {i : Nat} (hi : i < 12) {y : Int} (h1 : blockStart i ≤ y) (h2 : y < jalaliBreaks.getD i 0) :
    jalaliJd0 y = begins 303 1250 (jalaliDeltas.getD i 0) (JALALI_ZERO - if i < 3 then 1 else 0) y := by
  unfold jalaliJd0 begins
  rw [Int.add_comm (303 * y), Int.mul_comm 303 y, Int.mul_comm 365 y]
  have hc : i = 0 ∨ i = 1 ∨ i = 2 ∨ i = 3 ∨ i = 4 ∨ i = 5 ∨ i = 6 ∨ i = 7 ∨ i = 8 ∨ i = 9 ∨ i = 10 ∨ i = 11 := by omega
  rcases hc with rfl | rfl | rfl | rfl | rfl | rfl | rfl | rfl | rfl | rfl | rfl | rfl <;>
  · simp [blockStart, jalaliBreaks, LOWER_PERSIAN_YEAR] at h1 h2
    rw [if_neg (by unfold LOWER_PERSIAN_YEAR; omega)]
    simp only [jalaliLoop, jalaliBreaks, jalaliDeltas]
    repeat rw [if_neg (by omega)]
    rw [if_pos (by omega)]
    simp
    try omega

/-- C116: for years in a block of the table, the program finds the block's constant of the table. -/
theorem C116_blocks {i : Nat} (hi : i < 12) {y1 : Int} {n : Nat} (h1 : blockStart i ≤ y1) (h2 : y1 + (n + 1 : Nat) ≤ jalaliBreaks.getD i 0) :
    ∃ r, find y1 303 1250 ((List.range (n + 1)).map fun (k : Nat) => jalaliJd0 (y1 + k)) = .ok r ∧
      (jalaliDeltas.getD i 0, JALALI_ZERO - if i < 3 then 1 else 0) ∈ r.1 := by
  obtain ⟨r, e, hr, -⟩ := C116_offsets y1 303 1250 (jds := (List.range (n + 1)).map fun (k : Nat) => jalaliJd0 (y1 + k)) (by simp)
  refine ⟨r, e, (hr _ _).2 ?_⟩
  have hd : ∀ i : Fin 12, 0 ≤ jalaliDeltas.getD i 0 ∧ jalaliDeltas.getD i 0 < 1250 := by decide
  refine ⟨(hd ⟨i, hi⟩).1, (hd ⟨i, hi⟩).2, fun k d hk => ?_⟩
  rw [List.getElem?_map, Option.map_eq_some_iff] at hk
  obtain ⟨j, hj, rfl⟩ := hk
  obtain ⟨hjn, rfl⟩ : k < n + 1 ∧ k = j := by
    have := List.getElem?_eq_some_iff.1 hj
    obtain ⟨a, b⟩ := this
    simp at a b
    exact ⟨a, b⟩
  exact jalali_block hi (by omega) (by push_cast at h2; omega)

/-! ## The cycle of 33 years -/

/-- C116: from 1178 to 1633, and not in the years beside them, the cycle of 33 years gives the leap years of the calendar. -/
theorem C116_cycle (y : Int) : (1178 ≤ y → y ≤ 1633 → (isLeap y = true ↔ jalaliJd0 (y + 1) - jalaliJd0 y = 366)) ∧
    ((y = 1177 ∨ y = 1634) → ¬(isLeap y = true ↔ jalaliJd0 (y + 1) - jalaliJd0 y = 366)) := by
  constructor
  · intro h1 h2
    have key : ∀ k : Fin 456, isLeap (1178 + ((k : Nat) : Int)) = true ↔
        jalaliJd0 (1178 + ((k : Nat) : Int) + 1) - jalaliJd0 (1178 + ((k : Nat) : Int)) = 366 := by decide +kernel
    have := key ⟨(y - 1178).toNat, by omega⟩
    simp only [Int.toNat_of_nonneg (show 0 ≤ y - 1178 by omega)] at this
    rwa [show 1178 + (y - 1178) = y by omega] at this
  · rintro (rfl | rfl) <;> decide

/-- C116: it has eight leap years in any 33 that are not negative. -/
theorem C116_eight {y : Int} (h : 0 ≤ y) : isLeap (y + 33) = isLeap y ∧ (isLeap y = true ↔ y % 33 ∈ [1, 5, 9, 13, 17, 22, 26, 30]) := by
  unfold isLeap
  rw [Int.tmod_eq_emod_of_nonneg h, Int.tmod_eq_emod_of_nonneg (show 0 ≤ y + 33 by omega), Int.add_emod_right]
  refine ⟨rfl, ?_⟩
  have h1 : 0 ≤ y % 33 := by omega
  have h2 : y % 33 < 33 := by omega
  generalize y % 33 = r at *
  interval_cases r <;> decide

theorem tmod_le_zero {y b : Int} (h : y ≤ 0) : y.tmod b ≤ 0 := by
  have := Int.tmod_nonneg b (show 0 ≤ -y by omega)
  rw [Int.neg_tmod] at this
  omega

/-- Finding: before the year 1 it has no leap years, because remainders are negative. -/
theorem C116_negative {y : Int} (h : y ≤ 0) : isLeap y = false := by
  unfold isLeap
  have h1 : y.tmod 33 ≤ 0 := tmod_le_zero h
  simp only
  rw [if_neg (by omega)]
  refine decide_eq_false ?_
  have := tmod_le_zero (b := 4) h1
  omega

/-! ## Arguments -/

/-- C116: -j after the second argument takes effect wherever it is, and is removed; a negative constant is refused. -/
theorem C116_switches (as : List (List Nat)) (r : Bool) :
    (switches as r = none ↔ ∃ a ∈ as, at? a 0 = 45 ∧ at? a 1 ≠ 106) ∧
    ∀ t, switches as r = some t → t.2 = as.filter (fun a => decide (at? a 0 ≠ 45)) ∧ (t.1 = true ↔ r = true ∧ ∀ a ∈ as, at? a 0 ≠ 45) := by
  induction as generalizing r with
  | nil => simp [switches]
  | cons a as ih =>
    unfold switches
    by_cases h : at? a 0 = 45
    · rw [if_pos h]
      by_cases hj : at? a 1 = 106
      · rw [if_pos hj]
        obtain ⟨i1, i2⟩ := ih false
        refine ⟨by rw [i1]; simp [hj], fun t ht => ?_⟩
        obtain ⟨a1, a2⟩ := i2 t ht
        exact ⟨by simp [h, a1], by simp [a2, h]⟩
      · rw [if_neg hj]
        simp [h, hj]
    · rw [if_neg h]
      obtain ⟨i1, i2⟩ := ih r
      cases hs : switches as r with
      | none =>
        refine ⟨?_, by simp⟩
        obtain ⟨b, hb⟩ := i1.1 hs
        simp only [Option.bind_none, true_iff]
        exact ⟨b, List.mem_cons_of_mem _ hb.1, hb.2⟩
      | some t =>
        obtain ⟨a1, a2⟩ := i2 t hs
        have i3 : ¬∃ a ∈ as, at? a 0 = 45 ∧ at? a 1 ≠ 106 := by rw [← i1, hs]; simp
        constructor
        · simp only [Option.bind_some, reduceCtorEq, false_iff]
          rintro ⟨b, hb, h1, h2⟩
          rcases List.mem_cons.1 hb with rfl | hb
          · exact h h1
          · exact i3 ⟨b, hb, h1, h2⟩
        · intro u hu
          cases hu
          exact ⟨by simp [h, a1], by simp [a2, h]⟩

/-- C116: the constants. -/
theorem C116_constants (a b : List Nat) (h : atoi a ≠ 0) : constants [a, b] = (atoi a, atoi b) ∧ constants [a] = (atoi a, 10000) := by
  simp [constants, h]

/-- `C116_blocks`: the command in the comment, `persian 1145 1635 303 1250`. -/
example := C116_blocks (i := 8) (by decide) (y1 := 1145) (n := 489) (by decide) (by decide)

/-- `C116_reached`: with the offset 0, the third of these years begins on another day. -/
example : FirstMiss 0 1 0 1 [365, 730, 1096] 3 := ⟨0, 365, 2, 1096, rfl, by decide, by decide, rfl, by decide, by
  intro k d h
  match k, h with
  | 0, h => cases h; decide
  | 1, h => cases h; decide⟩

end Verif.Props
