import Verif.Spec.Events
import Mathlib.Algebra.BigOperators.Group.Finset.Basic
import Mathlib.Algebra.Order.BigOperators.Group.Finset
import Mathlib.Data.Finset.Range
import Mathlib.Tactic.SplitIfs
import Mathlib.Tactic.Ring
import Mathlib.Tactic.Linarith
import Mathlib.Tactic.NormNum

/-!
# C112: sorting and hiding the events of Jupiter's satellites
-/

namespace Verif.Props

open Verif.JEvent Verif.Spec.Events

/-! ## Rearranging -/

theorem rearranged_refl (n : Nat) (e : Nat → Event) : Rearranged n e e := ⟨Equiv.refl _, fun _ _ => rfl, fun _ => rfl⟩

theorem rearranged_trans {n : Nat} {e e' e'' : Nat → Event} (h : Rearranged n e e') (h' : Rearranged n e' e'') : Rearranged n e e'' := by
  obtain ⟨p, p1, p2⟩ := h
  obtain ⟨q, q1, q2⟩ := h'
  refine ⟨q.trans p, fun k hk => ?_, fun k => ?_⟩
  · show p (q k) = k
    rw [q1 k hk, p1 k hk]
  · rw [q2, p2]; rfl

theorem rearranged_exchange {n j k : Nat} (e : Nat → Event) (hj : j < n) (hk : k < n) : Rearranged n e (exchange e k j) := by
  refine ⟨Equiv.swap k j, fun i hi => ?_, fun _ => rfl⟩
  exact Equiv.swap_apply_of_ne_of_ne (by omega) (by omega)

theorem rearranged_lt {n : Nat} {p : Equiv.Perm Nat} (h : ∀ k, n ≤ k → p k = k) {k : Nat} (hk : k < n) : p k < n := by
  by_contra hc
  have h1 := h (p k) (by omega)
  have h2 := p.injective h1
  omega

/-! ## The loop ends -/

/-- How many of the elements are earlier than `t`. -/
def earlier (n : Nat) (e : Nat → Event) (t : ℚ) : Nat := ((Finset.range n).filter fun k => (e k).t < t).card

theorem earlier_le (n : Nat) (e : Nat → Event) (t : ℚ) : earlier n e t ≤ n := by
  have := Finset.card_filter_le (Finset.range n) fun k => (e k).t < t
  simpa [earlier] using this

theorem earlier_lt {n : Nat} {e : Nat → Event} {l : Nat} (hl : l < n) {t : ℚ} (h : (e l).t < t) : earlier n e (e l).t < earlier n e t := by
  apply Finset.card_lt_card
  refine ⟨fun k hk => ?_, fun hc => ?_⟩
  · rw [Finset.mem_filter] at hk ⊢
    exact ⟨hk.1, hk.2.trans h⟩
  · have := hc (Finset.mem_filter.2 ⟨Finset.mem_range.2 hl, h⟩)
    rw [Finset.mem_filter] at this
    exact lt_irrefl _ this.2

/-- Grows with every exchange. -/
def order (r : ℚ → Nat) (n : Nat) (e : Nat → Event) : Nat := ∑ k ∈ Finset.range n, k * r (e k).t

theorem order_le {r : ℚ → Nat} {n : Nat} (hr : ∀ t, r t ≤ n) (e : Nat → Event) : order r n e ≤ n * (n * n) := by
  unfold order
  calc ∑ k ∈ Finset.range n, k * r (e k).t ≤ ∑ _k ∈ Finset.range n, n * n :=
        Finset.sum_le_sum fun k hk => Nat.mul_le_mul (Finset.mem_range.1 hk).le (hr _)
    _ = n * (n * n) := by rw [Finset.sum_const, Finset.card_range]; rfl

theorem order_exchange {r : ℚ → Nat} {n j k : Nat} {e : Nat → Event} (hjk : j < k) (hk : k < n) (h : r (e k).t < r (e j).t) :
    order r n e < order r n (exchange e k j) := by
  have mj : j ∈ Finset.range n := Finset.mem_range.2 (by omega)
  have mk : k ∈ (Finset.range n).erase j := Finset.mem_erase.2 ⟨by omega, Finset.mem_range.2 hk⟩
  have hsum : ∀ f : Nat → Nat, ∑ x ∈ Finset.range n, f x = f j + (f k + ∑ x ∈ ((Finset.range n).erase j).erase k, f x) := by
    intro f
    rw [← Finset.add_sum_erase _ f mj, ← Finset.add_sum_erase _ f mk]
  unfold order
  rw [hsum, hsum]
  have hrest : ∑ x ∈ ((Finset.range n).erase j).erase k, x * r (exchange e k j x).t = ∑ x ∈ ((Finset.range n).erase j).erase k, x * r (e x).t := by
    apply Finset.sum_congr rfl
    intro x hx
    rw [Finset.mem_erase, Finset.mem_erase] at hx
    unfold exchange
    rw [Equiv.swap_apply_of_ne_of_ne hx.1 hx.2.1]
  rw [hrest]
  have e1 : exchange e k j j = e k := by unfold exchange; rw [Equiv.swap_apply_right]
  have e2 : exchange e k j k = e j := by unfold exchange; rw [Equiv.swap_apply_left]
  rw [e1, e2]
  have : j * r (e j).t + k * r (e k).t < j * r (e k).t + k * r (e j).t := by nlinarith
  omega

/-- Enough fuel for the loop over `j`. -/
def enough (n : Nat) : Nat := n * (n * n) * (n + 1) + n + 1

/-- With gap `g` from element `j` on: the loop ends, and every property that a step keeps is kept. -/
theorem inner_ends {g n : Nat} (hg : 0 < g) (e0 : Nat → Event) (I : Nat → (Nat → Event) → Prop)
    (hkeep : ∀ j e, I j e → j + g < n → ¬(e (j + g)).t < (e j).t → I (j + g) e)
    (hswap : ∀ j e, I j e → j + g < n → (e (j + g)).t < (e j).t → I (if g ≤ j then j - g else j + g) (exchange e (j + g) j))
    (fuel j : Nat) (e : Nat → Event) (hr : Rearranged n e0 e)
    (hf : (n * (n * n) - order (earlier n e0) n e) * (n + 1) + (n - j) < fuel) (hI : I j e) :
    ∃ e' j', inner g n fuel j e = some e' ∧ Rearranged n e0 e' ∧ I j' e' ∧ n ≤ j' + g := by
  induction fuel generalizing j e with
  | zero => omega
  | succ fuel ih =>
    rw [inner]
    by_cases hj : j + g < n
    · rw [if_pos hj]
      by_cases hs : (e (j + g)).t < (e j).t
      · rw [if_pos hs]
        have hlt : order (earlier n e0) n e < order (earlier n e0) n (exchange e (j + g) j) := by
          apply order_exchange (by omega) hj
          obtain ⟨p, p1, p2⟩ := hr
          rw [p2 (j + g)]
          exact earlier_lt (rearranged_lt p1 hj) (by rw [← p2]; exact hs)
        have hle := order_le (earlier_le n e0) (exchange e (j + g) j)
        apply ih
        · exact rearranged_trans hr (rearranged_exchange e (by omega) hj)
        · generalize order (earlier n e0) n e = a at *
          generalize order (earlier n e0) n (exchange e (j + g) j) = b at *
          have h1 : (n * (n * n) - b) * (n + 1) + (n + 1) ≤ (n * (n * n) - a) * (n + 1) := by
            rw [← Nat.succ_mul]
            exact Nat.mul_le_mul_right _ (by omega)
          split_ifs <;> omega
        · exact hswap j e hI hj hs
      · rw [if_neg hs]
        exact ih (j + g) e hr (by omega) (hkeep j e hI hj hs)
    · rw [if_neg hj]
      exact ⟨e, j, rfl, hr, hI, by omega⟩

theorem fuel_enough {n fuel : Nat} (hf : enough n ≤ fuel) (e0 e : Nat → Event) (j : Nat) :
    (n * (n * n) - order (earlier n e0) n e) * (n + 1) + (n - j) < fuel := by
  unfold enough at hf
  have : (n * (n * n) - order (earlier n e0) n e) * (n + 1) ≤ n * (n * n) * (n + 1) := Nat.mul_le_mul_right _ (Nat.sub_le _ _)
  omega

theorem middle_ends {g n fuel : Nat} (hg : 0 < g) (hf : enough n ≤ fuel) (e0 : Nat → Event) (m i : Nat) (e : Nat → Event) (hr : Rearranged n e0 e) :
    ∃ e', middle fuel g n m i e = some e' ∧ Rearranged n e0 e' := by
  induction m generalizing i e with
  | zero => exact ⟨e, rfl, hr⟩
  | succ m ih =>
    obtain ⟨e', -, h1, h2, -, -⟩ := inner_ends hg e0 (fun _ _ => True) (fun _ _ _ _ _ => trivial) (fun _ _ _ _ _ => trivial) fuel i e hr
      (fuel_enough hf e0 e i) trivial
    obtain ⟨e'', h3, h4⟩ := ih (i + 1) e' h2
    refine ⟨e'', ?_, h4⟩
    rw [middle, h1]
    exact h3

/-- With gap 1 the array is sorted. -/
theorem last_pass {n fuel : Nat} (hf : enough n ≤ fuel) (e0 e : Nat → Event) (hr : Rearranged n e0 e) :
    ∃ e', middle fuel 1 n 1 0 e = some e' ∧ Rearranged n e0 e' ∧ InOrder n e' := by
  let I : Nat → (Nat → Event) → Prop := fun j e => ∀ k, k < j → (e k).t ≤ (e (k + 1)).t
  have hkeep : ∀ j e, I j e → j + 1 < n → ¬(e (j + 1)).t < (e j).t → I (j + 1) e := by
    intro j e hI hj hs k hk
    by_cases h : k = j
    · subst h; exact not_lt.1 hs
    · exact hI k (by omega)
  have hswap : ∀ j e, I j e → j + 1 < n → (e (j + 1)).t < (e j).t → I (if 1 ≤ j then j - 1 else j + 1) (exchange e (j + 1) j) := by
    intro j e hI hj hs k hk
    have e1 : ∀ x, x ≠ j + 1 → x ≠ j → exchange e (j + 1) j x = e x := by
      intro x h1 h2; unfold exchange; rw [Equiv.swap_apply_of_ne_of_ne h1 h2]
    have e2 : exchange e (j + 1) j j = e (j + 1) := by unfold exchange; rw [Equiv.swap_apply_right]
    have e3 : exchange e (j + 1) j (j + 1) = e j := by unfold exchange; rw [Equiv.swap_apply_left]
    split_ifs at hk with h
    · rw [e1 k (by omega) (by omega), e1 (k + 1) (by omega) (by omega)]
      exact hI k (by omega)
    · have : k = j := by omega
      subst this
      rw [e2, e3]
      exact hs.le
  obtain ⟨e', j', h1, h2, h3, h4⟩ := inner_ends (n := n) (g := 1) (by omega) e0 I hkeep hswap fuel 0 e hr
    (fuel_enough hf e0 e 0) (by intro k hk; omega)
  refine ⟨e', ?_, h2, ?_⟩
  · rw [middle, h1]
    rfl
  · intro k l hkl hl
    induction l with
    | zero => omega
    | succ l ih =>
      have hl' := h3 l (by omega)
      by_cases h : k = l
      · subst h; exact hl'
      · exact (ih (by omega) (by omega)).trans hl'

/-! ## The gaps -/

/-- The gaps after this one end with 1. -/
inductive EndsWithOne : Nat → Prop
  | last (g : Nat) (h : g * 3 / 8 = 1) : EndsWithOne g
  | step (g : Nat) (h : EndsWithOne (g * 3 / 8)) : EndsWithOne g

theorem first_gap : EndsWithOne 250104703 := by
  iterate 18 refine .step _ ?_
  exact .last _ rfl

theorem one_pos {g : Nat} (h : EndsWithOne g) : 0 < g := by
  induction h with
  | last g h => omega
  | step g h ih => omega

theorem grow_good (n g : Nat) (h : EndsWithOne g) : EndsWithOne (grow n g) := by
  rw [grow]
  split_ifs with hl
  · apply grow_good n
    refine .step _ ?_
    rw [show (g * 8 / 3 + 1) * 3 / 8 = g by omega]
    exact h
  · exact h
termination_by n - g
decreasing_by omega

theorem gaps_end {n fuel : Nat} (hf : enough n ≤ fuel) (e0 : Nat → Event) (g : Nat) (h : EndsWithOne g) (e : Nat → Event) (hr : Rearranged n e0 e) :
    ∃ e', gaps fuel n g e = some e' ∧ Rearranged n e0 e' ∧ InOrder n e' := by
  induction h generalizing e with
  | last g h =>
    obtain ⟨e', h1, h2, h3⟩ := last_pass hf e0 e hr
    refine ⟨e', ?_, h2, h3⟩
    rw [gaps, h, if_neg (by omega), h1]
    show gaps fuel n 1 e' = some e'
    rw [gaps, if_pos (by norm_num)]
  | step g h ih =>
    have hp := one_pos h
    obtain ⟨e', h1, h2⟩ := middle_ends hp hf e0 (g * 3 / 8) 0 e hr
    obtain ⟨e'', h3, h4⟩ := ih e' h2
    refine ⟨e'', ?_, h4⟩
    rw [gaps, if_neg (by omega), h1]
    exact h3

/-- C112: for every number of events, `_sort_events` ends, and has put them in the order of time. -/
theorem C112_sort (n : Nat) (e : Nat → Event) :
    ∃ enough : Nat, ∀ fuel, enough ≤ fuel → ∃ e', sort fuel n e = some e' ∧ Rearranged n e e' ∧ InOrder n e' :=
  ⟨enough n, fun _ hf => gaps_end hf e _ (grow_good n _ first_gap) e (rearranged_refl n e)⟩

/-! ## Marking the events that cannot be seen -/

theorem bits_four (a b : Nat) : (b ^^^ a) &&& 7 = 4 ↔ a.testBit 0 = b.testBit 0 ∧ a.testBit 1 = b.testBit 1 ∧ a.testBit 2 ≠ b.testBit 2 := by
  have t : ∀ i, ((b ^^^ a) &&& 7).testBit i = ((b.testBit i ^^ a.testBit i) && (7 : Nat).testBit i) := fun i => by
    rw [Nat.testBit_and, Nat.testBit_xor]
  constructor
  · intro h
    have h0 := t 0
    have h1 := t 1
    have h2 := t 2
    rw [h, show (4 : Nat).testBit 0 = false from rfl, show (7 : Nat).testBit 0 = true from rfl] at h0
    rw [h, show (4 : Nat).testBit 1 = false from rfl, show (7 : Nat).testBit 1 = true from rfl] at h1
    rw [h, show (4 : Nat).testBit 2 = true from rfl, show (7 : Nat).testBit 2 = true from rfl] at h2
    revert h0 h1 h2
    cases a.testBit 0 <;> cases b.testBit 0 <;> cases a.testBit 1 <;> cases b.testBit 1 <;> cases a.testBit 2 <;> cases b.testBit 2 <;> simp
  · rintro ⟨h0, h1, h2⟩
    apply Nat.eq_of_testBit_eq
    intro i
    rw [t]
    match i with
    | 0 => rw [h0, show (4 : Nat).testBit 0 = false from rfl]; simp
    | 1 => rw [h1, show (4 : Nat).testBit 1 = false from rfl]; simp
    | 2 =>
      rw [show (4 : Nat).testBit 2 = true from rfl, show (7 : Nat).testBit 2 = true from rfl]
      revert h2
      cases a.testBit 2 <;> cases b.testBit 2 <;> simp
    | i + 3 =>
      have hp : 2 ^ 3 ≤ 2 ^ (i + 3) := Nat.pow_le_pow_right (by omega) (by omega)
      rw [Nat.testBit_lt_two_pow (x := 7) (by omega), Nat.testBit_lt_two_pow (x := 4) (by omega), Bool.and_false]

theorem bit_one (a : Nat) : a &&& 1 = 0 ↔ a.testBit 0 = false := by
  rw [Nat.and_one_is_mod, Nat.testBit_zero, decide_eq_false_iff_not]
  omega

theorem bit_four (a : Nat) : a &&& 4 ≠ 0 ↔ a.testBit 2 = true := by
  have t : ∀ i, (a &&& 4).testBit i = (a.testBit i && (4 : Nat).testBit i) := fun i => Nat.testBit_and a 4 i
  constructor
  · intro h
    by_contra hc
    apply h
    apply Nat.eq_of_testBit_eq
    intro i
    rw [t, Nat.zero_testBit, show (4 : Nat) = 2 ^ 2 from rfl, Nat.testBit_two_pow]
    by_cases hi : 2 = i
    · subst hi; rw [Bool.eq_false_iff.2 hc]; rfl
    · rw [decide_eq_false hi, Bool.and_false]
  · intro h hc
    have := t 2
    rw [hc, h, Nat.zero_testBit] at this
    exact absurd this (by decide)

theorem bit_or (a b : Nat) : (a ||| 8).testBit b = (a.testBit b || decide (b = 3)) := by
  rw [Nat.testBit_or, show (8 : Nat) = 2 ^ 3 from rfl, Nat.testBit_two_pow]
  congr 1
  exact decide_eq_decide.2 eq_comm

/-- The events are the same, but for the mark. -/
def Alike (a b : Event) : Prop := b.t = a.t ∧ b.sat = a.sat ∧ ∀ i, i ≠ 3 → b.type.testBit i = a.type.testBit i

theorem alike_refl (a : Event) : Alike a a := ⟨rfl, rfl, fun _ _ => rfl⟩

theorem alike_trans {a b c : Event} (h : Alike a b) (h' : Alike b c) : Alike a c :=
  ⟨h'.1.trans h.1, h'.2.1.trans h.2.1, fun i hi => (h'.2.2 i hi).trans (h.2.2 i hi)⟩

theorem alike_behind {a b : Event} (h : Alike a b) : Behind b ↔ Behind a := by
  unfold Behind
  rw [h.2.2 0 (by omega), h.2.2 2 (by omega)]

theorem alike_ends {a b c d : Event} (h : Alike a b) (h' : Alike c d) : Ends b d ↔ Ends a c := by
  unfold Ends
  rw [h.2.2 0 (by omega), h.2.2 1 (by omega), h.2.2 2 (by omega), h'.2.2 0 (by omega), h'.2.2 1 (by omega), h'.2.2 2 (by omega)]

/-- The mark. -/
def Marked (a : Event) : Prop := a.type.testBit 3 = true

theorem unseen_alike (e : Nat → Event) (j k : Nat) : Alike (e k) (unseen e j k) := by
  unfold unseen
  split_ifs with h
  · subst h
    refine ⟨rfl, rfl, fun i hi => ?_⟩
    show ((e k).type ||| 8).testBit i = _
    rw [bit_or, decide_eq_false hi, Bool.or_false]
  · exact alike_refl _

theorem unseen_marked (e : Nat → Event) (j k : Nat) : Marked (unseen e j k) ↔ Marked (e k) ∨ k = j := by
  unfold unseen Marked
  split_ifs with h
  · subst h
    show ((e k).type ||| 8).testBit 3 = true ↔ _
    rw [bit_or]
    simp
  · simp [h]

theorem hide_alike (a : Event) (m j : Nat) (e : Nat → Event) (k : Nat) : Alike (e k) (hide a.type m j e k) := by
  induction m generalizing j e with
  | zero => exact alike_refl _
  | succ m ih =>
    rw [hide]
    split_ifs with h
    · exact alike_trans (unseen_alike e j k) (ih (j + 1) (unseen e j))
    · exact alike_refl _

theorem hide_marked (a : Event) (m j : Nat) (e : Nat → Event) (k : Nat) :
    Marked (hide a.type m j e k) ↔ Marked (e k) ∨ (j ≤ k ∧ k < j + m ∧ ∀ l, j ≤ l → l ≤ k → ¬Ends a (e l)) := by
  induction m generalizing j e with
  | zero =>
    rw [hide]
    constructor
    · exact Or.inl
    · rintro (h | ⟨h1, h2, -⟩)
      · exact h
      · omega
  | succ m ih =>
    rw [hide]
    have hb : (((e j).type ^^^ a.type) &&& 7 ≠ 4) ↔ ¬Ends a (e j) := not_congr (bits_four a.type (e j).type)
    by_cases h : ((e j).type ^^^ a.type) &&& 7 ≠ 4
    · rw [if_pos h, ih, unseen_marked]
      have hk : ∀ l, Ends a (unseen e j l) ↔ Ends a (e l) := fun l => alike_ends (alike_refl a) (unseen_alike e j l)
      simp only [hk]
      constructor
      · rintro ((h1 | h1) | ⟨h1, h2, h3⟩)
        · exact .inl h1
        · subst h1
          refine .inr ⟨le_refl _, by omega, fun l h4 h5 => ?_⟩
          rw [show l = k by omega]
          exact hb.1 h
        · refine .inr ⟨by omega, by omega, fun l h4 h5 => ?_⟩
          by_cases hl : l = j
          · subst hl; exact hb.1 h
          · exact h3 l (by omega) h5
      · rintro (h1 | ⟨h1, h2, h3⟩)
        · exact .inl (.inl h1)
        · by_cases hkj : k = j
          · exact .inl (.inr hkj)
          · exact .inr ⟨by omega, by omega, fun l h4 h5 => h3 l (by omega) h5⟩
    · rw [if_neg h]
      constructor
      · exact Or.inl
      · rintro (h1 | ⟨h1, h2, h3⟩)
        · exact h1
        · exact absurd (hb.2 (h3 j le_rfl h1)) h

/-- The step of the loop over the starts. -/
theorem start_cond (a : Event) : (a.type &&& 1 = 0 ∧ a.type &&& 4 ≠ 0) ↔ Behind a := and_congr (bit_one _) (bit_four _)

theorem starts_alike (n m i : Nat) (e : Nat → Event) (k : Nat) : Alike (e k) (starts n m i e k) := by
  induction m generalizing i e with
  | zero => exact alike_refl _
  | succ m ih =>
    rw [starts]
    refine alike_trans ?_ (ih _ _)
    split_ifs
    · exact hide_alike _ _ _ _ _
    · exact alike_refl _

theorem starts_marked (n m i : Nat) (e : Nat → Event) (k : Nat) (hm : i + m ≤ n) :
    Marked (starts n m i e k) ↔
      Marked (e k) ∨ ∃ s, i ≤ s ∧ s < i + m ∧ s < k ∧ k < n ∧ Behind (e s) ∧ ∀ l, s < l → l ≤ k → ¬Ends (e s) (e l) := by
  induction m generalizing i e with
  | zero =>
    rw [starts]
    constructor
    · exact Or.inl
    · rintro (h | ⟨s, h1, h2, -⟩)
      · exact h
      · omega
  | succ m ih =>
    rw [starts, ih _ _ (by omega)]
    generalize hg : (if (e i).type &&& 1 = 0 ∧ (e i).type &&& 4 ≠ 0 then hide (e i).type (n - (i + 1)) (i + 1) e else e) = g
    have ha : ∀ l, Alike (e l) (g l) := by
      intro l
      rw [← hg]
      split_ifs
      · exact hide_alike _ _ _ _ _
      · exact alike_refl _
    have hm' : Marked (g k) ↔ Marked (e k) ∨ (Behind (e i) ∧ i < k ∧ k < n ∧ ∀ l, i < l → l ≤ k → ¬Ends (e i) (e l)) := by
      rw [← hg]
      by_cases hc : (e i).type &&& 1 = 0 ∧ (e i).type &&& 4 ≠ 0
      · rw [if_pos hc, hide_marked]
        have hb := (start_cond (e i)).1 hc
        constructor
        · rintro (h | ⟨h1, h2, h3⟩)
          · exact .inl h
          · exact .inr ⟨hb, h1, by omega, fun l h4 h5 => h3 l h4 h5⟩
        · rintro (h | ⟨-, h1, h2, h3⟩)
          · exact .inl h
          · exact .inr ⟨h1, by omega, fun l h4 h5 => h3 l h4 h5⟩
      · rw [if_neg hc]
        have hb := fun h => hc ((start_cond (e i)).2 h)
        exact ⟨Or.inl, fun h => h.resolve_right fun h => hb h.1⟩
    rw [hm']
    have hs : ∀ s, (Behind (g s) ∧ ∀ l, s < l → l ≤ k → ¬Ends (g s) (g l)) ↔ (Behind (e s) ∧ ∀ l, s < l → l ≤ k → ¬Ends (e s) (e l)) := by
      intro s
      refine and_congr (alike_behind (ha s)) ?_
      refine forall_congr' fun l => forall_congr' fun _ => forall_congr' fun _ => not_congr (alike_ends (ha s) (ha l))
    simp only [hs]
    constructor
    · rintro ((h | ⟨h1, h2, h3, h4⟩) | ⟨s, h1, h2, h3, h4, h5⟩)
      · exact .inl h
      · exact .inr ⟨i, le_refl _, by omega, h2, h3, h1, h4⟩
      · exact .inr ⟨s, by omega, by omega, h3, h4, h5⟩
    · rintro (h | ⟨s, h1, h2, h3, h4, h5⟩)
      · exact .inl (.inl h)
      · by_cases hsi : s = i
        · subst hsi
          exact .inl (.inr ⟨h5.1, h3, h4, h5.2⟩)
        · exact .inr ⟨s, by omega, by omega, h3, h4, h5⟩

/-- C112: `_mark_hidden_events` sorts the events, and marks exactly those of them at which a satellite is behind the planet or in its shadow, because of a start
among the events; it changes nothing else. -/
theorem C112_hidden (n : Nat) (e : Nat → Event) :
    ∃ enough : Nat, ∀ fuel, enough ≤ fuel → ∃ s e', Rearranged n e s ∧ InOrder n s ∧ mark fuel n e = some e' ∧
      ∀ k, (e' k).t = (s k).t ∧ (e' k).sat = (s k).sat ∧ (∀ i, i ≠ 3 → (e' k).type.testBit i = (s k).type.testBit i) ∧
        ((e' k).type.testBit 3 = true ↔ (s k).type.testBit 3 = true ∨ (k < n ∧ Hidden s k)) := by
  obtain ⟨N, h⟩ := C112_sort n e
  refine ⟨N, fun fuel hf => ?_⟩
  obtain ⟨s, h1, h2, h3⟩ := h fuel hf
  refine ⟨s, starts n (n - 1) 0 s, h2, h3, by rw [mark, h1]; rfl, fun k => ?_⟩
  obtain ⟨a1, a2, a3⟩ := starts_alike n (n - 1) 0 s k
  refine ⟨a1, a2, a3, ?_⟩
  have := starts_marked n (n - 1) 0 s k (by omega)
  unfold Marked at this
  rw [this]
  refine or_congr_right ?_
  constructor
  · rintro ⟨i, -, -, h4, h5, h6, h7⟩
    exact ⟨h5, i, h4, h6, h7⟩
  · rintro ⟨h5, i, h4, h6, h7⟩
    exact ⟨i, by omega, by omega, h4, h5, h6, h7⟩

/-- An eclipse of one satellite, with an occultation that begins within it and ends after it: the start of the occultation and the end of the eclipse
cannot be seen. -/
def someEvents : Nat → Event
  | 0 => ⟨2, 1, 4⟩
  | 1 => ⟨1, 1, 6⟩
  | 2 => ⟨4, 1, 0⟩
  | _ => ⟨3, 1, 2⟩

example : Hidden (fun k => someEvents (Equiv.swap 0 1 k)) 1 := by
  refine ⟨0, by omega, by constructor <;> decide, fun k h1 h2 => ?_⟩
  have : k = 1 := by omega
  subst this
  unfold Ends
  decide

end Verif.Props
