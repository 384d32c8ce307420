import Mathlib.Tactic.Ring
import Mathlib.Tactic.Linarith
import Verif.Lemmas.Digits
import Verif.Spec.Stamp

/-!
# Dictionary order of written numbers
-/

namespace Verif.Spec

open Verif

theorem append_lt_append {a a' b b' : List Nat} (h : a.length = a'.length) :
    a ++ b < a' ++ b' ↔ a < a' ∨ (a = a' ∧ b < b') := by
  induction a generalizing a' with
  | nil =>
    cases a' with
    | nil => simp
    | cons => simp at h
  | cons x a ih =>
    cases a' with
    | nil => simp at h
    | cons y a' =>
      have := ih (a' := a') (by simpa using h)
      simp only [List.cons_append, List.cons_lt_cons_iff, List.cons.injEq, this]
      constructor
      · rintro (h | ⟨h, h' | h'⟩)
        · exact Or.inl (Or.inl h)
        · exact Or.inl (Or.inr ⟨h, h'⟩)
        · exact Or.inr ⟨⟨h, h'.1⟩, h'.2⟩
      · rintro ((h | h) | h)
        · exact Or.inl h
        · exact Or.inr ⟨h.1, Or.inl h.2⟩
        · exact Or.inr ⟨h.1.1, Or.inr ⟨h.1.2, h.2⟩⟩

theorem digits_lt {s s' : List Nat} (h : AllDigits s) (h' : AllDigits s') (hl : s.length = s'.length) :
    s < s' ↔ value s < value s' := by
  induction s generalizing s' with
  | nil =>
    cases s' with
    | nil => simp
    | cons => simp at hl
  | cons x s ih =>
    cases s' with
    | nil => simp at hl
    | cons y s' =>
      have hs : AllDigits s := fun c hc => h c (by simp [hc])
      have hs' : AllDigits s' := fun c hc => h' c (by simp [hc])
      have hl' : s.length = s'.length := by simpa using hl
      have hx := h x (by simp)
      have hy := h' y (by simp)
      have v := value_cons_lt hs
      have v' := value_cons_lt hs'
      rw [List.cons_lt_cons_iff, ih hs hs' hl', value_cons, value_cons, ← hl']
      rw [← hl'] at v'
      generalize 10 ^ s.length = B at *
      constructor
      · rintro (hxy | ⟨rfl, hv⟩)
        · have : (x - 48) + 1 ≤ y - 48 := by omega
          nlinarith
        · omega
      · intro hlt
        rcases Nat.lt_trichotomy x y with hxy | hxy | hxy
        · exact Or.inl hxy
        · subst hxy; exact Or.inr ⟨rfl, by omega⟩
        · exfalso
          have : (y - 48) + 1 ≤ x - 48 := by omega
          nlinarith

theorem padded_lt {w n n' : Nat} {s s' : List Nat} (h : Padded w n s) (h' : Padded w n' s') : s < s' ↔ n < n' := by
  rw [digits_lt h.digits h'.digits (by rw [h.width, h'.width]), h.value, h'.value]

theorem padded_eq {w n n' : Nat} {s s' : List Nat} (h : Padded w n s) (h' : Padded w n' s') : s = s' ↔ n = n' := by
  constructor
  · rintro rfl; rw [← h.value, ← h'.value]
  · rintro rfl; exact padded_unique h h'

theorem twoBytes_length {z : Bool} {n : Nat} {s : List Nat} (h : TwoBytes z n s) : s.length = 2 := by
  unfold TwoBytes at h
  split at h
  · exact h.width
  · rw [h]; rfl

theorem twoBytes_lt {z : Bool} {n n' : Nat} {s s' : List Nat} (h : TwoBytes z n s) (h' : TwoBytes z n' s') :
    (s < s' ↔ n < n') ∧ (s = s' ↔ n = n') := by
  unfold TwoBytes at h h'
  have first : ∀ n s, Padded 2 n s → 10 ≤ n → ∃ a b, s = [a, b] ∧ 49 ≤ a := by
    intro n s hp hn
    match s, hp with
    | [a, b], hp =>
      refine ⟨a, b, rfl, ?_⟩
      have h1 := hp.digits a (by simp)
      have h2 := hp.digits b (by simp)
      have h3 := hp.value
      simp [value] at h3
      omega
    | [], hp => have := hp.width; simp at this
    | [a], hp => have := hp.width; simp at this
    | a :: b :: c :: t, hp => have := hp.width; simp at this
  by_cases c : z = true ∨ 10 ≤ n <;> by_cases c' : z = true ∨ 10 ≤ n'
  · rw [if_pos c] at h; rw [if_pos c'] at h'
    exact ⟨padded_lt h h', padded_eq h h'⟩
  · rw [if_pos c] at h; rw [if_neg c'] at h'
    have hz : ¬ z = true := fun hz => c' (Or.inl hz)
    have hn : 10 ≤ n := c.resolve_left hz
    have hn' : ¬ 10 ≤ n' := fun hn => c' (Or.inr hn)
    obtain ⟨a, b, rfl, ha⟩ := first n s h hn
    subst h'
    simp only [List.cons_lt_cons_iff, List.cons.injEq]
    omega
  · rw [if_neg c] at h; rw [if_pos c'] at h'
    have hz : ¬ z = true := fun hz => c (Or.inl hz)
    have hn : 10 ≤ n' := c'.resolve_left hz
    have hn' : ¬ 10 ≤ n := fun hn => c (Or.inr hn)
    obtain ⟨a, b, rfl, ha⟩ := first n' s' h' hn
    subst h
    simp only [List.cons_lt_cons_iff, List.cons.injEq]
    omega
  · rw [if_neg c] at h; rw [if_neg c'] at h'
    subst h h'
    simp [List.cons_lt_cons_iff]

theorem decimals_length {p v : Nat} {s : List Nat} (h : Decimals p v s) : s.length ≤ p + 1 ∧ v < 10 ^ p := by
  rcases h with ⟨rfl, rfl, rfl⟩ | ⟨hp, ds, hd, rfl⟩
  · simp
  · refine ⟨by simp [hd.width], ?_⟩
    have := value_cons_lt hd.digits
    rwa [hd.value, hd.width] at this

theorem decimals_lt {p v v' : Nat} {s s' : List Nat} (h : Decimals p v s) (h' : Decimals p v' s') : s < s' ↔ v < v' := by
  rcases h with ⟨rfl, rfl, rfl⟩ | ⟨hp, ds, hd, rfl⟩
  · rcases h' with ⟨_, rfl, rfl⟩ | ⟨hp', _⟩
    · simp
    · omega
  · rcases h' with ⟨rfl, _⟩ | ⟨hp', ds', hd', rfl⟩
    · omega
    · simp only [List.cons_lt_cons_iff, lt_irrefl, true_and, false_or]
      exact padded_lt hd hd'

/-- Two numbers in mixed radix. -/
theorem radix_lt {a a' b b' B : Nat} (h : b < B) (h' : b' < B) : a * B + b < a' * B + b' ↔ a < a' ∨ (a = a' ∧ b < b') := by
  constructor
  · intro hlt
    rcases Nat.lt_trichotomy a a' with hx | hx | hx
    · exact Or.inl hx
    · subst hx; exact Or.inr ⟨rfl, by omega⟩
    · exfalso; nlinarith
  · rintro (hx | ⟨rfl, hx⟩)
    · nlinarith
    · omega

theorem cons_lt_same {c : Nat} {s s' : List Nat} : c :: s < c :: s' ↔ s < s' := by
  simp

/-- Times of day are in dictionary order. -/
theorem timeOfDay_lt {z : Bool} {c : Clock} {p n n' : Nat} {s s' : List Nat} (h : TimeOfDay z c p n s)
    (h' : TimeOfDay z c p n' s') : s < s' ↔ n < n' := by
  obtain ⟨v, f, hf, h⟩ := h
  obtain ⟨v', f', hf', h'⟩ := h'
  have hv := (decimals_length hf).2
  have hv' := (decimals_length hf').2
  have hfl := decimals_lt hf hf'
  cases c with
  | seconds =>
    obtain ⟨H, M, S, hh, mm, ss, h1, h2, h3, h4, h5, h6, rfl, rfl⟩ := h
    obtain ⟨H', M', S', hh', mm', ss', h1', h2', h3', h4', h5', h6', rfl, rfl⟩ := h'
    obtain ⟨a1, a2⟩ := twoBytes_lt h1 h1'
    rw [radix_lt hv hv', radix_lt h6 h6', radix_lt h5 h5']
    simp only [List.append_assoc, List.cons_append]
    rw [append_lt_append (by rw [twoBytes_length h1, twoBytes_length h1']), a1, a2, cons_lt_same,
      append_lt_append (by rw [h2.width, h2'.width]), padded_lt h2 h2', padded_eq h2 h2', cons_lt_same,
      append_lt_append (by rw [h3.width, h3'.width]), padded_lt h3 h3', padded_eq h3 h3', hfl]
    omega
  | minutes =>
    obtain ⟨H, M, hh, mm, h1, h2, h4, h5, rfl, rfl⟩ := h
    obtain ⟨H', M', hh', mm', h1', h2', h4', h5', rfl, rfl⟩ := h'
    obtain ⟨a1, a2⟩ := twoBytes_lt h1 h1'
    rw [radix_lt hv hv', radix_lt h5 h5']
    simp only [List.append_assoc, List.cons_append]
    rw [append_lt_append (by rw [twoBytes_length h1, twoBytes_length h1']), a1, a2, cons_lt_same,
      append_lt_append (by rw [h2.width, h2'.width]), padded_lt h2 h2', padded_eq h2 h2', hfl]
    omega
  | hours =>
    obtain ⟨H, hh, h1, h4, rfl, rfl⟩ := h
    obtain ⟨H', hh', h1', h4', rfl, rfl⟩ := h'
    obtain ⟨a1, a2⟩ := twoBytes_lt h1 h1'
    rw [radix_lt hv hv', append_lt_append (by rw [twoBytes_length h1, twoBytes_length h1']), a1, a2, hfl]

theorem timeOfDay_bound {z : Bool} {c : Clock} {p n : Nat} {s : List Nat} (h : TimeOfDay z c p n s) :
    n < c.perDay * 10 ^ p := by
  obtain ⟨v, f, hf, h⟩ := h
  have hv := (decimals_length hf).2
  cases c with
  | seconds =>
    obtain ⟨H, M, S, hh, mm, ss, h1, h2, h3, h4, h5, h6, rfl, rfl⟩ := h
    have : (H * 60 + M) * 60 + S + 1 ≤ 86400 := by omega
    simp only [Clock.perDay]; nlinarith
  | minutes =>
    obtain ⟨H, M, hh, mm, h1, h2, h4, h5, rfl, rfl⟩ := h
    have : H * 60 + M + 1 ≤ 1440 := by omega
    simp only [Clock.perDay]; nlinarith
  | hours =>
    obtain ⟨H, hh, h1, h4, rfl, rfl⟩ := h
    simp only [Clock.perDay]; nlinarith

end Verif.Spec
