import Verif.Spec.Decimal
import Verif.Lemmas.Bytes
import Mathlib.Data.List.Induction

/-! # `%d` writes, and digit loops read, decimal numerals -/

namespace Verif.Spec

theorem head_append {s t : List Nat} (h : s ≠ []) : (s ++ t).head? = s.head? := by
  cases s with
  | nil => exact absurd rfl h
  | cons c s => rfl

theorem value_snoc (s : List Nat) (c : Nat) : value (s ++ [c]) = 10 * value s + (c - 48) := by
  simp [value, List.foldl_append]

theorem readDigits_eq (s : List Nat) (h : AllDigits s) : readDigits 0 s = value s := by
  suffices ∀ a, readDigits a s = s.foldl (fun a c => 10 * a + (c - 48)) a from this 0
  induction s with
  | nil => intro a; rfl
  | cons c s ih =>
    intro a
    have hc := h c (by simp)
    have hd : isDigit c = true := (isDigit_iff c).2 hc
    rw [readDigits, if_pos hd, List.foldl_cons, ih (fun x hx => h x (by simp [hx])), Nat.mul_comm]

theorem numeral_dec (n : Nat) : Numeral n (dec n) where
  nonempty := dec_ne_nil n
  digits := dec_digits n
  value := by rw [← readDigits_eq _ (dec_digits n), readDigits_dec]
  noLeadingZero := by
    suffices h : ∀ n, (dec n).head? = some 48 → n = 0 by
      intro h1; rw [h n h1]; rfl
    intro n
    induction n using Nat.strongRecOn with
    | _ n ih =>
      by_cases h : n < 10
      · rw [dec_small h]; simp
      · rw [dec_step (by omega), head_append (dec_ne_nil _)]
        intro h1
        have := ih (n / 10) (by omega) h1
        omega

theorem value_pos {s : List Nat} (hd : AllDigits s) (h0 : s ≠ []) (h : s.head? ≠ some 48) : 0 < value s := by
  induction s using List.reverseRecOn with
  | nil => exact absurd rfl h0
  | append_singleton s c ih =>
    rw [value_snoc]
    by_cases hs : s = []
    · subst hs
      have := hd c (by simp)
      simp at h
      omega
    · have := ih (fun x hx => hd x (by simp [hx])) hs
        (by rwa [head_append hs] at h)
      omega

theorem Numeral.eq_dec {n : Nat} {s : List Nat} (h : Numeral n s) : s = dec n := by
  induction s using List.reverseRecOn generalizing n with
  | nil => exact absurd rfl h.nonempty
  | append_singleton s c ih =>
    have hc := h.digits c (by simp)
    have hv := h.value
    rw [value_snoc] at hv
    by_cases hs : s = []
    · subst hs
      simp [Spec.value] at hv
      rw [dec_small (by omega)]; simp; omega
    · have hz : s.head? ≠ some 48 := by
        intro h1
        have := h.noLeadingZero (by rwa [head_append hs])
        have : s.length = 0 := by simpa using this
        exact hs (List.length_eq_zero_iff.1 this)
      have hd : AllDigits s := fun x hx => h.digits x (by simp [hx])
      have hp := value_pos hd hs hz
      have := ih (n := Spec.value s) ⟨hs, hd, rfl, fun h1 => absurd h1 hz⟩
      rw [dec_step (by omega), this]
      congr 1
      · congr 1; omega
      · simp; omega

theorem value_cons_lt {s : List Nat} (h : AllDigits s) : value s < 10 ^ s.length := by
  induction s using List.reverseRecOn with
  | nil => simp [value]
  | append_singleton s c ih =>
    have := ih (fun x hx => h x (by simp [hx]))
    have := h c (by simp)
    rw [value_snoc, List.length_append, List.length_singleton, Nat.pow_succ]
    omega

theorem padded_unique {w n : Nat} {s t : List Nat} (hs : Padded w n s) (ht : Padded w n t) : s = t := by
  induction s using List.reverseRecOn generalizing w n t with
  | nil =>
    have h1 : 0 = w := hs.width
    have := ht.width
    rw [← h1] at this
    exact (List.length_eq_zero_iff.1 this).symm
  | append_singleton s c ih =>
    have hw := hs.width
    simp only [List.length_append, List.length_singleton] at hw
    rcases List.eq_nil_or_concat t with rfl | ⟨t, d, rfl⟩
    · have := ht.width; simp at this; omega
    rw [List.concat_eq_append] at ht ⊢
    have hw2 := ht.width
    simp only [List.length_append, List.length_singleton] at hw2
    have hc := hs.digits c (by simp)
    have hd := ht.digits d (by simp)
    have v1 := hs.value
    have v2 := ht.value
    rw [value_snoc] at v1 v2
    have := ih (w := s.length) (n := value s) (t := t)
      ⟨fun x hx => hs.digits x (by simp [hx]), rfl, rfl⟩
      ⟨fun x hx => ht.digits x (by simp [hx]), by omega, by omega⟩
    rw [this] at v1 ⊢
    congr 2; omega

theorem value_zeros (k : Nat) (s : List Nat) : value (List.replicate k 48 ++ s) = value s := by
  induction k with
  | zero => rfl
  | succ k ih =>
    rw [List.replicate_succ, List.cons_append]
    simpa [value] using ih

theorem padded_pad {w n : Nat} (h : n < 10 ^ w) (hw : 0 < w) : Padded w n (pad w n) where
  digits := by
    intro c hc
    rcases List.mem_append.1 hc with h1 | h1
    · rw [List.eq_of_mem_replicate h1]; omega
    · exact dec_digits n c h1
  value := by rw [pad, value_zeros]; exact (numeral_dec n).value
  width := by
    obtain ⟨k, rfl⟩ : ∃ k, w = k + 1 := ⟨w - 1, by omega⟩
    have := dec_length_le h
    simp [pad]; omega

theorem Padded.eq_pad {w n : Nat} {s : List Nat} (h : Padded w n s) (hw : 0 < w) : s = pad w n := by
  apply padded_unique h
  apply padded_pad _ hw
  have := value_cons_lt h.digits
  rw [h.value, h.width] at this
  exact this

end Verif.Spec
