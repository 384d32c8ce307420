import Verif.Model.Replace
import Verif.Props.CString

/-!
# Property theorems: search and replace (C50)
-/

namespace Verif.Props

open Verif Verif.Spec Verif.CString

/-- `r` is `s` with `k` occurrences of `old` replaced by `new`: each is the first one left, searching on after
    it, and at the end none is left. -/
inductive Replaced (old new : List Nat) : List Nat → List Nat → Nat → Prop
  | last (s : List Nat) (h : ∀ i, ¬ old <+: s.drop i) : Replaced old new s s 0
  | hit (p s r : List Nat) (k : Nat) (h : ∀ i < p.length, ¬ old <+: (p ++ old ++ s).drop i)
      (rest : Replaced old new s r k) : Replaced old new (p ++ old ++ s) (p ++ new ++ r) (k + 1)

theorem Replaced.cons {old new s r : List Nat} {k c : Nat} (h : Replaced old new s r k) (hc : ¬ old <+: c :: s) :
    Replaced old new (c :: s) (c :: r) k := by
  cases h with
  | last _ h =>
    refine .last _ fun i => ?_
    cases i with
    | zero => exact hc
    | succ i => exact h i
  | hit p s r k h rest =>
    refine .hit (c :: p) s r k (fun i hi => ?_) rest
    cases i with
    | zero => exact hc
    | succ i => exact h i (by simp at hi; omega)

theorem Replaced.length {old new s r : List Nat} {k : Nat} (h : Replaced old new s r k) :
    r.length + k * old.length = s.length + k * new.length := by
  induction h with
  | last => simp
  | hit p s r k h rest ih => simp only [List.length_append, Nat.succ_mul]; omega

/-- The result and the count are determined. -/
theorem Replaced.unique {old new s r r' : List Nat} {k k' : Nat} (h : Replaced old new s r k) (h' : Replaced old new s r' k') :
    r = r' ∧ k = k' := by
  induction h generalizing r' k' with
  | last s h =>
    generalize hs : s = s0 at h'
    cases h' with
    | last => subst hs; exact ⟨rfl, rfl⟩
    | hit p s1 r1 k1 h1 rest =>
      subst hs
      exact absurd ⟨s1, by simp⟩ (h p.length)
  | hit p s r k h rest ih =>
    generalize hs : p ++ old ++ s = s0 at h'
    cases h' with
    | last _ h' =>
      subst hs
      exact absurd ⟨s, by simp⟩ (h' p.length)
    | hit p1 s1 r1 k1 h1 rest1 =>
      have hl : p.length = p1.length := by
        rcases Nat.lt_trichotomy p.length p1.length with hh | hh | hh
        · refine absurd ⟨s, ?_⟩ (h1 _ hh); rw [← hs]; simp
        · exact hh
        · refine absurd ⟨s1, ?_⟩ (h _ hh); rw [hs]; simp
      rw [List.append_assoc, List.append_assoc] at hs
      obtain ⟨e1, e2⟩ := List.append_inj hs hl
      obtain ⟨-, e3⟩ := List.append_inj e2 rfl
      subst e1; subst e3
      obtain ⟨i1, i2⟩ := ih rest1
      subst i1; subst i2
      exact ⟨rfl, rfl⟩

theorem sameAt_iff {m : Mem} {p : Nat} {s old : List Nat} (h : Holds m p s) (hl : old.length ≤ s.length) :
    sameAt m p old = true ↔ old <+: s := by
  unfold sameAt
  rw [List.all_eq_true, List.prefix_iff_eq_take]
  constructor
  · intro ha
    apply List.ext_getElem
    · simp; omega
    · intro i h1 h2
      have := ha i (List.mem_range.2 h1)
      rw [beq_iff_eq, h.1 i (by omega)] at this
      simp [at?, h1, show i < s.length by omega] at this
      simp [this]
  · intro he i hi
    rw [List.mem_range] at hi
    rw [beq_iff_eq, h.1 i (by omega), at?, he]
    simp [List.getD_eq_getElem?_getD, hi]

theorem replaceLoop_spec (old new : List Nat) (ho : old ≠ []) (n : Nat) (s : List Nat) (hn : s.length = n) (m : Mem) (p rv fuel : Nat)
    (h : Holds m p s) (hf : n ≤ fuel) :
    ∃ m' r k, replaceLoop old new fuel m p s.length rv = some (m', rv + k) ∧ Replaced old new s r k ∧
      Holds m' p r ∧ Only m m' p (max s.length r.length + 1) := by
  have hol : 0 < old.length := List.length_pos_iff.2 ho
  induction n using Nat.strongRecOn generalizing s m p rv fuel with
  | ind n ih =>
    by_cases hlt : s.length < old.length
    · refine ⟨m, s, 0, ?_, .last _ fun i hp => ?_, h, fun _ _ => rfl⟩
      · cases fuel <;> simp only [replaceLoop] <;> rw [if_neg (by omega)] <;> rfl
      · have := hp.length_le
        simp only [List.length_drop] at this
        omega
    · obtain ⟨fuel, rfl⟩ : ∃ f, fuel = f + 1 := ⟨fuel - 1, by omega⟩
      simp only [replaceLoop]
      rw [if_pos (by omega)]
      by_cases hs : sameAt m p old = true
      · rw [if_pos hs]
        obtain ⟨s', rfl⟩ := (sameAt_iff h (by omega)).1 hs
        simp only [List.length_append] at *
        rw [Nat.add_sub_cancel_left]
        generalize hm1 : memcpy (memmove m (p + new.length) (p + old.length) (s'.length + 1)) p new = m1
        have h1 : Holds m1 (p + new.length) s' := by
          subst hm1
          constructor
          · intro i hi
            have := h.1 (old.length + i) (by simp; omega)
            simp only [memcpy, memmove]
            rw [if_neg (by omega), if_pos (by omega), show p + old.length + (p + new.length + i - (p + new.length)) = p + (old.length + i) by omega, this]
            simp [List.getD_eq_getElem?_getD, List.getElem?_append_right (show old.length ≤ old.length + i by omega)]
          · have := h.2
            simp only [List.length_append] at this
            simp only [memcpy, memmove]
            rw [if_neg (by omega), if_pos (by omega), show p + old.length + (p + new.length + s'.length - (p + new.length)) = p + (old.length + s'.length) by omega, this]
        obtain ⟨m', r, k, e, hr, hh, hon⟩ := ih s'.length (by omega) s' rfl m1 (p + new.length) (rv + 1) fuel h1 (by omega)
        refine ⟨m', new ++ r, k + 1, by rw [e]; congr 2; omega, .hit [] s' r k (by simp) hr, ⟨?_, ?_⟩, ?_⟩
        · intro i hi
          simp only [List.length_append] at hi
          by_cases hi' : i < new.length
          · rw [hon _ (by omega), ← hm1]
            simp only [memcpy]
            rw [if_pos (by omega), Nat.add_sub_cancel_left]
            simp [at?, List.getD_eq_getElem?_getD, List.getElem?_append_left hi']
          · have := hh.1 (i - new.length) (by omega)
            rw [show p + new.length + (i - new.length) = p + i by omega] at this
            rw [this]
            simp [List.getD_eq_getElem?_getD, List.getElem?_append_right (show new.length ≤ i by omega)]
        · have := hh.2
          rw [List.length_append, ← Nat.add_assoc, this]
        · have hlen := hr.length
          intro a ha
          simp only [List.length_append] at ha
          have hmax : new.length + s'.length ≤ max (old.length + s'.length) (new.length + r.length) := by
            rcases Nat.le_total new.length old.length with hc | hc
            · have := Nat.le_max_left (old.length + s'.length) (new.length + r.length); omega
            · have := Nat.mul_le_mul_left k hc
              have := Nat.le_max_right (old.length + s'.length) (new.length + r.length); omega
          have hmax2 := Nat.le_max_right (old.length + s'.length) (new.length + r.length)
          have hmax3 : new.length + max s'.length r.length ≤ max (old.length + s'.length) (new.length + r.length) := by
            rcases Nat.le_total s'.length r.length with hc | hc
            · rw [Nat.max_eq_right hc]; exact hmax2
            · rw [Nat.max_eq_left hc]; exact hmax
          rw [hon a (by omega), ← hm1]
          simp only [memcpy, memmove]
          rw [if_neg (by omega), if_neg (by omega)]
      · rw [if_neg hs]
        have hnp : ¬ old <+: s := fun hp => hs ((sameAt_iff h (by omega)).2 hp)
        cases s with
        | nil => simp at hlt; exact absurd hlt ho
        | cons c s' =>
          simp only [List.length_cons, Nat.add_sub_cancel] at *
          have h1 : Holds m (p + 1) s' := by
            constructor
            · intro i hi
              have := h.1 (i + 1) (by simp; omega)
              rw [show p + 1 + i = p + (i + 1) by omega, this]
              simp
            · have := h.2
              rw [List.length_cons] at this
              rw [show p + 1 + s'.length = p + (s'.length + 1) by omega, this]
          obtain ⟨m', r, k, e, hr, hh, hon⟩ := ih s'.length (by omega) s' rfl m (p + 1) rv fuel h1 (by omega)
          refine ⟨m', c :: r, k, e, hr.cons hnp, ⟨?_, ?_⟩, ?_⟩
          · intro i hi
            cases i with
            | zero =>
              rw [hon _ (by omega)]
              exact h.1 0 (by simp)
            | succ i =>
              have := hh.1 i (by simp at hi; omega)
              rw [show p + (i + 1) = p + 1 + i by omega, this]
              simp
          · have := hh.2
            rw [List.length_cons, show p + (r.length + 1) = p + 1 + r.length by omega, this]
          · intro a ha
            have : max (s'.length + 1) (r.length + 1) = max s'.length r.length + 1 := by omega
            simp only [List.length_cons] at ha
            exact hon a (by omega)

/-- **C50.** For every text and every non-empty pattern: all occurrences are replaced, from the left and without
    overlap; the rest is kept; the count is returned; the number of rounds is at most the length of the text; and
    no byte is touched past the end of the longer of the two texts. -/
theorem C50_replace (old new s : List Nat) (ho : old ≠ []) (hs : NoNul s) (m : Mem) (p fuel : Nat) (h : Holds m p s)
    (hf : s.length ≤ fuel) :
    ∃ m' r k, searchAndReplace fuel m p old new = some (m', k) ∧ Replaced old new s r k ∧
      Holds m' p r ∧ Only m m' p (max s.length r.length + 1) := by
  unfold searchAndReplace
  rw [findEnd_eq m fuel p s hs h, Nat.min_eq_right hf, Nat.add_sub_cancel_left]
  obtain ⟨m', r, k, e, h1, h2, h3⟩ := replaceLoop_spec old new ho s.length s rfl m p 0 fuel h hf
  exact ⟨m', r, k, by rw [e, Nat.zero_add], h1, h2, h3⟩

/-- **C50.** What is meant by the replaced text leaves no choice. -/
theorem C50_determined (old new s r r' : List Nat) (k k' : Nat) (h : Replaced old new s r k) (h' : Replaced old new s r' k') :
    r = r' ∧ k = k' := h.unique h'

/-- **C50.** The length of the result, from which a caller can tell how big the buffer must be. -/
theorem C50_length (old new s r : List Nat) (k : Nat) (h : Replaced old new s r k) :
    r.length + k * old.length = s.length + k * new.length := h.length

/-- **C50.** Finding: with an empty pattern the loop never ends (and, unless the replacement is empty, runs
    through memory). -/
theorem C50_empty_pattern (fuel : Nat) (m : Mem) (p : Nat) (new : List Nat) : searchAndReplace fuel m p [] new = none := by
  unfold searchAndReplace
  generalize findEnd m fuel p - p = ilen
  generalize 0 = rv
  induction fuel generalizing m p ilen rv with
  | zero => rfl
  | succ fuel ih =>
    simp only [replaceLoop]
    rw [if_pos (by simp), if_pos (show sameAt m p [] = true from rfl)]
    exact ih _ _ _ _

/-- Instance: "aaab" with "aa" replaced by "x". -/
example : Replaced [97, 97] [120] [97, 97, 97, 98] [120, 97, 98] 1 := by
  refine .hit [] [97, 98] [97, 98] 0 (by simp) (.last _ fun i => ?_)
  have : i = 0 ∨ i = 1 ∨ 2 ≤ i := by omega
  rcases this with rfl | rfl | hi
  · decide
  · decide
  · rw [List.drop_eq_nil_of_le (by simpa using hi)]; decide

end Verif.Props
