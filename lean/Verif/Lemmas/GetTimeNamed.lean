import Verif.Lemmas.GetTimePlain
import Mathlib.Data.List.Chain

/-! # Reading dates with the name of a month -/

namespace Verif.GetTime

open Verif Verif.Time Verif.Date Verif.Scan Verif.Spec Verif.Props

variable {K : Type} [Field K] [LinearOrder K] [IsStrictOrderedRing K] [FloorRing K]

/-- `x` is never followed by `y`. -/
def NoPair (x y : Nat) (s : List Nat) : Prop := s.IsChain (fun a b => ¬ (a = x ∧ b = y))

instance (x y : Nat) (s : List Nat) : Decidable (NoPair x y s) := by unfold NoPair; infer_instance

theorem noPair_of {x y : Nat} {s : List Nat} (h : x ∉ s) : NoPair x y s := by
  unfold NoPair
  induction s with
  | nil => simp
  | cons a s ih =>
    rw [List.isChain_cons]
    refine ⟨fun b _ hb => h (by simp [hb.1]), ih (fun h' => h (by simp [h']))⟩

theorem noPair_append {x y : Nat} {a b : List Nat} (ha : NoPair x y a) (hb : NoPair x y b) (h : x ∉ a ∨ b.head? ≠ some y) :
    NoPair x y (a ++ b) := by
  unfold NoPair at *
  rw [List.isChain_append]
  refine ⟨ha, hb, fun u hu v hv ⟨e1, e2⟩ => ?_⟩
  subst e1; subst e2
  rcases h with h | h
  · exact h (List.mem_of_getLast? hu)
  · exact h hv

theorem removeSub_pair {x y : Nat} {pre post s : List Nat} (h : NoPair x y s) : removeSub (pre ++ x :: y :: post) s = none := by
  induction s with
  | nil => rfl
  | cons c s ih =>
    have hp : ¬ (pre ++ x :: y :: post).isPrefixOf (c :: s) = true := by
      intro hp
      rw [List.isPrefixOf_iff_prefix] at hp
      have h1 : [x, y] <:+: c :: s := by
        obtain ⟨t, ht⟩ := hp
        exact ⟨pre, post ++ t, by rw [← ht]; simp⟩
      have := List.IsChain.infix h h1
      simp at this
    have hs : NoPair x y s := by
      unfold NoPair at *
      rw [List.isChain_cons] at h
      exact h.2
    rw [removeSub, if_neg hp, ih hs]
    rfl

/-- What is needed of a name. -/
structure NameText (w : List Nat) : Prop where
  letters : ∀ c ∈ w, 97 ≤ c ∧ c ≤ 122
  long : 3 ≤ w.length
  ad : NoPair 97 100 w
  bc : NoPair 98 99 w
  am : NoPair 97 109 w
  pm : NoPair 112 109 w
  y : at? w 0 ≠ 121
  j : at? w 0 = 106 → at? w 1 ≠ 100
  mjd : ¬ (at? w 0 = 109 ∧ at? w 1 = 106)
  gps : ¬ (at? w 0 = 103 ∧ at? w 1 = 112)
  unix : ¬ (at? w 0 = 117 ∧ at? w 1 = 110)
  now : ¬ (at? w 0 = 110 ∧ at? w 1 = 111 ∧ at? w 2 = 119)
  last : at? w (w.length - 1) ≠ 109 ∧ at? w (w.length - 1) ≠ 113

theorem at_append_lt {a b : List Nat} {i : Nat} (h : i < a.length) : at? (a ++ b) i = at? a i := by
  unfold at?
  rw [List.getD_eq_getElem?_getD, List.getD_eq_getElem?_getD, List.getElem?_append_left h]

theorem at_append_ge {a b : List Nat} {i : Nat} (h : a.length ≤ i) : at? (a ++ b) i = at? b (i - a.length) := by
  unfold at?
  rw [List.getD_eq_getElem?_getD, List.getD_eq_getElem?_getD, List.getElem?_append_right h]

theorem at_mem {s : List Nat} {i : Nat} (h : i < s.length) : at? s i ∈ s := by
  unfold at?
  rw [List.getD_eq_getElem?_getD, List.getElem?_eq_getElem h]
  simp

theorem not_prefix {p s : List Nat} (i : Nat) (hi : i < p.length) (h : at? p i ≠ at? s i) : p.isPrefixOf s = false := by
  rw [Bool.eq_false_iff]
  intro hp
  rw [List.isPrefixOf_iff_prefix] at hp
  obtain ⟨t, rfl⟩ := hp
  exact h (at_append_lt hi).symm

/-- A name with digits and punctuation around it. -/
structure Around (pre w post : List Nat) : Prop where
  name : NameText w
  plainPre : Plain pre
  plainPost : Plain post
  first : pre = [] ∨ 48 ≤ at? pre 0
  next : post = [] ∨ post.head? = some 32 ∨ post.head? = some 45 ∨ post.head? = some 47
  last : post ≠ [] → at? post (post.length - 1) ≠ 32

variable {pre w post : List Nat}

theorem Around.pair (h : Around pre w post) {x y : Nat} (hx : 58 < x) (hw : NoPair x y w) (hy : 58 < y ∨ y = 46) :
    NoPair x y (pre ++ w ++ post) := by
  refine noPair_append (noPair_append (noPair_of (h.plainPre.noLetter hx)) hw (Or.inl (h.plainPre.noLetter hx))) (noPair_of (h.plainPost.noLetter hx)) (Or.inr ?_)
  rcases h.next with rfl | hn | hn | hn
  · simp
  all_goals rw [hn]; simp only [ne_eq, Option.some.injEq]; omega

theorem Around.dotPair (h : Around pre w post) {x : Nat} (hx : 58 < x) : NoPair x 46 (pre ++ w ++ post) := by
  refine h.pair hx ?_ (Or.inr rfl)
  unfold NoPair
  have : ∀ s : List Nat, (∀ c ∈ s, 97 ≤ c ∧ c ≤ 122) → s.IsChain (fun a b => ¬ (a = x ∧ b = 46)) := by
    intro s
    induction s with
    | nil => simp
    | cons a s ih =>
      intro hs
      rw [List.isChain_cons]
      refine ⟨fun b hb e => ?_, ih fun c hc => hs c (by simp [hc])⟩
      have := hs b (by
        have := List.mem_of_mem_head? hb
        simp [this])
      omega
  exact this w h.name.letters

theorem Around.amPm (h : Around pre w post) : amPm (pre ++ w ++ post) = (0, pre ++ w ++ post) :=
  amPm_none (removeSub_pair (pre := [32]) (post := []) (h.pair (x := 97) (y := 109) (by omega) h.name.am (by omega)))
    (removeSub_pair (pre := [32]) (post := [109, 46]) (h.dotPair (x := 97) (by omega)))
    (removeSub_pair (pre := [32]) (post := []) (h.pair (x := 112) (y := 109) (by omega) h.name.pm (by omega)))
    (removeSub_pair (pre := [32]) (post := [109, 46]) (h.dotPair (x := 112) (by omega)))

theorem Around.quiet (h : Around pre w post) : Quiet (pre ++ w ++ post) := by
  have hw0 : w ≠ [] := by intro h'; have := h.name.long; rw [h'] at this; simp at this
  have hwl := h.name.long
  refine ⟨removeSub_pair (pre := []) (post := []) (h.pair (x := 97) (y := 100) (by omega) h.name.ad (by omega)),
    removeSub_pair (pre := []) (post := [100, 46]) (h.dotPair (x := 97) (by omega)),
    removeSub_pair (pre := []) (post := []) (h.pair (x := 98) (y := 99) (by omega) h.name.bc (by omega)),
    removeSub_pair (pre := []) (post := [99, 46]) (h.dotPair (x := 98) (by omega)), ?_, ?_, ?_, ?_⟩
  · by_cases hp : post = []
    · subst hp
      rw [List.append_nil, last_append hw0]
      have := h.name.letters _ (List.mem_of_getLast? (last_at w hw0))
      have := h.name.last
      omega
    · rw [last_append hp]
      have h1 := h.plainPost _ (List.mem_of_getLast? (last_at post hp))
      have := h.last hp
      omega
  · rw [List.append_assoc]
    rcases h.first with rfl | hf
    · rw [List.nil_append, at_append_left hw0]
      have := h.name.letters _ (at_mem (s := w) (i := 0) (by omega))
      omega
    · have hne : pre ≠ [] := by rintro rfl; simp [at?] at hf
      rw [at_append_left hne]
      omega
  · rw [List.append_assoc]
    rcases h.first with rfl | hf
    · rw [List.nil_append]
      have e0 : at? (w ++ post) 0 = at? w 0 := at_append_lt (by omega)
      have e1 : at? (w ++ post) 1 = at? w 1 := at_append_lt (by omega)
      have e2 : at? (w ++ post) 2 = at? w 2 := at_append_lt (by omega)
      have l1 := h.name.letters _ (at_mem (s := w) (i := 1) (by omega))
      constructor
      · rw [e0]; exact h.name.y
      · rw [e0, e1]; intro h'; exact ⟨h.name.j h', l1⟩
      · have := h.name.mjd
        by_cases h0 : at? w 0 = 109
        · exact not_prefix 1 (by decide) (by rw [e1]; intro h1; exact this ⟨h0, h1.symm⟩)
        · exact not_prefix 0 (by decide) (by rw [e0]; intro h1; exact h0 h1.symm)
      · have := h.name.gps
        by_cases h0 : at? w 0 = 103
        · exact not_prefix 1 (by decide) (by rw [e1]; intro h1; exact this ⟨h0, h1.symm⟩)
        · exact not_prefix 0 (by decide) (by rw [e0]; intro h1; exact h0 h1.symm)
      · have := h.name.unix
        by_cases h0 : at? w 0 = 117
        · exact not_prefix 1 (by decide) (by rw [e1]; intro h1; exact this ⟨h0, h1.symm⟩)
        · exact not_prefix 0 (by decide) (by rw [e0]; intro h1; exact h0 h1.symm)
      · have := h.name.now
        by_cases h0 : at? w 0 = 110
        · by_cases h1 : at? w 1 = 111
          · exact not_prefix 2 (by decide) (by rw [e2]; intro h2; exact this ⟨h0, h1, h2.symm⟩)
          · exact not_prefix 1 (by decide) (by rw [e1]; intro h2; exact h1 h2.symm)
        · exact not_prefix 0 (by decide) (by rw [e0]; intro h1; exact h0 h1.symm)
    · have hne : pre ≠ [] := by rintro rfl; simp [at?] at hf
      have e0 := at_append_left (b := w ++ post) hne
      have hm : at? pre 0 ∈ pre := at_mem (List.length_pos_of_ne_nil hne)
      have := h.plainPre _ hm
      exact ⟨by omega, by omega, not_prefix 0 (by decide) (by rw [e0]; simp [bytes, at?]; simp [at?] at this; omega),
        not_prefix 0 (by decide) (by rw [e0]; simp [bytes, at?]; simp [at?] at this; omega),
        not_prefix 0 (by decide) (by rw [e0]; simp [bytes, at?]; simp [at?] at this; omega),
        not_prefix 0 (by decide) (by rw [e0]; simp [bytes, at?]; simp [at?] at this; omega)⟩
  · by_cases hp : post = []
    · right
      subst hp
      rw [List.append_nil, at_append_ge (by simp; omega)]
      have h2 : (pre ++ w).length - 2 - pre.length = w.length - 2 := by simp; omega
      rw [h2]
      have := h.name.letters _ (at_mem (s := w) (i := w.length - 2) (by omega))
      omega
    · left
      unfold NoUnit
      rw [last_append hp]
      have h1 := h.plainPost _ (List.mem_of_getLast? (last_at post hp))
      intro hm
      have : ∀ c ∈ bytes "smhdwlyc", 58 < c := by decide
      have := this _ hm
      omega

/-- A name is no number: nothing to do about dots. -/
theorem dots_name (h : NameText w) (s : List Nat) : dots (w ++ s) = w ++ s := by
  have hl := h.long
  have h0 : at? (w ++ s) 0 = at? w 0 := at_append_lt (by omega)
  have hl0 := h.letters _ (at_mem (s := w) (i := 0) (by omega))
  have hs : scanInt (w ++ s) = none := by
    unfold scanInt
    rw [skipSpace_of (by rw [h0]; simp [isSpace]; omega), sign_of (by omega) (by omega)]
    have : digitCount (w ++ s) = 0 := digitCount_stop _ (by rw [h0]; simp [isDigit]; omega)
    simp only [this, if_true]
  unfold dots
  rw [hs]

end Verif.GetTime
