import Verif.Props.AddOffLine

/-!
# Lemmas for C97: the positions asked for and stored
-/

namespace Verif.Props

open Verif Verif.Spec Verif.AddOff

theorem findSub_iff (p s : List Nat) : (Multipart.findSub p s).isSome = true ↔ p <:+: s := by
  induction s with
  | nil =>
    unfold Multipart.findSub
    by_cases h : p = []
    · simp [h]
    · simp [h]
  | cons c s ih =>
    unfold Multipart.findSub
    rw [List.infix_cons_iff]
    by_cases h : p.isPrefixOf (c :: s) = true
    · rw [if_pos h]
      simp [List.isPrefixOf_iff_prefix.1 h]
    · rw [if_neg h, ih]
      have : ¬ p <+: c :: s := fun hp => h (List.isPrefixOf_iff_prefix.2 hp)
      simp [this]

theorem findSub_none (p s : List Nat) : Multipart.findSub p s = none ↔ ¬ p <:+: s := by
  rw [← findSub_iff]
  cases Multipart.findSub p s <;> simp

/-! ## The command -/

/-- Dates that fit in the fourteen bytes of a time. -/
def InTime (jd : ℚ) : Prop := launch < jd ∧ jd < 2500000

theorem timeText_length {jd : ℚ} (h : InTime jd) : (timeText jd).length ≤ 14 := by
  have hx : 0 ≤ jd - 4800001 / 2 := by have := h.1; unfold launch at this; linarith
  have near := (abs_le.1 (units_near 6 hx)).2
  have lt : units 6 (jd - 4800001 / 2) < 10 ^ 11 := by
    have : (units 6 (jd - 4800001 / 2) : ℚ) < ((10 ^ 11 : Nat) : ℚ) := by
      have := h.2
      push_cast
      linarith
    exact_mod_cast this
  have hq : units 6 (jd - 4800001 / 2) / 10 ^ 6 < 10 ^ (4 + 1) := by
    apply Nat.div_lt_of_lt_mul
    rw [← pow_add]
    exact lt
  have hl := dec_length_le hq
  have hm : units 6 (jd - 4800001 / 2) % 10 ^ 6 < 10 ^ 6 := Nat.mod_lt _ (by positivity)
  have hw := (padded_pad hm (by norm_num)).width
  unfold timeText
  rw [fixed_text (by norm_num) hx]
  simp only [List.length_cons, List.length_append, List.length_nil, hw]
  omega

theorem gather_ok {first : List Nat} (rs : List Rec) (hr : ∀ r ∈ rs, r.code = first → InTime r.jd) (i : Nat) (u : List Nat) (hu : u.length ≤ 7940) :
    ∃ u' n, gather first i rs u = .ok (u', n) ∧ u'.length ≤ 7955 ∧ u <+: u' ∧ i ≤ n ∧ n ≤ i + rs.length ∧
      (u.length ≤ 7900 → rs ≠ [] → i < n) ∧ ∀ j r, rs[j]? = some r → i + j < n → r.code = first → timeText r.jd <:+: u' := by
  induction rs generalizing i u with
  | nil => exact ⟨u, i, rfl, by omega, List.prefix_refl u, le_refl _, by simp, by simp, by simp⟩
  | cons r rs ih =>
    have ih := ih fun x hx => hr x (by simp [hx])
    unfold gather
    by_cases hc : r.code = first
    · have ht := hr r (by simp) hc
      have hl := timeText_length ht
      rw [if_pos hc, if_neg (by rw [not_not]; exact ⟨ht.1, by have := ht.2; linarith⟩), if_neg (by omega)]
      obtain ⟨v, hv, hpre, hinf, hvl⟩ : ∃ v, (if (Multipart.findSub (timeText r.jd) u).isSome = true then Outcome.ok u
          else (if i ≠ 0 then cat u [44] else .ok u).bind fun u => cat u (timeText r.jd)) = .ok v ∧ u <+: v ∧ timeText r.jd <:+: v ∧
          v.length ≤ u.length + 15 := by
        by_cases hf : (Multipart.findSub (timeText r.jd) u).isSome = true
        · rw [if_pos hf]
          exact ⟨u, rfl, List.prefix_refl u, (findSub_iff _ _).1 hf, by omega⟩
        · rw [if_neg hf]
          by_cases hi : i ≠ 0
          · refine ⟨u ++ [44] ++ timeText r.jd, ?_, ?_, ?_, ?_⟩
            · rw [if_pos hi]
              unfold cat
              rw [if_neg (by simp; omega), Outcome.bind]
              rw [if_neg (by simp; omega)]
            · rw [List.append_assoc]
              exact List.prefix_append _ _
            · exact (List.suffix_append _ _).isInfix
            · simp
              omega
          · refine ⟨u ++ timeText r.jd, ?_, List.prefix_append _ _, (List.suffix_append _ _).isInfix, by simp; omega⟩
            rw [if_neg hi, Outcome.bind]
            unfold cat
            rw [if_neg (by omega)]
      rw [hv, Outcome.bind]
      by_cases hb : v.length + 60 > 8000
      · rw [if_pos hb]
        refine ⟨v, i, rfl, by omega, hpre, le_refl _, by simp, fun h => by omega, fun j r' h1 h2 => by omega⟩
      · rw [if_neg hb]
        obtain ⟨u', n, e, l, p, h1, h2, h3, h4⟩ := ih (i + 1) v (by omega)
        refine ⟨u', n, e, l, hpre.trans p, by omega, by simp; omega, fun _ _ => by omega, ?_⟩
        intro j r' hj hn hcode
        rcases j with _ | j
        · simp at hj
          subst hj
          exact hinf.trans p.isInfix
        · exact h4 j r' (by simpa using hj) (by omega) hcode
    · rw [if_neg hc]
      obtain ⟨u', n, e, l, p, h1, h2, h3, h4⟩ := ih (i + 1) u hu
      refine ⟨u', n, e, l, p, by omega, by simp; omega, fun _ _ => by omega, ?_⟩
      intro j r' hj hn hcode
      rcases j with _ | j
      · simp at hj
        subst hj
        exact absurd hcode hc
      · exact h4 j r' (by simpa using hj) (by omega) hcode

theorem gather_prefix {first : List Nat} (rs : List Rec) (i : Nat) (u : List Nat) {u' : List Nat} {n : Nat} (h : gather first i rs u = .ok (u', n)) :
    u <+: u' := by
  induction rs generalizing i u with
  | nil =>
    simp [gather] at h
    rw [h.1]
  | cons r rs ih =>
    unfold gather at h
    by_cases hc : r.code = first
    · rw [if_pos hc] at h
      by_cases h1 : ¬ (launch < r.jd ∧ r.jd < 2700000)
      · rw [if_pos h1] at h; simp at h
      rw [if_neg h1] at h
      by_cases h2 : (timeText r.jd).length ≥ 15
      · rw [if_pos h2] at h; simp at h
      rw [if_neg h2] at h
      obtain ⟨v, hv, hpre⟩ : ∃ v, (if (Multipart.findSub (timeText r.jd) u).isSome = true then Outcome.ok u
          else (if i ≠ 0 then cat u [44] else .ok u).bind fun u => cat u (timeText r.jd)) = .ok v ∧ u <+: v := by
        by_cases hf : (Multipart.findSub (timeText r.jd) u).isSome = true
        · rw [if_pos hf]
          exact ⟨u, rfl, List.prefix_refl u⟩
        · rw [if_neg hf] at h ⊢
          by_cases hi : i ≠ 0
          · rw [if_pos hi] at h ⊢
            unfold cat at h ⊢
            by_cases l1 : u.length + [44].length ≥ 8000
            · rw [if_pos l1] at h; simp [Outcome.bind] at h
            · rw [if_neg l1] at h ⊢
              rw [Outcome.bind] at h ⊢
              by_cases l2 : (u ++ [44]).length + (timeText r.jd).length ≥ 8000
              · rw [if_pos l2] at h; simp [Outcome.bind] at h
              · rw [if_neg l2]
                exact ⟨_, rfl, by rw [List.append_assoc]; exact List.prefix_append _ _⟩
          · rw [if_neg hi] at h ⊢
            rw [Outcome.bind] at h ⊢
            unfold cat at h ⊢
            by_cases l2 : u.length + (timeText r.jd).length ≥ 8000
            · rw [if_pos l2] at h; simp [Outcome.bind] at h
            · rw [if_neg l2]
              exact ⟨_, rfl, List.prefix_append _ _⟩
      rw [hv, Outcome.bind] at h
      by_cases hb : v.length + 60 > 8000
      · rw [if_pos hb] at h
        simp at h
        rw [← h.1]
        exact hpre
      · rw [if_neg hb] at h
        exact hpre.trans (ih _ _ h)
    · rw [if_neg hc] at h
      exact ih _ _ h

/-! ## The answer -/

/-- A record after all entries of an answer. -/
def storedIn (first : List Nat) (es : List Entry) (r : Rec) : Rec := es.foldl (fun r e => store first e r) r

theorem storeAll_eq {first : List Nat} {n : Nat} {es : List Entry} (rs : List Rec) (h : ∀ e ∈ es, launch < e.jd ∧ e.jd < 2451545 + 36525) :
    storeAll first n es rs = .ok ((rs.take n).map (storedIn first es) ++ rs.drop n) := by
  induction es generalizing rs with
  | nil =>
    have : storedIn first [] = id := rfl
    rw [this, List.map_id, List.take_append_drop]
    rfl
  | cons e es ih =>
    unfold storeAll
    rw [if_neg (not_not.2 (h e (by simp))), ih _ fun x hx => h x (by simp [hx])]
    congr 1
    by_cases hn : n ≤ rs.length
    · have hl : ((rs.take n).map (store first e)).length = n := by simp [hn]
      rw [List.take_left' hl, List.drop_left' hl, List.map_map]
      rfl
    · have h1 : rs.take n = rs := List.take_of_length_le (by omega)
      have h2 : rs.drop n = [] := List.drop_of_length_le (by omega)
      rw [h1, h2, List.append_nil, List.append_nil, List.take_of_length_le (by simp; omega), List.drop_of_length_le (by simp; omega), List.append_nil,
        List.map_map]
      rfl

theorem storeAll_range {first : List Nat} {n : Nat} {es : List Entry} {rs rs' : List Rec} (h : storeAll first n es rs = .ok rs') :
    ∀ e ∈ es, launch < e.jd ∧ e.jd < 2451545 + 36525 := by
  induction es generalizing rs with
  | nil => simp
  | cons e es ih =>
    unfold storeAll at h
    by_cases hc : ¬ (launch < e.jd ∧ e.jd < 2451545 + 36525)
    · rw [if_pos hc] at h
      simp at h
    · rw [if_neg hc] at h
      intro x hx
      rcases List.mem_cons.1 hx with rfl | hx
      · exact not_not.1 hc
      · exact ih h x hx

theorem parts (l : List Rec) (n : Nat) : l.take 1 ++ (l.take n).drop 1 ++ l.drop (max n 1) = l := by
  rcases n with _ | n
  · cases l <;> simp
  · have : l.take 1 = (l.take (n + 1)).take 1 := by rw [List.take_take]; congr 1
    rw [this, List.take_append_drop, show max (n + 1) 1 = n + 1 by omega, List.take_append_drop]

/-- Where the position of a record comes from. -/
inductive Source (verbose : Bool) (ask : Nat → List Nat → Option (List Entry)) (r0 : Rec) : Rec → Prop
  /-- From the answer to a question about this spacecraft, for a time that differs by less than the tolerance. -/
  | given {k : Nat} {u : List Nat} {e : Entry} {c : List Nat} : e ∈ (ask k u).getD [] → horizonsIdx r0.code ≠ 0 →
      cmdStart verbose (horizonsIdx r0.code) <+: u → |r0.jd - e.jd| < tolerance → (c = r0.code ∨ c = []) →
      Source verbose ask r0 { r0 with xyz := e.pos, vel := e.vel, code := c }
  /-- The code is not in the table: the mark that stands for this. -/
  | unknown : horizonsIdx r0.code = 0 → Source verbose ask r0 { r0 with xyz := ⟨-1 / 10, 0, 0⟩ }
  /-- There is none. -/
  | blank {c : List Nat} : (c = r0.code ∨ c = []) → Source verbose ask r0 { r0 with code := c }

theorem idx_nil {c : List Nat} (h : horizonsIdx c ≠ 0) : c ≠ [] := by
  rintro rfl
  exact h (by decide +kernel)

theorem store_source {verbose : Bool} {ask : Nat → List Nat → Option (List Entry)} {r0 r : Rec} {first u : List Nat} {k : Nat} {e : Entry}
    (h : Source verbose ask r0 r) (hf : horizonsIdx first ≠ 0) (hu : cmdStart verbose (horizonsIdx first) <+: u) (he : e ∈ (ask k u).getD []) :
    Source verbose ask r0 (store first e r) := by
  unfold store
  split_ifs with hc
  swap
  · exact h
  obtain ⟨h1, h2, h3⟩ := hc
  have hn := idx_nil hf
  cases h with
  | @given k' u' e' c a1 a2 a3 a4 a5 =>
    rcases a5 with rfl | rfl
    · simp only at h1 h2
      subst h1
      exact .given he hf hu h2 (Or.inl rfl)
    · exact absurd h1.symm hn
  | unknown a =>
    simp only at h1
    subst h1
    exact absurd a hf
  | @blank c a =>
    rcases a with rfl | rfl
    · simp only at h1 h2
      subst h1
      exact .given he hf hu h2 (Or.inl rfl)
    · exact absurd h1.symm hn

theorem stored_source {verbose : Bool} {ask : Nat → List Nat → Option (List Entry)} {r0 : Rec} {first u : List Nat} {k : Nat} {es : List Entry}
    (hf : horizonsIdx first ≠ 0) (hu : cmdStart verbose (horizonsIdx first) <+: u) (he : ∀ e ∈ es, e ∈ (ask k u).getD []) {r : Rec}
    (h : Source verbose ask r0 r) : Source verbose ask r0 (storedIn first es r) := by
  induction es generalizing r with
  | nil => exact h
  | cons e es ih => exact ih (fun x hx => he x (by simp [hx])) (store_source h hf hu (he e (by simp)))

theorem giveUp_source {verbose : Bool} {ask : Nat → List Nat → Option (List Entry)} {r0 r : Rec} {first : List Nat}
    (h : Source verbose ask r0 r) : Source verbose ask r0 (giveUp first r) := by
  unfold giveUp
  split_ifs with hc
  swap
  · exact h
  cases h with
  | given a1 a2 a3 a4 a5 => exact .given a1 a2 a3 a4 (Or.inr rfl)
  | unknown a =>
    exfalso
    have := hc.2
    norm_num at this
  | blank a => exact .blank (Or.inr rfl)

theorem mark_source {verbose : Bool} {ask : Nat → List Nat → Option (List Entry)} {r0 r : Rec} {first : List Nat} (h0 : r0.xyz = .zero)
    (h : Source verbose ask r0 r) (hf : horizonsIdx first = 0) (hn : first ≠ []) :
    Source verbose ask r0 (if r.code = first then { r with xyz := { r.xyz with x := -1 / 10 } } else r) := by
  split_ifs with hc
  swap
  · exact h
  cases h with
  | given a1 a2 a3 a4 a5 =>
    rcases a5 with rfl | rfl
    · simp only at hc
      subst hc
      exact absurd hf a2
    · exact absurd hc.symm hn
  | unknown a => exact .unknown a
  | blank a =>
    rcases a with rfl | rfl
    · simp only at hc
      subst hc
      have := Source.unknown (verbose := verbose) (ask := ask) hf
      rw [h0]
      exact this
    · exact absurd hc.symm hn

theorem forall₂_mem {α β : Type} {R : α → β → Prop} {l : List α} {m : List β} (h : List.Forall₂ R l m) :
    List.Forall₂ (fun a b => R a b ∧ b ∈ m) l m := by
  induction h with
  | nil => exact .nil
  | @cons a b l m hab _ ih => exact .cons ⟨hab, by simp⟩ (ih.imp fun x y hxy => ⟨hxy.1, by simp [hxy.2]⟩)

theorem forall₂_memL {α β : Type} {R : α → β → Prop} {l : List α} {m : List β} (h : List.Forall₂ R l m) :
    List.Forall₂ (fun a b => R a b ∧ a ∈ l) l m := by
  induction h with
  | nil => exact .nil
  | @cons a b l m hab _ ih => exact .cons ⟨hab, by simp⟩ (ih.imp fun x y hxy => ⟨hxy.1, by simp [hxy.2]⟩)

/-- Every call keeps track of where positions come from. -/
theorem setOffsets_source {verbose : Bool} {ask : Nat → List Nat → Option (List Entry)} {k : Nat} {r0s rs rs' : List Rec}
    (h0 : ∀ r ∈ r0s, r.xyz = .zero) (h : List.Forall₂ (Source verbose ask) r0s rs) (hn : ∀ r, rs.head? = some r → r.code ≠ [])
    (hne : rs ≠ []) (he : setOffsets verbose (ask k) rs = .ok rs') : List.Forall₂ (Source verbose ask) r0s rs' := by
  obtain ⟨r, t, rfl⟩ := List.exists_cons_of_ne_nil hne
  have hn := hn r rfl
  unfold setOffsets at he
  rw [List.head?_cons, Option.map_some, Option.getD_some] at he
  unfold offsetsFor at he
  by_cases hf : horizonsIdx r.code = 0
  · rw [if_pos hf] at he
    simp only [Outcome.ok.injEq] at he
    subst he
    rw [List.forall₂_map_right_iff]
    exact (forall₂_memL h).imp fun a b hab => mark_source (h0 a hab.2) hab.1 hf hn
  · rw [if_neg hf] at he
    cases hg : gather r.code 0 (r :: t) (cmdStart verbose (horizonsIdx r.code)) with
    | abort => rw [hg] at he; simp [Outcome.bind] at he
    | ub => rw [hg] at he; simp [Outcome.bind] at he
    | ok p =>
      obtain ⟨u, n⟩ := p
      have hp := gather_prefix _ _ _ hg
      rw [hg, Outcome.bind] at he
      simp only at he
      unfold cat at he
      by_cases hl : u.length + cmdEnd.length ≥ 8000
      · rw [if_pos hl] at he; simp [Outcome.bind] at he
      rw [if_neg hl, Outcome.bind] at he
      have hp' : cmdStart verbose (horizonsIdx r.code) <+: u ++ cmdEnd := hp.trans (List.prefix_append _ _)
      cases hs : storeAll r.code n ((ask k (u ++ cmdEnd)).getD []) (r :: t) with
      | abort => rw [hs] at he; simp [Outcome.bind] at he
      | ub => rw [hs] at he; simp [Outcome.bind] at he
      | ok rs1 =>
        rw [hs, Outcome.bind] at he
        simp only [Outcome.ok.injEq] at he
        have hr := storeAll_range hs
        rw [storeAll_eq _ hr] at hs
        simp only [Outcome.ok.injEq] at hs
        have s1 : List.Forall₂ (Source verbose ask) r0s rs1 := by
          rw [← hs]
          conv_lhs => rw [← List.take_append_drop n r0s]
          refine List.rel_append ?_ (List.forall₂_drop n h)
          rw [List.forall₂_map_right_iff]
          exact (List.forall₂_take n h).imp fun a b hab => stored_source hf hp' (fun e h => h) hab
        rw [← he]
        conv_lhs => rw [← parts r0s n]
        refine List.rel_append (List.rel_append (List.forall₂_take 1 s1) ?_) (List.forall₂_drop _ s1)
        rw [List.forall₂_map_right_iff]
        exact (List.forall₂_drop 1 (List.forall₂_take n s1)).imp fun a b hab => giveUp_source hab

theorem fill_source {verbose : Bool} {ask : Nat → List Nat → Option (List Entry)} {r0s rs rs' : List Rec} {fuel k : Nat}
    (h0 : ∀ r ∈ r0s, r.xyz = .zero) (h : List.Forall₂ (Source verbose ask) r0s rs) (he : fill verbose ask fuel k rs = .ok rs') :
    List.Forall₂ (Source verbose ask) r0s rs' := by
  induction fuel generalizing k r0s rs rs' with
  | zero =>
    simp [fill] at he
    subst he
    exact h
  | succ fuel ih =>
    cases rs with
    | nil =>
      simp [fill] at he
      subst he
      exact h
    | cons r t =>
      unfold fill at he
      cases hs : (if r.xyz.x = 0 ∧ r.code ≠ [] then setOffsets verbose (ask k) (r :: t) else .ok (r :: t)) with
      | abort => rw [hs] at he; simp [Outcome.bind] at he
      | ub => rw [hs] at he; simp [Outcome.bind] at he
      | ok l =>
        have hl : List.Forall₂ (Source verbose ask) r0s l := by
          split_ifs at hs with hc
          · exact setOffsets_source h0 h (by intro x hx; simp at hx; rw [← hx]; exact hc.2) (by simp) hs
          · simp only [Outcome.ok.injEq] at hs
            rw [← hs]
            exact h
        rw [hs, Outcome.bind] at he
        cases hr : fill verbose ask fuel (k + 1) (l.drop 1) with
        | abort => rw [hr] at he; simp [Outcome.bind] at he
        | ub => rw [hr] at he; simp [Outcome.bind] at he
        | ok t' =>
          rw [hr, Outcome.bind] at he
          simp only [Outcome.ok.injEq] at he
          rw [← he]
          conv_lhs => rw [← List.take_append_drop 1 r0s]
          exact List.rel_append (List.forall₂_take 1 hl) (ih (fun r hr => h0 r (List.mem_of_mem_drop hr)) (List.forall₂_drop 1 hl) hr)

end Verif.Props
