import Verif.Props.ShowElemText

/-!
# Property theorems: distances in listings of orbital elements (C99)
-/

namespace Verif.Props

open Verif Verif.Spec Verif.ShowElem

theorem blanks_first {a : Nat} {ds rest : List Nat} (hd : AllDigits ds) (hn : ds ≠ []) :
    (List.replicate a 32 ++ (ds ++ 46 :: rest)).takeWhile (· == 32) = List.replicate a 32 := by
  induction a with
  | zero =>
    cases ds with
    | nil => exact absurd rfl hn
    | cons c ds =>
      have := hd c (by simp)
      simp only [List.replicate_zero, List.nil_append, List.cons_append, List.takeWhile_cons]
      rw [if_neg (by simp; omega)]
  | succ a ih =>
    rw [List.replicate_succ, List.cons_append, List.takeWhile_cons, if_pos (by rfl), ih]

theorem up_to_point {ds rest : List Nat} (hd : AllDigits ds) : (ds ++ 46 :: rest).takeWhile (· != 46) = ds := by
  induction ds with
  | nil => simp
  | cons c ds ih =>
    have := hd c (by simp)
    rw [List.cons_append, List.takeWhile_cons, if_pos (by simp; omega), ih fun x hx => hd x (by simp [hx])]

/-- What is left of a number when it is cut. -/
theorem cut_text {room p a : Nat} {ds fs : List Nat} (hd : AllDigits ds) (hn : ds ≠ []) (hr : a + p + ds.length + 5 < room) :
    cutText room p (List.replicate a 32 ++ (ds ++ 46 :: fs)) =
      .ok (List.replicate a 32 ++ ds ++ (if p + 4 - ds.length = 0 then [] else 46 :: fs.take (p + 4 - ds.length))) := by
  have h1 := blanks_first (a := a) (rest := fs) hd hn
  unfold cutText
  simp only [h1, List.length_replicate]
  have h2 : (List.replicate a 32 ++ (ds ++ 46 :: fs)).drop a = ds ++ 46 :: fs := List.drop_left' List.length_replicate
  rw [h2, up_to_point hd]
  by_cases h : ds.length < p + 4
  · have e : a + ds.length + 1 + (p + 4 - ds.length) = (List.replicate a 32).length + (ds.length + (p + 4 - ds.length + 1)) := by
      rw [List.length_replicate]
      omega
    rw [if_pos h, if_neg (by omega), if_neg (by omega), e, List.take_length_add_append, List.take_length_add_append, List.take_succ_cons,
      List.append_assoc]
  · have e : a + ds.length + 1 - 1 = (List.replicate a 32).length + (ds.length + 0) := by
      rw [List.length_replicate]
      omega
    rw [if_neg h, if_pos (by omega), e, List.take_length_add_append, List.take_length_add_append, List.take_zero, List.append_assoc]

/-- A number cut to `p + 4` digits. -/
theorem cut_number {room p P m : Nat} {x : ℝ} (hP : 15 ≤ P) (hm : 23 = m + 1 + 1 + P) (hx : 0 ≤ x) (hu : x ≤ 10 ^ (m + 1) - 1) (hp : p ≤ 15) (hr : 32 ≤ room) :
    ∃ a k ds fs, (fmtW 23 P x).length = 23 ∧
      cutText room p (fmtW 23 P x) = .ok (List.replicate a 32 ++ ds ++ (if k = 0 then [] else 46 :: fs)) ∧ AllDigits ds ∧ ds ≠ [] ∧ AllDigits fs ∧ fs.length = k ∧
      |x - ((value ds * 10 ^ k + value fs : Nat) : ℝ) / 10 ^ k| < 1 / 10 ^ k ∧ (p + 4 ≤ ds.length + k ∨ 15 ≤ k) ∧ (ds.length + k ≤ p + 4 ∨ k = 0) ∧
      a + ds.length = m + 1 ∧ k = min P (p + 4 - ds.length) := by
  obtain ⟨a, ds, fs, e, w, d1, n1, d2, l2, v⟩ := fmtW_parts (by omega) hm hx hu
  have near := realUnits_near P x
  rw [abs_of_nonneg hx, ← v] at near
  have hpos := List.length_pos_iff.2 n1
  have hw : a + ds.length + 1 + P = 23 := by
    have := w
    rw [e] at this
    simp only [List.length_append, List.length_cons, List.length_replicate, l2] at this
    omega
  obtain ⟨f1, f2, f3⟩ := fewer (P := P) (k := min P (p + 4 - ds.length)) (Nat.min_le_left _ _) d2 l2 near
  have ht : fs.take (min P (p + 4 - ds.length)) = fs.take (p + 4 - ds.length) := by
    rw [← l2]
    by_cases h : fs.length ≤ p + 4 - ds.length
    · rw [Nat.min_eq_left h, List.take_length, List.take_of_length_le h]
    · rw [Nat.min_eq_right (by omega)]
  refine ⟨a, min P (p + 4 - ds.length), ds, fs.take (min P (p + 4 - ds.length)), w, ?_, d1, n1, f1, f2, f3, by omega, by omega, by omega, rfl⟩
  rw [e, cut_text d1 n1 (by omega), ht]
  by_cases h : p + 4 - ds.length = 0
  · rw [if_pos h, if_pos (by omega)]
  · rw [if_neg h, if_neg (by omega)]

/-- C99: a distance that is not negative. -/
theorem C99_distance {room p : Nat} {x : ℝ} (hx : 0 ≤ x) (hp : p ≤ 15) (hr : 40 ≤ room) :
    ∃ s, ShowElem.dist room p x = .ok s ∧ DistanceText p x s ∧ s.length ≤ 29 := by
  unfold ShowElem.dist distPos
  rw [if_neg (not_lt.2 hx)]
  by_cases huge : x > 999999
  · have hl : (bytes " <HUGE>").length = 7 := by decide +kernel
    refine ⟨bytes " <HUGE>", ?_, Or.inl ⟨huge, rfl⟩, by omega⟩
    simp only
    rw [if_pos huge, if_pos (by omega)]
  have hkm : ∀ y, y ≤ 999999 / auKm ↔ y ≤ 999999 / kilometres := fun y => Iff.rfl
  have pos : (0 : ℝ) < auKm := by unfold auKm; norm_num
  have small : 999999 / auKm < 1 := by unfold auKm; norm_num
  have fin : ∀ {P m : Nat} {y : ℝ} {km : Bool}, 15 ≤ P → 23 = m + 1 + 1 + P → 0 ≤ y → y ≤ 10 ^ (m + 1) - 1 → distText x = (fmtW 23 P y, km) →
      (km = true ↔ x ≤ 999999 / kilometres) → y = (if km then x * kilometres else x) →
      ∃ s, (if x > 999999 then
            if (bytes " <HUGE>").length < room then Outcome.ok (bytes " <HUGE>") else if room < room then Outcome.ub else Outcome.abort
          else
            (if (distText x).1.length < room then Outcome.ok (distText x).1 else if room < room then Outcome.ub else Outcome.abort).bind fun t =>
              (cutText room p t).bind fun t =>
                if (distText x).2 = true then
                  if (t ++ bytes "km").length < room then Outcome.ok (t ++ bytes "km") else if room < room then Outcome.ub else Outcome.abort
                else Outcome.ok t) = .ok s ∧ DistanceText p x s ∧ s.length ≤ 29 := by
    intro P m y km hP hm hy hu hd hk hyx
    obtain ⟨a, k, ds, fs, w, run, d1, n1, d2, l2, near, c1, c2, c3, c4⟩ := cut_number (room := room) hP hm hy hu hp (by omega)
    have hb : (bytes "km").length = 2 := by decide +kernel
    have len : (List.replicate a 32 ++ ds ++ (if k = 0 then [] else 46 :: fs)).length ≤ 27 := by
      by_cases h : k = 0
      · simp only [List.length_append, List.length_replicate, if_pos h, List.length_nil]
        omega
      · simp only [List.length_append, List.length_replicate, if_neg h, List.length_cons, l2]
        omega
    refine ⟨List.replicate a 32 ++ ds ++ (if k = 0 then [] else 46 :: fs) ++ (if km then bytes "km" else []), ?_, Or.inr ⟨a, k, ds, fs, km, rfl, hk, d1, n1, d2, l2, ?_, c1, c2⟩, ?_⟩
    · rw [if_neg huge, hd]
      simp only
      rw [if_pos (by rw [w]; omega)]
      simp only [Outcome.bind]
      rw [run]
      simp only
      cases km
      · simp
      · rw [if_pos rfl, if_pos rfl, if_pos (by rw [List.length_append]; omega)]
    · rw [← hyx]
      exact near
    · rw [List.length_append]
      cases km
      · simp only [Bool.false_eq_true, if_false, List.length_nil]
        omega
      · rw [if_pos rfl]
        omega
  push Not at huge
  by_cases h1 : x > 9999
  · refine fin (P := 15) (m := 6) (y := x) (km := false) (by norm_num) (by norm_num) hx (by norm_num; linarith) ?_ ?_ (by simp)
    · unfold distText
      rw [if_pos h1]
    · rw [← hkm]
      simp only [Bool.false_eq_true, false_iff, not_le]
      linarith
  by_cases h2 : x > 999999 / auKm
  · refine fin (P := 18) (m := 3) (y := x) (km := false) (by norm_num) (by norm_num) hx (by norm_num; linarith) ?_ ?_ (by simp)
    · unfold distText
      rw [if_neg h1, if_pos h2]
    · rw [← hkm]
      simpa using h2
  · push Not at h2
    refine fin (P := 16) (m := 5) (y := x * auKm) (km := true) (by norm_num) (by norm_num) (by positivity) ?_ ?_ ?_ ?_
    · have := mul_le_mul_of_nonneg_right h2 pos.le
      rw [div_mul_cancel₀ _ pos.ne'] at this
      norm_num
      linarith
    · unfold distText
      rw [if_neg h1, if_neg (not_lt.2 h2)]
    · simpa using (hkm x).1 h2
    · rw [if_pos rfl]
      rfl

/-- Where the room is enough, the size that is given doesn't matter. -/
theorem enough_size {size room p : Nat} {x : ℝ} {s : List Nat} (h : distPos room room p x = .ok s) : distPos size room p x = .ok s := by
  have key : ∀ {t : List Nat} {f : List Nat → Outcome (List Nat)} {s}, (if t.length < room then Outcome.ok t else if room < room then .ub else .abort).bind f = .ok s →
      t.length < room ∧ f t = .ok s := by
    intro t f s h
    by_cases c : t.length < room
    · rw [if_pos c] at h; exact ⟨c, h⟩
    · rw [if_neg c, if_neg (lt_irrefl _)] at h; cases h
  unfold distPos at h ⊢
  dsimp only at h ⊢
  by_cases c : x > 999999
  · rw [if_pos c] at h ⊢
    by_cases d : (bytes " <HUGE>").length < room
    · rw [if_pos d] at h ⊢; exact h
    · rw [if_neg d, if_neg (lt_irrefl _)] at h; cases h
  · rw [if_neg c] at h ⊢
    obtain ⟨c1, h⟩ := key h
    rw [if_pos c1]
    change (cutText room p (distText x).1).bind _ = _
    cases e : cutText room p (distText x).1 with
    | abort => rw [e] at h; cases h
    | ub => rw [e] at h; cases h
    | ok t =>
      rw [e] at h
      change (if (distText x).2 = true then _ else _) = _ at h ⊢
      split_ifs at h ⊢ with c2 c3 c4
      · exact h
      · exact h

/-- C99: a negative distance is a minus sign and the text of the other. -/
theorem C99_negative {room p : Nat} {x : ℝ} (hx : x < 0) (hp : p ≤ 15) (hr : 41 ≤ room) :
    ∃ s, ShowElem.dist room p x = .ok (45 :: s) ∧ DistanceText p (-x) s ∧ s.length ≤ 29 := by
  obtain ⟨s, run, ht, hl⟩ := C99_distance (room := room - 1) (x := -x) (by linarith) hp (by omega)
  refine ⟨s, ?_, ht, hl⟩
  have h0 : ShowElem.dist (room - 1) p (-x) = distPos (room - 1) (room - 1) p (-x) := by
    unfold ShowElem.dist; rw [if_neg (by linarith)]
  unfold ShowElem.dist
  rw [if_pos hx, if_neg (by omega), enough_size (h0 ▸ run)]
  rfl

example : ∃ s, ShowElem.dist 80 6 (-1 : ℝ) = .ok (45 :: s) ∧ DistanceText 6 (-(-1)) s ∧ s.length ≤ 29 := C99_negative (by norm_num) (by decide) (by decide)

/-- C99: the same without blanks. -/
theorem bare_distance {p : Nat} {x : ℝ} (hx : 0 ≤ x) (hp : p ≤ 15) : ∃ s, bareDist p x = .ok s ∧ BareDistance p x s ∧ s.length ≤ 29 := by
  obtain ⟨s, run, ht, hl⟩ := C99_distance (room := 40) hx hp (le_refl _)
  have hs : s = List.replicate (s.takeWhile (· == 32)).length 32 ++ s.dropWhile (· == 32) := by
    conv_lhs => rw [← List.takeWhile_append_dropWhile (p := (· == 32)) (l := s)]
    congr 1
    rw [List.eq_replicate_iff]
    refine ⟨rfl, fun b hb => ?_⟩
    have := List.all_takeWhile (p := (· == 32)) (l := s)
    rw [List.all_eq_true] at this
    simpa using this b hb
  refine ⟨s.dropWhile (· == 32), ?_, ⟨_, by rw [← hs]; exact ht, ?_⟩, ?_⟩
  · unfold bareDist
    rw [run]
    rfl
  · have := List.head?_dropWhile_not (· == 32) s
    intro h
    rw [h] at this
    simp at this
  · have := congrArg List.length hs
    rw [List.length_append] at this
    omega

end Verif.Props
