import Verif.Props.ShowElemDist

/-!
# Property theorems: the lines of listings of orbital elements (C99)
-/

namespace Verif.Props

open Verif Verif.Spec Verif.ShowElem

theorem take_min {α : Type} (l : List α) (n k : Nat) (h : l.length = n) : l.take (min n k) = l.take k := by
  by_cases hk : n ≤ k
  · rw [Nat.min_eq_left hk, ← h, List.take_length, List.take_of_length_le (by omega)]
  · rw [Nat.min_eq_right (by omega)]

/-- Digits taken off a number in its columns. -/
theorem lop_shown {w P m c p i : Nat} {h rest : List Nat} {x : ℝ} (hP : 1 ≤ P) (hw : w = m + 1 + 1 + P) (hx : 0 ≤ x) (hu : x ≤ 10 ^ (m + 1) - 1) (hc : c ≤ P)
    (hi : i = h.length + (m + 2) + c) (hr : ∀ x, rest.head? = some x → isDigit x = false) :
    ∃ s, lopAt i p (h ++ (fmtW w P x ++ rest)) = h ++ (s ++ rest) ∧ Shows w (min P (c + p)) x s := by
  obtain ⟨a, ds, fs, e, wl, d1, n1, d2, l2, v⟩ := fmtW_parts hP hw hx hu
  have near := realUnits_near P x
  rw [abs_of_nonneg hx, ← v] at near
  obtain ⟨f1, f2, f3⟩ := fewer (P := P) (k := min P (c + p)) (Nat.min_le_left _ _) d2 l2 near
  rw [e] at wl
  simp only [List.length_append, List.length_cons, List.length_replicate, l2] at wl
  have e2 : h ++ (fmtW w P x ++ rest) = (h ++ (List.replicate a 32 ++ (ds ++ [46]))) ++ (fs ++ rest) := by
    rw [e]
    simp only [List.append_assoc, List.cons_append, List.nil_append]
  refine ⟨List.replicate a 32 ++ (ds ++ 46 :: fs.take (c + p)) ++ List.replicate (fs.length - (c + p)) 32, ?_, ?_⟩
  · rw [e2, lop_at (c := c) (by simp only [List.length_append, List.length_replicate, List.length_cons, List.length_nil]; omega) (by omega) d2 hr]
    simp only [List.append_assoc, List.cons_append, List.nil_append]
  · refine ⟨a, _, _, _, rfl, ?_, ⟨ds, fs.take (c + p), rfl, d1, n1, ?_, ?_, rfl⟩, ?_⟩
    · simp only [List.length_append, List.length_cons, List.length_replicate, List.length_take, l2]
      omega
    · rwa [take_min _ _ _ l2] at f1
    · rwa [take_min _ _ _ l2] at f2
    · rwa [take_min _ _ _ l2] at f3

/-- The same for a number with its sign. -/
theorem lop_signed {n c p i : Nat} {h rest : List Nat} {x : ℝ} (hn : 1 ≤ n) (hx : |x| ≤ 9) (hc : c ≤ n) (hi : i = h.length + 3 + c)
    (hr : ∀ x, rest.head? = some x → isDigit x = false) :
    ∃ s, lopAt i p (h ++ (fmtPlus (n + 3) n x ++ rest)) = h ++ (s ++ rest) ∧ ShowsSigned (n + 3) (min n (c + p)) x s := by
  obtain ⟨ds, fs, e, l1, d1, n1, d2, l2, v⟩ := signed_parts hn hx
  have near := realUnits_near n x
  rw [← v] at near
  obtain ⟨f1, f2, f3⟩ := fewer (P := n) (k := min n (c + p)) (Nat.min_le_left _ _) d2 l2 near
  have e2 : h ++ (fmtPlus (n + 3) n x ++ rest) = (h ++ ((if x < 0 then 45 else 43) :: (ds ++ [46]))) ++ (fs ++ rest) := by
    rw [e]
    simp only [List.append_assoc, List.cons_append, List.nil_append]
  refine ⟨(if x < 0 then 45 else 43) :: (ds ++ 46 :: fs.take (c + p)) ++ List.replicate (fs.length - (c + p)) 32, ?_, ?_⟩
  · rw [e2, lop_at (c := c) (by simp only [List.length_append, List.length_cons, List.length_nil]; omega) (by omega) d2 hr]
    simp only [List.append_assoc, List.cons_append, List.nil_append]
  · refine ⟨_, _, _, rfl, ?_, ⟨ds, fs.take (c + p), rfl, d1, n1, ?_, ?_, rfl⟩, ?_⟩
    · simp only [List.length_append, List.length_cons, List.length_replicate, List.length_take, l1, l2]
      omega
    · rwa [take_min _ _ _ l2] at f1
    · rwa [take_min _ _ _ l2] at f2
    · rwa [take_min _ _ _ l2] at f3

theorem shown_length {w k : Nat} {x : ℝ} {s : List Nat} (h : Shows w k x s) : s.length = w := by
  obtain ⟨_, _, _, _, _, h, _⟩ := h
  exact h

theorem signed_length {w k : Nat} {x : ℝ} {s : List Nat} (h : ShowsSigned w k x s) : s.length = w := by
  obtain ⟨_, _, _, _, h, _⟩ := h
  exact h

theorem fmtPlus_head {n : Nat} (hn : 1 ≤ n) {x : ℝ} (hx : |x| ≤ 9) {rest : List Nat} :
    ∀ c, (fmtPlus (n + 3) n x ++ rest).head? = some c → isDigit c = false := by
  obtain ⟨ds, fs, e, -⟩ := signed_parts hn hx
  intro c hc
  rw [e] at hc
  simp only [List.cons_append, List.head?_cons, Option.some.injEq] at hc
  subst hc
  split_ifs <;> rfl

theorem fmtPlus_length {n : Nat} (hn : 1 ≤ n) {x : ℝ} (hx : |x| ≤ 9) : (fmtPlus (n + 3) n x).length = n + 3 := by
  obtain ⟨ds, fs, e, l1, -, -, -, l2, -⟩ := signed_parts hn hx
  rw [e, List.length_cons, List.length_append, List.length_cons, l1, l2]
  omega

theorem shown_cols (p : Nat) : digitsShown p = max 10 p := by
  unfold digitsShown
  split_ifs <;> omega

/-- The right part of a line: name, angle, and components of `P` and `Q`. -/
theorem right_row {room : Nat} {f : Form} {name : String} {deg x y : ℝ} (hname : (bytes name).length = 5) (hp : f.precision ≤ 15) (hd : 0 ≤ deg) (hd' : deg ≤ 9999)
    (hx : |x| ≤ 9) (hy : |y| ≤ 9) (hr : 80 ≤ room) :
    ∃ t, rightText room f (bytes name) deg x y = .ok t ∧ Row name (max 10 f.precision) f.precision f.omitPq deg x y t ∧ t.length ≤ 62 := by
  have hn := shown_cols f.precision
  obtain ⟨a, ds, fs, e, wl, d1, n1, d2, l2, v⟩ := fmtW_parts (w := max 10 f.precision + 6) (p := max 10 f.precision) (m := 4) (by omega) (by omega) hd
    (by norm_num; linarith)
  unfold rightText
  simp only [hn]
  rw [put, if_pos (by rw [List.length_append, wl, hname]; omega)]
  simp only [Outcome.bind]
  by_cases ho : f.omitPq = true
  · rw [if_pos ho]
    have near := realUnits_near (max 10 f.precision) deg
    rw [abs_of_nonneg hd, ← v] at near
    obtain ⟨f1, f2, f3⟩ := fewer (k := f.precision) (by omega) d2 l2 near
    rw [e] at wl
    simp only [List.length_append, List.length_cons, List.length_replicate, l2] at wl
    have cut : (bytes name ++ fmtW (max 10 f.precision + 6) (max 10 f.precision) deg).take (11 + f.precision) =
        bytes name ++ (List.replicate a 32 ++ (ds ++ 46 :: fs.take f.precision)) := by
      have e3 : 11 + f.precision = (bytes name).length + ((List.replicate a 32).length + (ds.length + (f.precision + 1))) := by
        rw [hname, List.length_replicate]
        omega
      rw [e, e3, List.take_length_add_append, List.take_length_add_append, List.take_length_add_append, List.take_succ_cons]
    refine ⟨_, rfl, ⟨List.replicate a 32 ++ (ds ++ 46 :: fs.take f.precision), ?_⟩, ?_⟩
    · rw [if_pos ho, cut]
      refine ⟨rfl, a, 0, _, _, by rw [List.replicate_zero, List.append_nil], ?_, ⟨ds, _, rfl, d1, n1, f1, f2, rfl⟩, f3⟩
      simp only [List.length_append, List.length_cons, List.length_replicate, f2]
      omega
    · rw [cut]
      simp only [List.length_append, List.length_cons, List.length_replicate, f2]
      omega
  · rw [if_neg ho]
    have hN : (if f.precision > 13 then f.precision else 13) = max 13 f.precision := by split_ifs <;> omega
    have hN1 : 1 ≤ max 13 f.precision := by omega
    unfold addPq
    simp only [hN]
    rw [cat, if_pos (by simp only [List.length_append, wl, hname, fmtPlus_length hN1 hx, fmtPlus_length hN1 hy]; omega)]
    simp only [Outcome.bind]
    obtain ⟨s, r1, s1⟩ := lop_shown (w := max 10 f.precision + 6) (P := max 10 f.precision) (m := 4) (c := 0) (p := f.precision) (i := 11) (h := bytes name)
      (rest := fmtPlus (max 13 f.precision + 3) (max 13 f.precision) x ++ fmtPlus (max 13 f.precision + 3) (max 13 f.precision) y)
      (by omega) (by omega) hd (by norm_num; linarith) (by omega) (by omega) (fmtPlus_head hN1 hx)
    have sl := shown_length s1
    obtain ⟨u, r2, s2⟩ := lop_signed (n := max 13 f.precision) (c := max 13 f.precision - max 10 f.precision) (p := f.precision) (i := 14 + max 13 f.precision)
      (h := bytes name ++ s) (rest := fmtPlus (max 13 f.precision + 3) (max 13 f.precision) y) hN1 hx (by omega)
      (by rw [List.length_append]; omega) (by have := fmtPlus_head (rest := []) hN1 hy; simpa using this)
    have ul := signed_length s2
    obtain ⟨t, r3, s3⟩ := lop_signed (n := max 13 f.precision) (c := max 13 f.precision - max 10 f.precision) (p := f.precision) (i := 17 + max 13 f.precision * 2)
      (h := bytes name ++ s ++ u) (rest := []) hN1 hy (by omega) (by rw [List.length_append, List.length_append]; omega) (by simp)
    have tl := signed_length s3
    rw [List.append_assoc (bytes name) (fmtW _ _ _), r1, ← List.append_assoc (bytes name) s, r2, ← List.append_assoc (bytes name ++ s) u]
    rw [List.append_nil, List.append_nil] at r3
    rw [r3]
    have k1 : min (max 10 f.precision) (0 + f.precision) = f.precision := by omega
    have k2 : min (max 13 f.precision) (max 13 f.precision - max 10 f.precision + f.precision) = min (max 13 f.precision) (f.precision + 3) := by omega
    rw [k1] at s1
    rw [k2] at s2 s3
    refine ⟨_, rfl, ⟨s, ?_⟩, ?_⟩
    · rw [if_neg ho]
      exact ⟨u, t, by simp only [List.append_assoc], s1, s2, s3⟩
    · simp only [List.length_append]
      omega

/-! ## The left parts, for a closed orbit -/

theorem turn_degrees (ang : ℝ) : TurnDegrees ang (degrees (zeroToTwoPi ang)) := by
  have hpi := Real.pi_pos
  have h2 : 0 < 2 * Real.pi := by positivity
  have key : 0 ≤ zeroToTwoPi ang ∧ zeroToTwoPi ang < 2 * Real.pi ∧ ∃ n : Int, zeroToTwoPi ang = ang + n * (2 * Real.pi) := by
    unfold zeroToTwoPi
    simp only
    by_cases h : 0 ≤ ang
    · rw [if_pos h]
      have f1 := Int.floor_le (ang / (2 * Real.pi))
      have f2 := Int.lt_floor_add_one (ang / (2 * Real.pi))
      rw [le_div_iff₀ h2] at f1
      rw [div_lt_iff₀ h2] at f2
      have pos : 0 ≤ ang - 2 * Real.pi * ⌊ang / (2 * Real.pi)⌋ := by linarith
      rw [if_neg (not_lt.2 pos)]
      exact ⟨pos, by linarith, -⌊ang / (2 * Real.pi)⌋, by push_cast; ring⟩
    · rw [if_neg h]
      have f1 := Int.le_ceil (ang / (2 * Real.pi))
      have f2 := Int.ceil_lt_add_one (ang / (2 * Real.pi))
      rw [div_le_iff₀ h2] at f1
      have f2' : (⌈ang / (2 * Real.pi)⌉ : ℝ) - 1 < ang / (2 * Real.pi) := by linarith
      rw [lt_div_iff₀ h2] at f2'
      by_cases hr : ang - 2 * Real.pi * ⌈ang / (2 * Real.pi)⌉ < 0
      · rw [if_pos hr]
        exact ⟨by linarith, by linarith, 1 - ⌈ang / (2 * Real.pi)⌉, by push_cast; ring⟩
      · rw [if_neg hr]
        exact ⟨by linarith, by linarith, -⌈ang / (2 * Real.pi)⌉, by push_cast; ring⟩
  obtain ⟨k1, k2, n, k3⟩ := key
  refine ⟨by unfold degrees; positivity, ?_, n, ?_⟩
  · unfold degrees
    rw [div_lt_iff₀ hpi]
    linarith
  · unfold degrees
    rw [← k3]
    field_simp

/-- The mean anomaly. -/
theorem anomaly_row {room : Nat} {f : Form} {cometary : Bool} {e : Elements} (ho : ¬ Open cometary e) (hr : 80 ≤ room) :
    ∃ s, anomalyLine room f cometary e = .ok (77 :: s ++ (if f.omitPq then [] else bytes " (2000.0)            P               Q")) ∧
      Shows 20 (min 15 (f.precision + 3)) (degrees (zeroToTwoPi e.meanAnomaly)) s := by
  obtain ⟨h0, h1, -⟩ := turn_degrees e.meanAnomaly
  obtain ⟨-, -, -, -, wl, -⟩ := fmtW_parts (w := 20) (p := 15) (m := 3) (by omega) (by omega) h0 (by norm_num; linarith)
  obtain ⟨s, r, hs⟩ := lop_shown (w := 20) (P := 15) (m := 3) (c := 3) (p := f.precision) (i := 9) (h := [77]) (rest := []) (by omega) (by omega) h0
    (by norm_num; linarith) (by omega) rfl (by simp)
  have sl := shown_length hs
  rw [List.append_nil, List.append_nil] at r
  refine ⟨s, ?_, by rwa [Nat.add_comm] at hs⟩
  have hb : (bytes " (2000.0)            P               Q").length = 38 := by decide +kernel
  unfold anomalyLine
  rw [if_neg ho, put, if_pos (by rw [List.length_cons, wl]; omega)]
  simp only [Outcome.bind]
  rw [show 77 :: fmtW 20 15 (degrees (zeroToTwoPi e.meanAnomaly)) = [77] ++ fmtW 20 15 (degrees (zeroToTwoPi e.meanAnomaly)) from rfl, r]
  by_cases h : f.omitPq = true
  · simp [h]
  · rw [if_neg h, if_neg h, cat, if_pos (by simp only [List.length_append, List.length_cons, List.length_nil, sl, hb]; omega)]
    rfl

/-- The daily motion. -/
theorem motion_row {room : Nat} {f : Form} {cometary : Bool} {e : Elements} (ho : ¬ Open cometary e) (hp : f.precision ≤ 15) (ht : 0 < e.t0)
    (hm : 180 / Real.pi / e.t0 ≤ 9999) (hr : 80 ≤ room) :
    ∃ s, motionText room f cometary e = .ok (110 :: s) ∧ Shows (max 10 f.precision + 8) (f.precision + 3) (180 / Real.pi / e.t0) s := by
  have hn := shown_cols f.precision
  have h0 : 0 ≤ 180 / Real.pi / e.t0 := by have := Real.pi_pos; positivity
  obtain ⟨-, -, -, -, wl, -⟩ := fmtW_parts (w := max 10 f.precision + 8) (p := max 10 f.precision + 3) (m := 3) (by omega) (by omega) h0 (by norm_num; linarith)
  obtain ⟨s, r, hs⟩ := lop_shown (w := max 10 f.precision + 8) (P := max 10 f.precision + 3) (m := 3) (c := 3) (p := f.precision) (i := 9) (h := [110]) (rest := [])
    (by omega) (by omega) h0 (by norm_num; linarith) (by omega) rfl (by simp)
  rw [List.append_nil, List.append_nil] at r
  refine ⟨s, ?_, by rwa [show min (max 10 f.precision + 3) (3 + f.precision) = f.precision + 3 by omega] at hs⟩
  unfold motionText
  simp only [hn]
  rw [if_neg ho, put, if_pos (by rw [List.length_cons, wl]; omega)]
  simp only [Outcome.bind]
  exact congrArg _ r

/-- The eccentricity. -/
theorem ecc_row {room : Nat} {f : Form} {e : Elements} (hp : f.precision ≤ 15) (h0 : 0 ≤ e.ecc) (h1 : e.ecc ≤ 9999) (hr : 80 ≤ room) :
    ∃ s, eccText room f false e = .ok (101 :: s) ∧ Shows (max 10 f.precision + 8) (f.precision + 2) e.ecc s := by
  have hn := shown_cols f.precision
  obtain ⟨-, -, -, -, wl, -⟩ := fmtW_parts (w := max 10 f.precision + 8) (p := max 10 f.precision + 3) (m := 3) (by omega) (by omega) h0 (by norm_num; linarith)
  obtain ⟨s, r, hs⟩ := lop_shown (w := max 10 f.precision + 8) (P := max 10 f.precision + 3) (m := 3) (c := 2) (p := f.precision) (i := 8) (h := [101]) (rest := [])
    (by omega) (by omega) h0 (by norm_num; linarith) (by omega) rfl (by simp)
  rw [List.append_nil, List.append_nil] at r
  have sl := shown_length hs
  refine ⟨s, ?_, by rwa [show min (max 10 f.precision + 3) (2 + f.precision) = f.precision + 2 by omega] at hs⟩
  unfold eccText
  simp only [hn]
  rw [if_neg (by simp), put, if_pos (by rw [List.length_cons, wl]; omega)]
  simp only [Outcome.bind]
  rw [if_neg (by omega)]
  rw [show lopAt 8 f.precision (101 :: fmtW (max 10 f.precision + 8) (max 10 f.precision + 3) e.ecc) = [101] ++ s from r, List.take_of_length_le (by simp; omega)]
  rfl

/-- The axis. -/
theorem axis_row {room : Nat} {f : Form} {cometary : Bool} {e : Elements} (ho : ¬ Open cometary e) (hp : f.precision ≤ 15) (h0 : 0 ≤ e.majorAxis) (hr : 80 ≤ room) :
    ∃ s b, axisText room f cometary e = .ok (97 :: s ++ List.replicate b 32) ∧ DistanceText f.precision e.majorAxis s ∧ s.length ≤ 29 ∧
      b = max 10 f.precision + 8 - s.length := by
  have hn := shown_cols f.precision
  obtain ⟨s, run, hs, sl⟩ := C99_distance (room := room - 1) h0 hp (by omega)
  refine ⟨s, max 10 f.precision + 8 - s.length, ?_, hs, sl, rfl⟩
  unfold axisText
  simp only [hn]
  rw [if_neg ho, if_neg (by omega), run]
  simp only [Outcome.bind]
  rw [padTo, if_neg (by simp only [List.length_cons]; omega), if_neg (by simp)]
  simp only [List.length_cons]
  rw [show max (s.length + 1) (max 10 f.precision + 9) - (s.length + 1) = max 10 f.precision + 8 - s.length by omega]

end Verif.Props
