import Mathlib.Tactic.Linarith
import Mathlib.Tactic.SplitIfs
import Verif.Lemmas.GetTimeFields
import Verif.Model.Place
import Verif.Props.QuickReal
import Verif.Spec.Place

/-!
# Property theorems: places and directions as people write them (C75)
-/

namespace Verif.Props

open Verif Verif.Spec Verif.MpcLine Verif.Place Verif.Scan

/-- The text `r` does not go on with a digit or a point. -/
def NoFigure (r : List Nat) : Prop := isDigit (at? r 0) = false ∧ at? r 0 ≠ 46

theorem at_replicate {j : Nat} {r : List Nat} : at? (List.replicate j 32 ++ r) 0 = if j = 0 then at? r 0 else 32 := by
  cases j with
  | zero => simp
  | succ j => simp [List.replicate_succ, at?]

theorem noFigure_blanks {j : Nat} {r : List Nat} (h : NoFigure r) : NoFigure (List.replicate j 32 ++ r) := by
  unfold NoFigure
  rw [at_replicate]
  split_ifs
  · exact h
  · decide

theorem figure_reads {s : List Nat} {x : ℚ} {w : Bool} (h : Figure s x w) {r : List Nat} (hr : NoFigure r) :
    numberForAngle (s ++ r) = .ok (x, s.length, some w) := by
  cases h with
  | @whole k ds hd hne hb =>
    have hh := digits_head (rest := r) hd hne
    have hdig : isDigit (at? (ds ++ r) 0) = true := (isDigit_iff _).mpr hh
    obtain ⟨h1, h2⟩ := digits_span hd hr.1 0
    have q := C73_integer (.none k) hd hne hr.1 hr.2 (by unfold INT_MAX; omega)
    unfold numberForAngle
    rw [List.append_assoc, q, skipBlanks_replicate, skipBlanks_of (by omega)]
    simp only [hdig, h1, Outcome.bind]
    simp [signed, hr.2]
    omega
  | @decimal k ds fs hd hne hb hf h9 =>
    have hh := digits_head (rest := 46 :: (fs ++ r)) hd hne
    have hdig : isDigit (at? (ds ++ 46 :: (fs ++ r)) 0) = true := (isDigit_iff _).mpr hh
    obtain ⟨h1, h2⟩ := digits_span (rest := 46 :: (fs ++ r)) hd rfl 0
    have q := C73_decimal (.none k) hd hf (Or.inl hne) hr.1 (by unfold INT_MAX; omega) h9
    unfold numberForAngle
    rw [List.append_assoc, List.append_assoc, List.cons_append, q, skipBlanks_replicate, skipBlanks_of (by omega)]
    simp only [hdig, h1, Outcome.bind]
    simp [signed, at?]
    omega

theorem noFigure_number {s : List Nat} (h1 : isDigit (at? s 0) = false) (h2 : at? s 0 ≠ 32) (j : Nat) :
    numberForAngle (List.replicate j 32 ++ s) = .ok (0, 0, none) := by
  unfold numberForAngle
  rw [skipBlanks_replicate, skipBlanks_of h2]
  simp [h1]

theorem skip_tail {j : Nat} {r : List Nat} (h : at? r 0 ≠ 32) : skipBlanks (List.replicate j 32 ++ r) = r := by
  rw [skipBlanks_replicate, skipBlanks_of h]

theorem drop_left {a b : List Nat} : (a ++ b).drop a.length = b := List.drop_left

/-- C75: an angle in words is read as its value, with the number of its parts, and blanks after it are passed over. -/
theorem C75_angle {t : List Nat} {x : ℚ} {n : Nat} (h : Angle t x n) {j : Nat} {r : List Nat} (hr : NoFigure r) (hb : at? r 0 ≠ 32) :
    getAngle (t ++ (List.replicate j 32 ++ r)) = .ok (x, t.length + j, n) := by
  have hj := noFigure_blanks (j := j) hr
  cases h with
  | @degrees _ _ w ha =>
    have e1 := figure_reads ha hj
    have e2 := noFigure_number hr.1 hb j
    unfold getAngle
    rw [e1]
    cases w
    · simp only [Outcome.bind, drop_left, skip_tail hb]
      simp
      omega
    · simp only [Outcome.bind, drop_left, e2, skip_tail hb, if_neg (show ¬ (0 : ℚ) > 60 by norm_num)]
      simp
      omega
  | @minutes a b x y w ha hy h60 =>
    have e1 := figure_reads ha (r := (32 :: b) ++ (List.replicate j 32 ++ r)) ⟨rfl, by simp [at?]⟩
    have e2 := figure_reads hy hj
    have e3 := noFigure_number hr.1 hb j
    have h60' : ¬ y > 60 := by linarith
    unfold getAngle
    rw [List.append_assoc, e1]
    cases w
    · simp only [Outcome.bind, drop_left, e2, skip_tail hb, if_neg h60']
      simp
      omega
    · simp only [Outcome.bind, drop_left, e2, e3, skip_tail hb, if_neg h60', if_neg (show ¬ (0 : ℚ) > 60 by norm_num)]
      simp
      omega
  | @seconds a b c x y z w ha hy h60 hz h60z =>
    have e1 := figure_reads ha (r := (32 :: b) ++ ((32 :: c) ++ (List.replicate j 32 ++ r))) ⟨rfl, by simp [at?]⟩
    have e2 := figure_reads hy (r := (32 :: c) ++ (List.replicate j 32 ++ r)) ⟨rfl, by simp [at?]⟩
    have e3 := figure_reads hz hj
    have h60' : ¬ y > 60 := by linarith
    have h60z' : ¬ z > 60 := by linarith
    have e : (a ++ 32 :: (b ++ 32 :: c)) ++ (List.replicate j 32 ++ r) =
        a ++ ((32 :: b) ++ ((32 :: c) ++ (List.replicate j 32 ++ r))) := by simp
    unfold getAngle
    rw [e, e1]
    simp only [Outcome.bind, drop_left, e2, e3, skip_tail hb, if_neg h60', if_neg h60z']
    simp
    omega

/-- An angle begins with blanks and a digit. -/
theorem angle_head {t : List Nat} {x : ℚ} {n : Nat} (h : Angle t x n) :
    ∃ k d s, t = List.replicate k 32 ++ d :: s ∧ 48 ≤ d ∧ d ≤ 57 := by
  have fig : ∀ {a : List Nat} {x : ℚ} {w : Bool}, Figure a x w → ∃ k d s, a = List.replicate k 32 ++ d :: s ∧ 48 ≤ d ∧ d ≤ 57 := by
    intro a x w ha
    cases ha with
    | @whole k ds hd hne hb =>
      obtain ⟨d, s, rfl⟩ := List.exists_cons_of_ne_nil hne
      exact ⟨k, d, s, rfl, hd d (by simp)⟩
    | @decimal k ds fs hd hne hb =>
      obtain ⟨d, s, rfl⟩ := List.exists_cons_of_ne_nil hne
      exact ⟨k, d, s ++ 46 :: fs, by simp, hd d (by simp)⟩
  cases h with
  | degrees ha => exact fig ha
  | minutes ha => obtain ⟨k, d, s, rfl, hd⟩ := fig ha; exact ⟨k, d, _, by simp; rfl, hd⟩
  | seconds ha => obtain ⟨k, d, s, rfl, hd⟩ := fig ha; exact ⟨k, d, _, by simp; rfl, hd⟩

theorem fields_pos {t : List Nat} {x : ℚ} {n : Nat} (h : Angle t x n) : n ≠ 0 := by cases h <;> simp

theorem compass_kind {c : Nat} {lat neg : Bool} (h : Compass c lat neg) :
    isCompass c = true ∧ compassKind c = (if lat then .lat else .lon, neg) ∧ c ≠ 0 ∧ c ≠ 32 ∧ c ≠ 109 ∧ c ≠ 102 ∧ isDigit c = false ∧ c ≠ 46 := by
  cases h with
  | north h => rcases h with rfl | rfl <;> decide
  | south h => rcases h with rfl | rfl <;> decide
  | east h => rcases h with rfl | rfl <;> decide
  | west h => rcases h with rfl | rfl <;> decide

theorem skipAlt_of {s : List Nat} (h : GetTime.toLower (at? s 0) ≠ 97) : skipAlt s = s := by
  unfold skipAlt
  rw [if_neg]
  intro e
  apply h
  cases s with
  | nil => simp [bytes] at e
  | cons a s =>
    have := congrArg (fun l => at? l 0) e
    simpa [at?, bytes] using this

theorem angle_first {t : List Nat} {x : ℚ} {n : Nat} (h : Angle t x n) (r : List Nat) :
    at? (t ++ r) 0 = 32 ∨ (48 ≤ at? (t ++ r) 0 ∧ at? (t ++ r) 0 ≤ 57) := by
  obtain ⟨k, d, s, rfl, h1, h2⟩ := angle_head h
  rw [List.append_assoc, at_replicate]
  split_ifs
  · right; simpa [at?] using ⟨h1, h2⟩
  · left; rfl

theorem skipAlt_angle {t : List Nat} {x : ℚ} {n : Nat} (h : Angle t x n) (r : List Nat) : skipAlt (t ++ r) = t ++ r := by
  apply skipAlt_of
  have := angle_first h r
  unfold GetTime.toLower
  rw [if_neg (by rw [isUpper_iff]; omega)]
  omega

/-- The number of bytes of a comma, if there is one. -/
def comma (r : List Nat) : Nat := if at? r 0 = 44 then 1 else 0

theorem comma_drop (r : List Nat) : (if at? r 0 = 44 then r.drop 1 else r) = r.drop (comma r) := by
  unfold comma
  split_ifs <;> simp

/-- What `extract_lat_lon` returns for a coordinate. -/
def kindOf (lat : Bool) : Kind := if lat then .lat else .lon

theorem extract_before {i j c n : Nat} {lat neg : Bool} {t : List Nat} {x : ℚ} (hc : Compass c lat neg) (ht : Angle t x n) {r : List Nat}
    (hr : NoFigure r) (hb : at? r 0 ≠ 32) (count : Bool) :
    extractLatLon count (List.replicate i 32 ++ c :: (t ++ (List.replicate j 32 ++ r))) =
      .ok (kindOf lat, if count then i + 1 + t.length + j + comma r else 0, signed neg x) := by
  obtain ⟨c1, c2, c3, c4, -⟩ := compass_kind hc
  have hs : skipBlanks (c :: (t ++ (List.replicate j 32 ++ r))) = c :: (t ++ (List.replicate j 32 ++ r)) :=
    skipBlanks_of (by simpa [at?] using c4)
  have hd : (t ++ (List.replicate j 32 ++ r)).drop (t.length + j) = r := by
    rw [← List.append_assoc, List.drop_left' (by simp)]
  have hn := fields_pos ht
  have hk : comma r ≤ r.length := by
    unfold comma
    split_ifs with h
    · cases r <;> simp [at?] at h ⊢
    · omega
  unfold extractLatLon
  rw [skipBlanks_replicate, hs]
  have h0 : at? (c :: (t ++ (List.replicate j 32 ++ r))) 0 = c := rfl
  simp only [h0, c1, if_true, List.drop_succ_cons, List.drop_zero, skipAlt_angle ht, C75_angle ht hr hb, Outcome.bind, hd,
    if_neg (show ¬ (c = 0 ∧ n = 1 ∧ at? r 0 = 32) by omega), if_neg (show ¬ (c = 0 ∧ n = 1) by omega), if_neg hn, c2, comma_drop]
  simp only [reduceCtorEq, if_false, c3, ne_eq, not_false_eq_true, if_true]
  rw [show (if lat = true then Kind.lat else Kind.lon) = kindOf lat from rfl]
  have hkk : kindOf lat ≠ .nothing := by cases lat <;> simp [kindOf]
  cases count
  · simp [signed]
  · simp [signed, hkk]
    omega

theorem angle_strip {t : List Nat} {x : ℚ} {n : Nat} (h : Angle t x n) :
    ∃ k d s, t = List.replicate k 32 ++ d :: s ∧ Angle (d :: s) x n ∧ 48 ≤ d ∧ d ≤ 57 := by
  have fig : ∀ {a : List Nat} {x : ℚ} {w : Bool}, Figure a x w →
      ∃ k d s, a = List.replicate k 32 ++ d :: s ∧ Figure (d :: s) x w ∧ 48 ≤ d ∧ d ≤ 57 := by
    intro a x w ha
    cases ha with
    | @whole k ds hd hne hb =>
      obtain ⟨d, s, rfl⟩ := List.exists_cons_of_ne_nil hne
      exact ⟨k, d, s, rfl, .whole (k := 0) hd hne hb, hd d (by simp)⟩
    | @decimal k ds fs hd hne hb hf h9 =>
      obtain ⟨d, s, rfl⟩ := List.exists_cons_of_ne_nil hne
      exact ⟨k, d, s ++ 46 :: fs, by simp, .decimal (k := 0) hd hne hb hf h9, hd d (by simp)⟩
  cases h with
  | degrees ha =>
    obtain ⟨k, d, s, rfl, hf, hd⟩ := fig ha
    exact ⟨k, d, s, rfl, .degrees hf, hd⟩
  | minutes ha hy h60 =>
    obtain ⟨k, d, s, rfl, hf, hd⟩ := fig ha
    exact ⟨k, d, _, by simp, .minutes hf hy h60, hd⟩
  | seconds ha hy h60 hz h60z =>
    obtain ⟨k, d, s, rfl, hf, hd⟩ := fig ha
    exact ⟨k, d, _, by simp, .seconds hf hy h60 hz h60z, hd⟩

theorem digit_not_compass {d : Nat} (h1 : 48 ≤ d) (h2 : d ≤ 57) : isCompass d = false := by
  unfold isCompass
  simp only [decide_eq_false_iff_not]
  intro h
  simp [bytes] at h
  omega

/-- What happens to an angle without a letter before it. -/
theorem extract_plain {j n : Nat} {t : List Nat} {x : ℚ} (ht : Angle t x n) {r : List Nat}
    (hr : NoFigure r) (hb : at? r 0 ≠ 32) (count : Bool) :
    extractLatLon count (t ++ (List.replicate j 32 ++ r)) =
      (let finish (k : Kind) (v : ℚ) (u : List Nat) : Outcome (Kind × Nat × ℚ) :=
        .ok (k, if count ∧ k ≠ .nothing then t.length + j + r.length - (u.drop (comma u)).length else 0, v)
      match (if n = 1 then height r x else none) with
      | some (v, u) => finish .alt v u
      | none => if isCompass (at? r 0) then
          finish (compassKind (at? r 0)).1 (signed (compassKind (at? r 0)).2 x) (r.drop 1)
        else if r = [] ∧ count then .ub else finish .nothing x r) := by
  obtain ⟨k, d, s, rfl, hs, h1, h2⟩ := angle_strip ht
  have hh : at? ((d :: s) ++ (List.replicate j 32 ++ r)) 0 = d := rfl
  have hsk : skipBlanks ((d :: s) ++ (List.replicate j 32 ++ r)) = (d :: s) ++ (List.replicate j 32 ++ r) :=
    skipBlanks_of (by rw [hh]; omega)
  have hd : ((d :: s) ++ (List.replicate j 32 ++ r)).drop ((d :: s).length + j) = r := by
    rw [← List.append_assoc, List.drop_left' (by simp; omega)]
  have hn := fields_pos ht
  unfold extractLatLon
  rw [List.append_assoc, skipBlanks_replicate, hsk]
  simp only [hh, digit_not_compass h1 h2, Bool.false_eq_true, if_false, skipAlt_angle hs, C75_angle hs hr hb, Outcome.bind, hd,
    if_neg hn, comma_drop]
  rw [if_neg (by simp)]
  have hL : (List.replicate k 32 ++ (d :: s ++ (List.replicate j 32 ++ r))).length = (List.replicate k 32 ++ d :: s).length + j + r.length := by
    simp; omega
  simp only [hL, true_and, ne_eq, not_true_eq_false, if_false, if_neg (show ¬ (n = 1 ∧ at? r 0 = 32) by omega)]
  rfl

theorem extract_after {j c n : Nat} {lat neg : Bool} {t : List Nat} {x : ℚ} (hc : Compass c lat neg) (ht : Angle t x n) {r : List Nat}
    (count : Bool) :
    extractLatLon count (t ++ (List.replicate j 32 ++ c :: r)) =
      .ok (kindOf lat, if count then t.length + j + 1 + comma r else 0, signed neg x) := by
  obtain ⟨c1, c2, c3, c4, c5, c6, c7⟩ := compass_kind hc
  have h0 : at? (c :: r) 0 = c := rfl
  have hk : comma r ≤ r.length := by
    unfold comma
    split_ifs with h
    · cases r <;> simp [at?] at h ⊢
    · omega
  have hh : height (c :: r) x = none := by
    unfold height
    rw [h0, if_neg c5, if_neg (by omega)]
  rw [extract_plain ht (r := c :: r) (by unfold NoFigure; rw [h0]; exact c7) (by rw [h0]; exact c4)]
  simp only [h0, hh, ite_self, c1, if_true, c2]
  rw [show (if lat = true then Kind.lat else Kind.lon) = kindOf lat from rfl]
  have hkk : kindOf lat ≠ .nothing := by cases lat <;> simp [kindOf]
  cases count
  · simp
  · simp [hkk]
    omega

/-- What may follow a coordinate: no comma; if it is open, no digit, point or blank either. -/
def Follows (o : Bool) (r : List Nat) : Prop := at? r 0 ≠ 44 ∧ (o = true → NoFigure r ∧ at? r 0 ≠ 32)

/-- C75: a latitude or longitude with its letter before or after it, the comma after it included, is read as what it is. -/
theorem C75_coordinate {s : List Nat} {lat o : Bool} {x : ℚ} (h : Coordinate s lat x o) {r : List Nat} (hf : Follows o r) :
    extractLatLon true (s ++ r) = .ok (kindOf lat, s.length, x) := by
  have hc : comma r = 0 := if_neg hf.1
  have h44 : ∀ l, comma (44 :: l) = 1 := fun l => rfl
  cases h with
  | @before i j c n lat neg t x hc' ht =>
    have e := extract_before (i := i) (j := j) hc' ht (hf.2 rfl).1 (hf.2 rfl).2 true
    simp only [List.append_assoc, List.cons_append] at e ⊢
    rw [e, hc]
    simp
    omega
  | @beforeComma i j c n lat neg t x hc' ht =>
    have e := extract_before (i := i) (j := j) hc' ht (r := 44 :: r) ⟨rfl, by simp [at?]⟩ (by simp [at?]) true
    simp only [List.append_assoc, List.cons_append, List.nil_append] at e ⊢
    rw [e, h44]
    simp
    omega
  | @after j c n lat neg t x hc' ht =>
    have e := extract_after (j := j) hc' ht (r := r) true
    simp only [List.append_assoc, List.cons_append, List.nil_append] at e ⊢
    rw [e, hc]
    simp
    omega
  | @afterComma j c n lat neg t x hc' ht =>
    have e := extract_after (j := j) hc' ht (r := 44 :: r) true
    simp only [List.append_assoc, List.cons_append, List.nil_append] at e ⊢
    rw [e, h44]
    simp
    omega

theorem angle_blanks {t : List Nat} {x : ℚ} {n : Nat} (h : Angle t x n) (i : Nat) : Angle (List.replicate i 32 ++ t) x n := by
  have fig : ∀ {a : List Nat} {x : ℚ} {w : Bool}, Figure a x w → Figure (List.replicate i 32 ++ a) x w := by
    intro a x w ha
    cases ha with
    | whole hd hne hb => rw [← List.append_assoc, List.replicate_append_replicate]; exact .whole hd hne hb
    | decimal hd hne hb hf h9 => rw [← List.append_assoc, List.replicate_append_replicate]; exact .decimal hd hne hb hf h9
  cases h with
  | degrees ha => exact .degrees (fig ha)
  | minutes ha hy h60 => rw [← List.append_assoc]; exact .minutes (fig ha) hy h60
  | seconds ha hy h60 hz h60z => rw [← List.append_assoc]; exact .seconds (fig ha) hy h60 hz h60z

/-- What happens after the word for a height. -/
theorem extract_alt {a : List Nat} (ha : AltWord a) {i j : Nat} {t : List Nat} {x : ℚ} (ht : Angle t x 1) {r u : List Nat} {v : ℚ}
    (hr : NoFigure r) (hb : at? r 0 ≠ 32) (hh : height r x = some (v, u)) :
    extractLatLon true (List.replicate i 32 ++ (a ++ (t ++ (List.replicate j 32 ++ r)))) =
      .ok (.alt, i + a.length + t.length + j + r.length - (u.length - comma u), v) := by
  have key : a ≠ [] → extractLatLon true (List.replicate i 32 ++ (a ++ (t ++ (List.replicate j 32 ++ r)))) =
      .ok (.alt, i + a.length + t.length + j + r.length - (u.length - comma u), v) := by
    intro hne
    have hsa : skipAlt (a ++ (t ++ (List.replicate j 32 ++ r))) = t ++ (List.replicate j 32 ++ r) ∧
        at? (a ++ (t ++ (List.replicate j 32 ++ r))) 0 ≠ 32 ∧ isCompass (at? (a ++ (t ++ (List.replicate j 32 ++ r))) 0) = false := by
      have hf := angle_first ht (List.replicate j 32 ++ r)
      generalize t ++ (List.replicate j 32 ++ r) = q at hf ⊢
      cases ha with
      | none => exact absurd rfl hne
      | @word a b c h1 h2 h3 =>
        have h46 : ¬ at? q 0 = 46 := by omega
        rcases h1 with rfl | rfl <;> rcases h2 with rfl | rfl <;> rcases h3 with rfl | rfl <;>
          simp [skipAlt, bytes, GetTime.toLower, isUpper, at?, isCompass] <;> exact fun h => absurd h h46
      | @point a b c h1 h2 h3 =>
        rcases h1 with rfl | rfl <;> rcases h2 with rfl | rfl <;> rcases h3 with rfl | rfl <;>
          simp [skipAlt, bytes, GetTime.toLower, isUpper, at?, isCompass]
    obtain ⟨s1, s2, s3⟩ := hsa
    have hd : (t ++ (List.replicate j 32 ++ r)).drop (t.length + j) = r := by
      rw [← List.append_assoc, List.drop_left' (by simp)]
    unfold extractLatLon
    rw [skipBlanks_replicate, skipBlanks_of s2, if_neg (by simp [hne])]
    simp only [s3, Bool.false_eq_true, if_false, s1, C75_angle ht hr hb, Outcome.bind, hd, true_and, if_neg hb, if_true, hh, comma_drop]
    simp
    omega
  by_cases hne : a = []
  · subst hne
    have ht' := angle_blanks ht i
    rw [List.nil_append, ← List.append_assoc, extract_plain ht' hr hb, if_pos rfl, hh]
    simp
  · exact key hne

/-- C75: a height in metres or feet, with "alt" or "alt." before it or not, is read in metres, and a comma after it passed over. -/
theorem C75_height {s : List Nat} {v : ℚ} (h : Height s v) (r : List Nat) :
    extractLatLon true (s ++ r) = .ok (.alt, s.length + comma r, v) := by
  have hk : comma r ≤ r.length := by
    unfold comma
    split_ifs with h
    · cases r <;> simp [at?] at h ⊢
    · omega
  cases h with
  | @metres i j a t x ha ht =>
    have e := extract_alt ha (i := i) (j := j) ht (r := 109 :: r) (u := r) (v := v) ⟨rfl, by simp [at?]⟩ (by simp [at?]) rfl
    simp only [List.append_assoc, List.cons_append, List.nil_append] at e ⊢
    rw [e]
    simp
    omega
  | @feet i j a t x ha ht =>
    have e := extract_alt ha (i := i) (j := j) ht (r := 102 :: 116 :: r) (u := r) (v := x * (3048 / 10000)) ⟨rfl, by simp [at?]⟩
      (by simp [at?]) (by simp [height, at?])
    simp only [List.append_assoc, List.cons_append, List.nil_append] at e ⊢
    rw [e]
    simp
    omega

theorem drop_both {a b r : List Nat} : ((a ++ (b ++ r)).drop a.length).drop b.length = r := by
  rw [List.drop_left, List.drop_left]

theorem kindOf_ne {lat : Bool} : ¬ (kindOf lat ≠ .lat ∧ kindOf lat ≠ .lon) := by cases lat <;> simp [kindOf]

/-- The part of `get_lat_lon_info` after two coordinates. -/
theorem info_core {s1 s2 : List Nat} {lat1 lat2 o1 o2 : Bool} {x1 x2 : ℚ} (h1 : Coordinate s1 lat1 x1 o1) (h2 : Coordinate s2 lat2 x2 o2)
    {r : List Nat} (f1 : Follows o1 (s2 ++ r)) (f2 : Follows o2 r) (hl : lat2 = !lat1) (info : Bool) :
    getLatLonInfo info (s1 ++ (s2 ++ r)) =
      if ¬ info then .ok (0, none)
      else
        let lat := if lat1 then x1 else x2
        let lon := if lat1 then x2 else x1
        let lon := if lon < 0 then lon + 360 else lon
        if lat > 90 ∨ lat < -90 ∨ lon < 0 ∨ lon > 360 then .ok (-1, none)
        else (extractLatLon true r).bind fun a => .ok (0, some ⟨lat, lon, if a.1 = .alt then a.2.2 else 100⟩) := by
  subst hl
  unfold getLatLonInfo
  rw [C75_coordinate h1 f1]
  simp only [Outcome.bind]
  rw [if_neg kindOf_ne, List.drop_left, C75_coordinate h2 f2]
  simp only [List.drop_left]
  cases lat1 <;> simp [kindOf]

/-- A longitude from 0 to 360. -/
def turn (lon : ℚ) : ℚ := if lon < 0 then lon + 360 else lon

/-- C75: two coordinates, in either order, and a height make a place. -/
theorem C75_place {s1 s2 hs : List Nat} {lat1 o1 o2 : Bool} {x1 x2 v : ℚ} (h1 : Coordinate s1 lat1 x1 o1)
    (h2 : Coordinate s2 (!lat1) x2 o2) (h3 : Height hs v) (r : List Nat) (f1 : Follows o1 (s2 ++ (hs ++ r))) (f2 : Follows o2 (hs ++ r))
    (hlat : |if lat1 then x1 else x2| ≤ 90) (hlon : |if lat1 then x2 else x1| ≤ 360) :
    getLatLonInfo true (s1 ++ (s2 ++ (hs ++ r))) = .ok (0, some ⟨if lat1 then x1 else x2, turn (if lat1 then x2 else x1), v⟩) := by
  rw [info_core h1 h2 f1 f2 rfl, C75_height h3, if_neg (by simp)]
  rw [abs_le] at hlat hlon
  simp only
  rw [if_neg]
  · simp only [Outcome.bind, if_true]
    rfl
  · rintro (h | h | h | h)
    · linarith
    · linarith
    · split_ifs at h hlon <;> linarith
    · split_ifs at h hlon <;> linarith

/-- C75: without a height, 100 metres. -/
theorem C75_place_default {s1 s2 : List Nat} {lat1 o1 o2 : Bool} {x1 x2 : ℚ} (h1 : Coordinate s1 lat1 x1 o1)
    (h2 : Coordinate s2 (!lat1) x2 o2) (k : Nat) (f1 : Follows o1 (s2 ++ List.replicate k 32)) (f2 : Follows o2 (List.replicate k 32))
    (hlat : |if lat1 then x1 else x2| ≤ 90) (hlon : |if lat1 then x2 else x1| ≤ 360) :
    getLatLonInfo true (s1 ++ (s2 ++ List.replicate k 32)) =
      .ok (0, some ⟨if lat1 then x1 else x2, turn (if lat1 then x2 else x1), 100⟩) := by
  have he : extractLatLon true (List.replicate k 32) = .ok (.nothing, 0, 0) := by
    have : skipBlanks (List.replicate k 32) = [] := by
      have := skipBlanks_replicate k []
      rwa [List.append_nil] at this
    unfold extractLatLon
    rw [this, if_pos rfl]
  rw [info_core h1 h2 f1 f2 rfl, he, if_neg (by simp)]
  rw [abs_le] at hlat hlon
  simp only
  rw [if_neg]
  · simp only [Outcome.bind, reduceCtorEq, if_false]
    rfl
  · rintro (h | h | h | h)
    · linarith
    · linarith
    · split_ifs at h hlon <;> linarith
    · split_ifs at h hlon <;> linarith

/-- C75: a latitude beyond a pole or a longitude beyond a turn is rejected. -/
theorem C75_place_range {s1 s2 : List Nat} {lat1 o1 o2 : Bool} {x1 x2 : ℚ} (h1 : Coordinate s1 lat1 x1 o1)
    (h2 : Coordinate s2 (!lat1) x2 o2) (r : List Nat) (f1 : Follows o1 (s2 ++ r)) (f2 : Follows o2 r)
    (h : 90 < |if lat1 then x1 else x2| ∨ 360 < |if lat1 then x2 else x1|) : getLatLonInfo true (s1 ++ (s2 ++ r)) = .ok (-1, none) := by
  rw [info_core h1 h2 f1 f2 rfl, if_neg (by simp)]
  simp only
  rw [if_pos]
  rcases h with h | h
  · rw [lt_abs] at h
    rcases h with h | h
    · left; exact h
    · right; left; linarith
  · rw [lt_abs] at h
    right; right
    rcases h with h | h
    · right; rw [if_neg (by linarith)]; linarith
    · left; rw [if_pos (by linarith)]; linarith

/-- **Finding** (C75): but not if the caller only wants to know whether the text is a place (`cinfo` NULL). -/
theorem C75_place_unchecked {s1 s2 : List Nat} {lat1 o1 o2 : Bool} {x1 x2 : ℚ} (h1 : Coordinate s1 lat1 x1 o1)
    (h2 : Coordinate s2 (!lat1) x2 o2) (r : List Nat) (f1 : Follows o1 (s2 ++ r)) (f2 : Follows o2 r) :
    getLatLonInfo false (s1 ++ (s2 ++ r)) = .ok (0, none) := by
  rw [info_core h1 h2 f1 f2 rfl, if_pos (by simp)]

/-- C75: two latitudes or two longitudes are rejected. -/
theorem C75_place_twice {s1 s2 : List Nat} {lat1 o1 o2 : Bool} {x1 x2 : ℚ} (h1 : Coordinate s1 lat1 x1 o1)
    (h2 : Coordinate s2 lat1 x2 o2) (r : List Nat) (f1 : Follows o1 (s2 ++ r)) (f2 : Follows o2 r) (info : Bool) :
    getLatLonInfo info (s1 ++ (s2 ++ r)) = .ok (-1, none) := by
  unfold getLatLonInfo
  rw [C75_coordinate h1 f1]
  simp only [Outcome.bind]
  rw [if_neg kindOf_ne, List.drop_left, C75_coordinate h2 f2]
  cases lat1 <;> simp [kindOf]

/-- **Finding** (C75): if the text ends with an angle that has no letter, the end of the text is passed over and a byte after it is read. -/
theorem C75_past_end {t : List Nat} {x : ℚ} {n : Nat} (ht : Angle t x n) (j : Nat) (info : Bool) :
    getLatLonInfo info (t ++ List.replicate j 32) = .ub := by
  have e := extract_plain ht (j := j) (r := []) ⟨rfl, by simp [at?]⟩ (by simp [at?]) true
  rw [List.append_nil] at e
  unfold getLatLonInfo
  rw [e]
  have hh : height [] x = none := rfl
  have hc : isCompass (at? [] 0) = false := by decide
  simp [hh, hc, Outcome.bind]

/-- **Finding** (C75): the same after a first coordinate. -/
theorem C75_past_end_second {s1 t : List Nat} {lat1 o1 : Bool} {x1 x : ℚ} {n : Nat} (h1 : Coordinate s1 lat1 x1 o1) (ht : Angle t x n)
    (j : Nat) (f1 : Follows o1 (t ++ List.replicate j 32)) (info : Bool) :
    getLatLonInfo info (s1 ++ (t ++ List.replicate j 32)) = .ub := by
  have e := extract_plain ht (j := j) (r := []) ⟨rfl, by simp [at?]⟩ (by simp [at?]) true
  rw [List.append_nil] at e
  unfold getLatLonInfo
  rw [C75_coordinate h1 f1]
  simp only [Outcome.bind]
  rw [if_neg kindOf_ne, List.drop_left, e]
  have hh : height [] x = none := rfl
  have hc : isCompass (at? [] 0) = false := by decide
  simp [hh, hc]

/-- C75: a right ascension of one number is in degrees, of three numbers in hours; beyond a turn it is not taken. -/
theorem C75_ra {t : List Nat} {x : ℚ} {n : Nat} (ht : Angle t x n) (j : Nat) {r : List Nat} (hr : NoFigure r) (hb : at? r 0 ≠ 32)
    (h : n ≠ 2) (y : ℚ) (hy : y = if n = 3 then 15 * x else x) :
    getRa (t ++ (List.replicate j 32 ++ r)) = .ok (y, if y ≤ 360 then t.length + j else 0) := by
  have hn : n = 1 ∨ n = 2 ∨ n = 3 := by cases ht <;> simp
  unfold getRa
  rw [C75_angle ht hr hb]
  simp only [Outcome.bind]
  have : (if n > 2 then x * 15 else x) = y := by
    rw [hy]
    rcases hn with rfl | rfl | rfl <;> simp [mul_comm]
  rw [this]
  by_cases h360 : y ≤ 360
  · rw [if_pos h360, if_neg (by push Not; exact ⟨by omega, h360⟩)]
  · rw [if_neg h360, if_pos (Or.inr (by linarith))]

/-- **Finding** (C75): hours and minutes, documented as such, are taken for degrees and minutes. -/
theorem C75_ra_minutes {t : List Nat} {x : ℚ} (ht : Angle t x 2) (j : Nat) {r : List Nat} (hr : NoFigure r) (hb : at? r 0 ≠ 32) (h : x ≤ 360) :
    getRa (t ++ (List.replicate j 32 ++ r)) = .ok (x, t.length + j) := by
  unfold getRa
  rw [C75_angle ht hr hb]
  simp only [Outcome.bind]
  simp [h]

/-- C75: a declination has a sign and at most 90 degrees. -/
theorem C75_dec {c : Nat} (hc : c = 43 ∨ c = 45) {t : List Nat} {x : ℚ} {n : Nat} (ht : Angle t x n) (j : Nat) {r : List Nat} (hr : NoFigure r)
    (hb : at? r 0 ≠ 32) (h : x ≤ 90) :
    getDec (c :: (t ++ (List.replicate j 32 ++ r))) = .ok (signed (c == 45) x, 1 + t.length + j) := by
  have hn := fields_pos ht
  unfold getDec
  rw [if_neg (by simp only [at?, List.getD_cons_zero]; omega), List.drop_succ_cons, List.drop_zero, C75_angle ht hr hb]
  simp only [Outcome.bind]
  rw [if_neg (show ¬ (n = 0 ∨ x > 90) by push Not; exact ⟨hn, h⟩), if_pos hn]
  have e : at? (c :: (t ++ (List.replicate j 32 ++ r))) 0 = c := rfl
  rw [e]
  unfold signed
  congr 2
  · simp
  · omega

/-- C75: without a sign there is no declination. -/
theorem C75_dec_unsigned {s : List Nat} (h1 : at? s 0 ≠ 43) (h2 : at? s 0 ≠ 45) : getDec s = .ok (0, 0) := by
  unfold getDec
  rw [if_pos ⟨h1, h2⟩]

/-- **Finding** (C75): a declination beyond 90 degrees should be reported by a length of 0; the length is 1. -/
theorem C75_dec_range {c : Nat} (hc : c = 43 ∨ c = 45) {t : List Nat} {x : ℚ} {n : Nat} (ht : Angle t x n) (j : Nat) {r : List Nat}
    (hr : NoFigure r) (hb : at? r 0 ≠ 32) (h : 90 < x) :
    getDec (c :: (t ++ (List.replicate j 32 ++ r))) = .ok (signed (c == 45) x, 1) := by
  have hn := fields_pos ht
  unfold getDec
  rw [if_neg (by simp only [at?, List.getD_cons_zero]; omega), List.drop_succ_cons, List.drop_zero, C75_angle ht hr hb]
  simp only [Outcome.bind]
  rw [if_pos (Or.inr h), if_pos hn]
  have e : at? (c :: (t ++ (List.replicate j 32 ++ r))) 0 = c := rfl
  rw [e]
  unfold signed
  simp

/-- `u` is the part of `s` from the first place on where `p` stands. -/
def FirstAt (p s u : List Nat) : Prop := ∃ a, s = a ++ u ∧ p <+: u ∧ ∀ i, i < a.length → ¬ p <+: s.drop i

theorem strstr_of {p s u : List Nat} (h : FirstAt p s u) : strstr p s = some u := by
  obtain ⟨a, rfl, hp, hn⟩ := h
  induction a with
  | nil =>
    cases u with
    | nil => simp [strstr, List.prefix_nil.mp hp]
    | cons c u => simp [strstr, hp]
  | cons c a ih =>
    have h0 := hn 0 (by simp)
    rw [List.drop_zero] at h0
    rw [List.cons_append, strstr, if_neg (by simpa using h0)]
    exact ih fun i hi => by simpa using hn (i + 1) (by simpa using hi)

theorem strtold_figure {s : List Nat} {x : ℚ} {w : Bool} (h : Figure s x w) {r : List Nat} (hr : Stops r) :
    (strtold (K := ℚ) (s ++ r)).1 = x := by
  have blanks : ∀ (k : Nat) (t : List Nat), (strtold (K := ℚ) (List.replicate k 32 ++ t)).1 = (strtold (K := ℚ) t).1 := by
    intro k t
    have hs : skipSpace (List.replicate k 32 ++ t) = skipSpace t := by
      induction k with
      | zero => rfl
      | succ k ih => rw [List.replicate_succ, List.cons_append, skipSpace, if_pos (by rfl), ih]
    unfold strtold
    rw [hs]
    simp only
    split
    · rfl
    · split <;> rfl
  cases h with
  | whole hd hne hb => rw [List.append_assoc, blanks, strtold_digits hd hne hr]
  | decimal hd hne hb hf h9 => rw [List.append_assoc, blanks, strtold_decimal hd hne hf hr]

/-- C75: the line "COM Long. …, Lat. …, Alt. …" that stands for a missing station code. -/
theorem C75_xxx {t1 t2 t3 r1 r2 r3 buff : List Nat} {c1 c2 n1 n2 j1 j2 : Nat} {neg1 neg2 w : Bool} {x1 x2 x3 : ℚ}
    (h1 : Angle t1 x1 n1) (k1 : Compass c1 false neg1) (h2 : Angle t2 x2 n2) (k2 : Compass c2 true neg2) (h3 : Figure t3 x3 w)
    (hs : Stops r3) (hb : buff = bytes "COM Long." ++ (t1 ++ (List.replicate j1 32 ++ c1 :: r1)))
    (hlat : FirstAt (bytes "Lat.") buff (bytes "Lat." ++ (t2 ++ (List.replicate j2 32 ++ c2 :: r2))))
    (halt : FirstAt (bytes "Alt.") buff (bytes "Alt." ++ (t3 ++ r3))) :
    getXxxLocationInfo buff = .ok (0, some ⟨signed neg2 x2, turn (signed neg1 x1), x3⟩) := by
  have e1 : buff.take 9 = bytes "COM Long." := by rw [hb]; rfl
  have e2 : buff.drop 9 = t1 ++ (List.replicate j1 32 ++ c1 :: r1) := by rw [hb]; rfl
  have e3 : (bytes "Lat." ++ (t2 ++ (List.replicate j2 32 ++ c2 :: r2))).drop 4 = t2 ++ (List.replicate j2 32 ++ c2 :: r2) := rfl
  have e4 : (bytes "Alt." ++ (t3 ++ r3)).drop 4 = t3 ++ r3 := rfl
  unfold getXxxLocationInfo
  rw [if_neg (by simp [e1]), strstr_of hlat, strstr_of halt]
  simp only [e2, e3, e4, extract_after k1 h1, extract_after k2 h2, Outcome.bind, kindOf, Bool.false_eq_true, if_false, if_true,
    strtold_figure h3 hs, ne_eq, not_true_eq_false]
  rfl

/-- C75: another line is none such; **finding**: of the codes -4, -8 and -12 for a missing latitude or height none is ever returned. -/
theorem C75_xxx_codes (buff : List Nat) {code : Int} {p : Option Site} (h : getXxxLocationInfo buff = .ok (code, p)) :
    (code = -1 ↔ ¬ bytes "COM Long." <+: buff) ∧ (code = 0 ∨ code = -1 ∨ code = -2) := by
  have hp : bytes "COM Long." <+: buff ↔ buff.take 9 = bytes "COM Long." := by
    rw [List.prefix_iff_eq_take]
    exact eq_comm
  unfold getXxxLocationInfo at h
  by_cases h0 : buff.take 9 ≠ bytes "COM Long."
  · rw [if_pos h0] at h
    cases h
    exact ⟨by simp [hp, h0], by simp⟩
  · rw [if_neg h0] at h
    have hne : bytes "COM Long." <+: buff := hp.mpr (by simpa using h0)
    suffices code = 0 ∨ code = -2 by
      refine ⟨⟨fun e => by omega, fun e => absurd hne e⟩, by omega⟩
    split at h
    · rename_i lat alt _ _
      cases e1 : extractLatLon false (buff.drop 9) with
      | ok a =>
        rw [e1] at h
        simp only [Outcome.bind] at h
        by_cases h1 : a.1 ≠ .lon
        · rw [if_pos h1] at h
          cases h; right; rfl
        · rw [if_neg h1] at h
          cases e2 : extractLatLon false (lat.drop 4) with
          | ok b =>
            rw [e2] at h
            simp only at h
            split at h <;> cases h <;> simp
          | abort => rw [e2] at h; cases h
          | ub => rw [e2] at h; cases h
      | abort => rw [e1] at h; cases h
      | ub => rw [e1] at h; cases h
    · cases h; right; rfl

/-! The hypotheses are met: the examples of the comment. -/

theorem sample_digits {s : List Nat} (h : s.all isDigit = true) : AllDigits s := by
  intro c hc
  have := List.all_eq_true.mp h c hc
  exact (isDigit_iff c).mp this

theorem sample_lat : Coordinate (bytes "n44.01,") true (signed false (44 + 1 / 100)) false := by
  have h : Angle (bytes "44.01") (44 + 1 / 100) 1 := by
    have := Angle.degrees (.decimal (k := 0) (ds := bytes "44") (fs := bytes "01") (sample_digits rfl) (by decide) (by decide)
      (sample_digits rfl) (by decide))
    have e : ((value (bytes "44") : Nat) : ℚ) + ((value (bytes "01") : Nat) : ℚ) / 10 ^ (bytes "01").length = 44 + 1 / 100 := by
      rw [show value (bytes "44") = 44 from rfl, show value (bytes "01") = 1 from rfl, show (bytes "01").length = 2 from rfl]
      norm_num
    rw [e] at this
    exact this
  exact .beforeComma (i := 0) (j := 0) (.north (Or.inl rfl)) h

theorem sample_lon : Coordinate (bytes " 69 54 1.7W") false (signed true (69 + 54 / 60 + (1 + 7 / 10) / 3600)) false := by
  have h : Angle (bytes " 69 54 1.7") (69 + 54 / 60 + (1 + 7 / 10) / 3600) 3 := by
    have a : Figure (bytes " 69") 69 true := .whole (k := 1) (ds := bytes "69") (sample_digits rfl) (by decide) (by decide)
    have b : Figure (bytes " 54") 54 true := .whole (k := 1) (ds := bytes "54") (sample_digits rfl) (by decide) (by decide)
    have c : Figure (bytes " 1.7") (1 + 7 / 10) false := by
      have := Figure.decimal (k := 1) (ds := bytes "1") (fs := bytes "7") (sample_digits rfl) (by decide) (by decide)
        (sample_digits rfl) (by decide)
      have e : ((value (bytes "1") : Nat) : ℚ) + ((value (bytes "7") : Nat) : ℚ) / 10 ^ (bytes "7").length = 1 + 7 / 10 := by
        rw [show value (bytes "1") = 1 from rfl, show value (bytes "7") = 7 from rfl, show (bytes "7").length = 1 from rfl]
        norm_num
      rw [e] at this
      exact this
    exact .seconds (b := bytes "54") (c := bytes "1.7") a b (by norm_num) c (by norm_num)
  exact .after (j := 0) (.west (Or.inr rfl)) h

theorem sample_height : Height (bytes " Alt. 1700m") 1700 :=
  .metres (i := 1) (j := 0) (a := bytes "Alt.") (t := bytes " 1700") (.point (Or.inr rfl) (Or.inl rfl) (Or.inl rfl))
    (.degrees (.whole (k := 1) (ds := bytes "1700") (sample_digits rfl) (by decide) (by decide)))

example : getLatLonInfo true (bytes "n44.01, 69 54 1.7W Alt. 1700m") =
    .ok (0, some ⟨signed false (44 + 1 / 100), turn (signed true (69 + 54 / 60 + (1 + 7 / 10) / 3600)), 1700⟩) :=
  C75_place sample_lat sample_lon sample_height [] ⟨by decide, by simp⟩ ⟨by decide, by simp⟩
    (by simp [signed, abs_le]; norm_num) (by simp [signed, abs_le]; norm_num)

end Verif.Props
