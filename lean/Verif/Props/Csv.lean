import Verif.Model.Csv
import Verif.Spec.Csv
import Mathlib.Data.List.Basic
import Mathlib.Data.List.TakeWhile

/-!
# C90: Gaia tables
-/

namespace Verif.Props

open Verif Verif.Csv Verif.CsvSpec Verif.Multipart

theorem line_cons (x : List Nat) {r : List (List Nat)} (hr : r ≠ []) : line (x :: r) = x ++ 44 :: line r := by
  obtain ⟨y, r, rfl⟩ := List.exists_cons_of_ne_nil hr
  rfl

/-- What is searched for is found inside `x`. -/
theorem find_in {t x rest : List Nat} (h : ∃ a b, x = a ++ b ∧ b ≠ [] ∧ t <+: b ++ rest) :
    ∃ a b, x = a ++ b ∧ b ≠ [] ∧ findSub t (x ++ rest) = some (b ++ rest) := by
  induction x with
  | nil =>
    obtain ⟨a, b, h1, h2, -⟩ := h
    exact absurd (List.append_eq_nil_iff.1 h1.symm).2 h2
  | cons c x ih =>
    by_cases hp : t <+: c :: x ++ rest
    · refine ⟨[], c :: x, rfl, by simp, ?_⟩
      rw [List.cons_append, findSub, if_pos (by rw [List.isPrefixOf_iff_prefix]; exact hp)]
    · obtain ⟨a, b, h1, h2, h3⟩ := h
      cases a with
      | nil =>
        rw [List.nil_append] at h1
        rw [← h1] at h3
        exact absurd h3 hp
      | cons d a =>
        rw [List.cons_append, List.cons.injEq] at h1
        obtain ⟨a', b', h4, h5, h6⟩ := ih ⟨a, b, h1.2, h2, h3⟩
        refine ⟨c :: a', b', by rw [h4]; rfl, h5, ?_⟩
        rw [List.cons_append, findSub, if_neg (by rw [List.isPrefixOf_iff_prefix]; exact hp), h6]

/-- It is not found inside `x`. -/
theorem find_out {t x rest : List Nat} (h : ∀ a b, x = a ++ b → b ≠ [] → ¬ t <+: b ++ rest) : findSub t (x ++ rest) = findSub t rest := by
  induction x with
  | nil => rfl
  | cons c x ih =>
    rw [List.cons_append, findSub, if_neg (by
      rw [List.isPrefixOf_iff_prefix]
      exact h [] (c :: x) rfl (by simp)), ih]
    intro a b hab hb
    exact h (c :: a) b (by rw [hab]; rfl) hb

/-- A name followed by a comma starts inside a field exactly if the field ends in that name. -/
theorem starts_name {name x : List Nat} (hn : 44 ∉ name) (hne : name ≠ []) (hx : 44 ∉ x) (rest : List Nat) :
    (∃ a b, x = a ++ b ∧ b ≠ [] ∧ name ++ [44] <+: b ++ 44 :: rest) ↔ name <:+ x := by
  constructor
  · rintro ⟨a, b, rfl, hb, z, hz⟩
    have h1 : (name ++ 44 :: z).takeWhile (fun c => decide (c ≠ 44)) = name := by
      rw [List.takeWhile_append_of_pos (fun c hc => by simp; rintro rfl; exact hn hc)]; simp
    have h2 : (b ++ 44 :: rest).takeWhile (fun c => decide (c ≠ 44)) = b := by
      rw [List.takeWhile_append_of_pos (fun c hc => by simp; rintro rfl; exact hx (by simp [hc]))]; simp
    rw [List.append_assoc] at hz
    rw [show name ++ 44 :: z = b ++ 44 :: rest from hz, h2] at h1
    rw [h1]
    exact List.suffix_append _ _
  · rintro ⟨a, rfl⟩
    exact ⟨a, name, rfl, hne, rest, by simp⟩

/-- A name without a comma starts inside a field exactly if the field contains it. -/
theorem starts_infix {t x : List Nat} (ht : 44 ∉ t) (hne : t ≠ []) (rest : List Nat) :
    (∃ a b, x = a ++ b ∧ b ≠ [] ∧ t <+: b ++ 44 :: rest) ↔ t <:+: x := by
  constructor
  · rintro ⟨a, b, rfl, hb, hp⟩
    have : t <+: b := by
      by_cases hl : t.length ≤ b.length
      · exact List.prefix_of_prefix_length_le hp (List.prefix_append b _) hl
      · have : b ++ [44] <+: t := List.prefix_of_prefix_length_le (l₃ := b ++ 44 :: rest) ⟨rest, by simp⟩ hp (by simp; omega)
        exact absurd (this.subset (by simp)) ht
    obtain ⟨w, hw⟩ := this
    exact ⟨a, w, by rw [List.append_assoc, hw]⟩
  · rintro ⟨a, w, rfl⟩
    exact ⟨a, t ++ w, by simp, by simp [hne], w ++ 44 :: rest, by simp⟩

theorem afterComma_eq {x : List Nat} (h : 44 ∉ x) (r : List Nat) : afterComma (x ++ 44 :: r) = some r := by
  induction x with
  | nil => rfl
  | cons c x ih =>
    rw [List.cons_append, afterComma, if_neg (by rintro rfl; simp at h), ih (by simp at h; exact h.2)]

theorem skip_line : ∀ {n : Nat} {fields : List (List Nat)}, n < fields.length → (∀ x ∈ fields, 44 ∉ x) → skip n (line fields) = some (line (fields.drop n))
  | 0, _, _, _ => rfl
  | n + 1, [], h, _ => by simp at h
  | n + 1, [x], h, _ => by simp at h
  | n + 1, x :: y :: r, h, hx => by
    rw [line, skip, afterComma_eq (hx x (by simp))]
    exact skip_line (by simpa using h) (fun z hz => hx z (by simp [hz]))

theorem found_suffix {p s t : List Nat} (h : findSub p s = some t) : t <:+ s := by
  induction s with
  | nil =>
    unfold findSub at h
    split at h
    · cases h; exact List.suffix_refl _
    · cases h
  | cons c s ih =>
    unfold findSub at h
    split at h
    · cases h; exact List.suffix_refl _
    · exact (ih h).trans (List.suffix_cons c s)

theorem find_column {t : List Nat} {P : List Nat → Prop} (hP : ∀ x rest, 44 ∉ x → ((∃ a b, x = a ++ b ∧ b ≠ [] ∧ t <+: b ++ 44 :: rest) ↔ P x))
    (ht : t ≠ []) (ht0 : t.head? ≠ some 44) : ∀ {cols : List (List Nat)} {j : Nat}, First P cols j → j + 1 < cols.length → (∀ x ∈ cols, 44 ∉ x) →
    ∃ found, findSub t (line cols) = some found ∧ ((line cols).take ((line cols).length - found.length)).count 44 = j
  | [], j, _, h, _ => by simp at h
  | x :: r, j, hf, h, hx => by
    have hr : r ≠ [] := by rintro rfl; simp at h
    rw [line_cons x hr]
    obtain ⟨⟨y, hy, hpy⟩, hfirst⟩ := hf
    cases j with
    | zero =>
      simp only [List.getElem?_cons_zero, Option.some.injEq] at hy
      subst hy
      obtain ⟨a, b, h1, h2, h3⟩ := find_in ((hP x (line r) (hx x (by simp))).2 hpy)
      refine ⟨_, h3, ?_⟩
      rw [h1, show (a ++ b ++ 44 :: line r).length - (b ++ 44 :: line r).length = a.length by simp, List.append_assoc, List.take_left]
      rw [List.count_eq_zero]
      intro h
      exact hx x (by simp) (by rw [h1]; simp [h])
    | succ j =>
      have hno := hfirst 0 (by omega) x rfl
      have h1 : findSub t (x ++ 44 :: line r) = findSub t (line r) := by
        rw [find_out (fun a b hab hb hp => hno ((hP x (line r) (hx x (by simp))).1 ⟨a, b, hab, hb, hp⟩)), findSub, if_neg]
        rw [List.isPrefixOf_iff_prefix]
        rintro ⟨z, hz⟩
        obtain ⟨c, t, rfl⟩ := List.exists_cons_of_ne_nil ht
        simp at hz ht0
        exact ht0 hz.1
      obtain ⟨found, h2, h3⟩ := find_column hP ht ht0 (cols := r) (j := j) ⟨⟨y, by simpa using hy, hpy⟩, fun i hi z hz => hfirst (i + 1) (by omega) z (by simpa using hz)⟩
        (by simp at h; omega) (fun z hz => hx z (by simp [hz]))
      refine ⟨found, by rw [h1, h2], ?_⟩
      have hle : found.length ≤ (line r).length := (found_suffix h2).length_le
      rw [show (x ++ 44 :: line r).length - found.length = (x ++ [44]).length + ((line r).length - found.length) by simp; omega,
        show x ++ 44 :: line r = (x ++ [44]) ++ line r by simp, List.take_length_add_append, List.count_append, h3]
      have := List.count_eq_zero.2 (hx x (by simp))
      simp [this]
      omega

theorem value_line {fields : List (List Nat)} {j : Nat} (h : j + 1 < fields.length) (hx : ∀ x ∈ fields, 44 ∉ x) :
    (line (fields.drop j)).takeWhile (fun c => decide (c ≠ 44)) = fields[j] := by
  rw [List.drop_eq_getElem_cons (by omega), line_cons _ (by
    intro h'
    have := congrArg List.length h'
    simp at this
    omega), List.takeWhile_append_of_pos]
  · simp
  · intro c hc
    simp only [ne_eq, decide_eq_true_eq]
    rintro rfl
    exact hx _ (List.getElem_mem _) hc

theorem csv_field {t : List Nat} {P : List Nat → Prop} (hP : ∀ x rest, 44 ∉ x → ((∃ a b, x = a ++ b ∧ b ≠ [] ∧ t <+: b ++ 44 :: rest) ↔ P x))
    (ht : t ≠ []) (ht0 : t.head? ≠ some 44) {cols fields : List (List Nat)} {j : Nat} (hf : First P cols j) (hj : j + 1 < cols.length)
    (hl : fields.length = cols.length) (hc : ∀ x ∈ cols, 44 ∉ x) (hx : ∀ x ∈ fields, 44 ∉ x) (size maxLen : Nat) :
    getCsv size (line fields) (line cols) t maxLen =
      if (fields[j].take maxLen).length < size then .ok (fields[j].take maxLen) else .ub := by
  obtain ⟨found, h1, h2⟩ := find_column hP ht ht0 hf hj hc
  unfold getCsv
  rw [h1]
  simp only
  rw [h2, skip_line (by omega) hx]
  simp only
  rw [value_line (by omega) hx]

/-- **C90.** A name with a comma after it: the value comes from the first column whose name ends in it. -/
theorem C90_field {name : List Nat} (hn : 44 ∉ name) (hne : name ≠ []) {cols fields : List (List Nat)} {j : Nat} (hf : First (name <:+ ·) cols j)
    (hj : j + 1 < cols.length) (hl : fields.length = cols.length) (hc : ∀ x ∈ cols, 44 ∉ x) (hx : ∀ x ∈ fields, 44 ∉ x) {size maxLen : Nat}
    (hs : fields[j].length < size ∨ maxLen < size) :
    getCsv size (line fields) (line cols) (name ++ [44]) maxLen = .ok (fields[j].take maxLen) := by
  rw [csv_field (fun x rest h => starts_name hn hne h rest) (by simp) (by
    obtain ⟨c, n, rfl⟩ := List.exists_cons_of_ne_nil hne
    simp at hn ⊢
    exact fun h => hn.1 h.symm) hf hj hl hc hx, if_pos]
  rw [List.length_take]
  omega

/-- **C90.** A name alone: the value comes from the first column whose name contains it. -/
theorem C90_part_of_name {t : List Nat} (hn : 44 ∉ t) (hne : t ≠ []) {cols fields : List (List Nat)} {j : Nat} (hf : First (t <:+: ·) cols j)
    (hj : j + 1 < cols.length) (hl : fields.length = cols.length) (hc : ∀ x ∈ cols, 44 ∉ x) (hx : ∀ x ∈ fields, 44 ∉ x) {size maxLen : Nat}
    (hs : fields[j].length < size ∨ maxLen < size) :
    getCsv size (line fields) (line cols) t maxLen = .ok (fields[j].take maxLen) := by
  rw [csv_field (fun x rest _ => starts_infix hn hne rest) hne (by
    obtain ⟨c, n, rfl⟩ := List.exists_cons_of_ne_nil hne
    simp at hn ⊢
    exact fun h => hn.1 h.symm) hf hj hl hc hx, if_pos]
  rw [List.length_take]
  omega

/-- **C90.** A name with a comma that no column but perhaps the last one ends in: the program is aborted. -/
theorem C90_missing {name : List Nat} (hn : 44 ∉ name) (hne : name ≠ []) : ∀ {cols : List (List Nat)}, (∀ x ∈ cols, 44 ∉ x) →
    (∀ x ∈ cols.dropLast, ¬ name <:+ x) → ∀ size row maxLen, getCsv size row (line cols) (name ++ [44]) maxLen = .abort := by
  intro cols hc hno size row maxLen
  have h : findSub (name ++ [44]) (line cols) = none := by
    have hlast : ∀ x : List Nat, 44 ∉ x → findSub (name ++ [44]) (x ++ [10]) = none := by
      intro x hx
      rw [find_out]
      · have : ¬ name ++ [44] <+: [10] := by
          intro h
          have := h.subset (a := 44) (by simp)
          simp at this
        rw [findSub, if_neg (by rw [List.isPrefixOf_iff_prefix]; exact this), findSub, if_neg (by simp)]
      · intro a b hab _ h
        have := h.subset (a := 44) (by simp)
        simp at this
        exact hx (by rw [hab]; simp [this])
    induction cols with
    | nil => exact hlast [] (by simp)
    | cons x r ih =>
      by_cases hr : r = []
      · subst hr
        exact hlast x (hc x (by simp))
      · rw [line_cons x hr, find_out (by
          intro a b hab hb hp
          exact hno x (by rw [List.dropLast_cons_of_ne_nil hr]; simp) ((starts_name hn hne (hc x (by simp)) (line r)).1 ⟨a, b, hab, hb, hp⟩)),
          findSub, if_neg, ih (fun z hz => hc z (by simp [hz])) (fun z hz => hno z (by rw [List.dropLast_cons_of_ne_nil hr]; simp [hz]))]
        rw [List.isPrefixOf_iff_prefix]
        rintro ⟨z, hz⟩
        obtain ⟨c, n, rfl⟩ := List.exists_cons_of_ne_nil hne
        simp at hz hn
        exact hn.1 hz.1.symm
  unfold getCsv
  rw [h]

/-- **Finding** (C90): with the limit 99 and the 90 bytes of the caller's array, a value of 90 bytes or more is stored past its end. -/
theorem C90_overflow {name : List Nat} (hn : 44 ∉ name) (hne : name ≠ []) {cols fields : List (List Nat)} {j : Nat} (hf : First (name <:+ ·) cols j)
    (hj : j + 1 < cols.length) (hl : fields.length = cols.length) (hc : ∀ x ∈ cols, 44 ∉ x) (hx : ∀ x ∈ fields, 44 ∉ x)
    (hs : 90 ≤ fields[j].length) : getCsv 90 (line fields) (line cols) (name ++ [44]) 99 = .ub := by
  rw [csv_field (fun x rest h => starts_name hn hne h rest) (by simp) (by
    obtain ⟨c, n, rfl⟩ := List.exists_cons_of_ne_nil hne
    simp at hn ⊢
    exact fun h => hn.1 h.symm) hf hj hl hc hx, if_neg]
  rw [List.length_take]
  omega

/-- **C90.** Of the twenty files exactly those with objects in the range are read. -/
theorem C90_files {low high : Int} (hlow : 0 ≤ low) (file : Int) :
    fileNeeded file low high = true ↔ ∃ n, low ≤ n ∧ n ≤ high ∧ (n + 11) % 20 = file := by
  unfold fileNeeded
  rw [List.any_eq_true]
  constructor
  · rintro ⟨k, -, hk⟩
    simp only [decide_eq_true_eq] at hk
    refine ⟨low + k, by omega, hk.1, ?_⟩
    rw [← hk.2, Int.tmod_eq_emod_of_nonneg (by omega)]
  · rintro ⟨n, h1, h2, h3⟩
    refine ⟨((n - low) % 20).toNat, by rw [List.mem_range]; omega, ?_⟩
    simp only [decide_eq_true_eq]
    rw [Int.tmod_eq_emod_of_nonneg (by omega)]
    omega

/-! ### The hypotheses can be met -/

/-- The first columns of the table described in the program. -/
def gaiaHeader : List (List Nat) := [bytes "solution_id", bytes "source_id", bytes "observation_id", bytes "number_mp", bytes "epoch", bytes "epoch_err",
  bytes "epoch_utc", bytes "ra", bytes "dec", bytes "ra_error_systematic", bytes "dec_error_systematic", bytes "ra_dec_correlation_systematic",
  bytes "ra_error_random", bytes "dec_error_random", bytes "ra_dec_correlation_random", bytes "g_mag", bytes "g_flux", bytes "g_flux_error", bytes "x_gaia",
  bytes "y_gaia", bytes "z_gaia", bytes "vx_gaia", bytes "vy_gaia", bytes "vz_gaia", bytes "position_angle_scan", bytes "level_of_confidence"]

theorem first_of {p : List Nat → Prop} [DecidablePred p] {cols : List (List Nat)} {j : Nat} (h1 : ∃ x, cols[j]? = some x ∧ p x)
    (h2 : ∀ x ∈ cols.take j, ¬ p x) : First p cols j :=
  ⟨h1, fun i hi x hx => h2 x (by
    rw [List.mem_iff_getElem?]
    exact ⟨i, by rw [List.getElem?_take_of_lt hi]; exact hx⟩)⟩

/-- Right ascension and declination. -/
example {fields : List (List Nat)} (hl : fields.length = gaiaHeader.length) (hx : ∀ x ∈ fields, 44 ∉ x ∧ x.length < 90) :
    getCsv 90 (line fields) (line gaiaHeader) (bytes "ra" ++ [44]) 99 = .ok ((fields[7]'(by rw [hl]; decide)).take 99) ∧
      getCsv 90 (line fields) (line gaiaHeader) (bytes "dec" ++ [44]) 99 = .ok ((fields[8]'(by rw [hl]; decide)).take 99) :=
  ⟨C90_field (by decide) (by decide) (first_of ⟨bytes "ra", by decide, List.suffix_refl _⟩ (by decide)) (by decide) hl (by decide) (fun x h => (hx x h).1)
      (.inl (hx _ (List.getElem_mem _)).2),
    C90_field (by decide) (by decide) (first_of ⟨bytes "dec", by decide, List.suffix_refl _⟩ (by decide)) (by decide) hl (by decide) (fun x h => (hx x h).1)
      (.inl (hx _ (List.getElem_mem _)).2)⟩

/-- The speeds must not come before the places: `x_gaia` is found in `vx_gaia`. -/
example : First (bytes "x_gaia" <:+: ·) [bytes "vx_gaia", bytes "x_gaia"] 0 := first_of ⟨bytes "vx_gaia", by decide, by decide⟩ (by decide)

end Verif.Props
