import Verif.Model.Multipart
import Verif.Spec.Multipart
import Mathlib.Data.List.Basic
import Mathlib.Data.List.TakeWhile
import Mathlib.Tactic.SplitIfs

/-!
# C89: multipart forms
-/

set_option linter.unusedSimpArgs false

namespace Verif.Props

open Verif Verif.Multipart Verif.MultipartSpec

/-! ### Lines -/

theorem takeLine_append (n : Nat) (s : List Nat) : (takeLine n s).1 ++ (takeLine n s).2 = s := by
  induction n generalizing s with
  | zero => rfl
  | succ n ih =>
    cases s with
    | nil => rfl
    | cons c s =>
      rw [takeLine]
      split
      · rename_i h; subst h; rfl
      · simp [ih]

theorem takeLine_length (n : Nat) (s : List Nat) : (takeLine n s).1.length ≤ n := by
  induction n generalizing s with
  | zero => simp [takeLine]
  | succ n ih =>
    cases s with
    | nil => simp [takeLine]
    | cons c s =>
      rw [takeLine]
      split
      · simp
      · have := ih s
        simp
        omega

theorem takeLine_pos {n : Nat} {s : List Nat} (hn : 0 < n) (hs : s ≠ []) : 0 < (takeLine n s).1.length := by
  obtain ⟨n, rfl⟩ : ∃ m, n = m + 1 := ⟨n - 1, by omega⟩
  obtain ⟨c, s, rfl⟩ := List.exists_cons_of_ne_nil hs
  rw [takeLine]
  split <;> simp

/-- A whole line that fits. -/
theorem takeLine_line {n : Nat} {l : List Nat} (h : ∀ c ∈ l, c ≠ 10) (hn : l.length < n) (r : List Nat) :
    takeLine n (l ++ 10 :: r) = (l ++ [10], r) := by
  induction l generalizing n with
  | nil =>
    obtain ⟨n, rfl⟩ : ∃ m, n = m + 1 := ⟨n - 1, by simp at hn; omega⟩
    simp [takeLine]
  | cons c l ih =>
    obtain ⟨n, rfl⟩ : ∃ m, n = m + 1 := ⟨n - 1, by simp at hn; omega⟩
    rw [List.cons_append, takeLine, if_neg (h c (by simp)), ih (fun c hc => h c (by simp [hc])) (by simp at hn; omega)]
    rfl

theorem fgets_one {n : Nat} {l : List Nat} (h : ∀ c ∈ l, c ≠ 10) (hn : l.length + 1 < n) (r : List Nat) :
    fgets n (l ++ 10 :: r) = some (l ++ [10], r) := by
  rw [fgets, if_neg (by simp), takeLine_line h (by omega)]

theorem cstr_id {s : List Nat} (h : 0 ∉ s) : cstr s = s := by
  unfold cstr
  rw [List.takeWhile_eq_self_iff]
  intro c hc
  simp only [ne_eq, decide_eq_true_eq]
  rintro rfl
  exact h hc

theorem cstr_length (s : List Nat) : (cstr s).length ≤ s.length := by
  unfold cstr
  exact List.Sublist.length_le (List.takeWhile_sublist _)

theorem stripEnd_length (s : List Nat) : (stripEnd s).length ≤ s.length := by
  unfold stripEnd
  rw [List.length_reverse]
  have := List.Sublist.length_le (List.dropWhile_sublist (l := s.reverse) fun c => decide (c = 10 ∨ c = 13))
  rwa [List.length_reverse] at this

/-! ### Bounds -/

theorem dataLoop_bound (b : List Nat) {m : Nat} : ∀ fuel {acc : List Nat} (inp : List Nat), acc.length < m →
    (dataLoop b m fuel acc inp).1.length < m ∧ ∃ u, inp = u ++ (dataLoop b m fuel acc inp).2
  | 0, acc, inp, h => ⟨h, [], rfl⟩
  | fuel + 1, acc, inp, h => by
    rw [dataLoop]
    split
    · rename_i hlt
      unfold fgets
      split_ifs with hi
      · exact ⟨h, [], rfl⟩
      · have h1 := takeLine_append (m - acc.length - 1) inp
        have h2 := takeLine_length (m - acc.length - 1) inp
        generalize takeLine (m - acc.length - 1) inp = x at *
        obtain ⟨l, r⟩ := x
        simp only at h1 h2 ⊢
        split
        · exact ⟨h, l, h1.symm⟩
        · have h3 := cstr_length l
          obtain ⟨h4, u, h5⟩ := dataLoop_bound b (m := m) fuel (acc := acc ++ cstr l) r (by simp; omega)
          refine ⟨h4, l ++ u, ?_⟩
          rw [← h1, List.append_assoc, ← h5]
    · exact ⟨h, [], rfl⟩

theorem quoted_length {s x : List Nat} (h : quoted s = some x) : x.length < s.length := by
  unfold quoted at h
  split at h
  · rename_i hm
    cases h
    have := List.takeWhile_append_dropWhile (p := fun c => decide (c ≠ 34)) (l := s)
    have hd : s.dropWhile (fun c => decide (c ≠ 34)) ≠ [] := by
      intro h0
      rw [h0, List.append_nil] at this
      rw [← this] at hm
      have := List.mem_takeWhile_imp hm
      simp at this
    have hl := congrArg List.length this
    rw [List.length_append] at hl
    have := List.length_pos_iff.2 hd
    omega
  · cases h

theorem findSub_suffix {p s t : List Nat} (h : findSub p s = some t) : t <:+ s := by
  induction s with
  | nil =>
    unfold findSub at h
    split at h
    · cases h; exact List.suffix_refl _
    · cases h
  | cons c s ih =>
    unfold findSub at h
    split at h
    · cases h; exact List.suffix_refl _
    · exact (ih h).trans (List.suffix_cons c s)

/-- **C89.** Nothing is stored outside `buff`, whatever is read; the texts for the name and the file name are shorter than `max_len`,
    but that is all that can be said of them. -/
theorem C89_bounds (boundary : List Nat) {m : Nat} (hm : 0 < m) (inp : List Nat) :
    (∀ x ∈ (getPart boundary m inp).buff, x.length < m) ∧ (∀ x ∈ (getPart boundary m inp).field, x.length + 7 < m) ∧
      (getPart boundary m inp).filename.length < m ∧ ∃ u, inp = u ++ (getPart boundary m inp).rest := by
  unfold getPart fgets
  by_cases hi : inp = []
  · rw [if_pos hi]
    exact ⟨by simp, by simp, by simpa using hm, [], rfl⟩
  rw [if_neg hi]
  have h1 := takeLine_append (m - 1) inp
  have h2 := takeLine_length (m - 1) inp
  generalize takeLine (m - 1) inp = x at *
  obtain ⟨l, r⟩ := x
  simp only at h1 h2 ⊢
  have h3 := cstr_length l
  cases hf : findSub (bytes "name=\"") (cstr l) with
  | none =>
    refine ⟨?_, by simp, by simpa using hm, l, h1.symm⟩
    simp
    omega
  | some t =>
    simp only
    have ht := (findSub_suffix hf).length_le
    cases hq : quoted (t.drop 6) with
    | none =>
      refine ⟨?_, by simp, by simpa using hm, l, h1.symm⟩
      simp
      omega
    | some name =>
      have hn := quoted_length hq
      rw [List.length_drop] at hn
      simp only
      by_cases a1 : (cstr l).length = m - 1
      · rw [if_pos a1]
        refine ⟨?_, by simp, by simpa using hm, l, h1.symm⟩
        simp
        omega
      rw [if_neg a1]
      have hfl : (fileOf t).length < m := by
        unfold fileOf
        cases hf2 : findSub (bytes "filename=\"") t with
        | none => simpa using hm
        | some f =>
          simp only
          cases hq2 : quoted (f.drop 10) with
          | none => simpa using hm
          | some y =>
            have := quoted_length hq2
            have hy := (findSub_suffix hf2).length_le
            rw [List.length_drop] at this
            simp only [Option.getD_some]
            omega
      have hname : ∀ x ∈ some name, x.length + 7 < m := by
        simp
        omega
      by_cases hr : r = []
      · rw [if_pos hr]
        refine ⟨by simpa using hm, hname, hfl, l, h1.symm⟩
      rw [if_neg hr]
      have g1 := takeLine_append (m - 1) r
      have g2 := takeLine_length (m - 1) r
      generalize takeLine (m - 1) r = x at *
      obtain ⟨l2, r2⟩ := x
      simp only at g1 g2 ⊢
      have g3 := cstr_length l2
      by_cases a2 : (cstr l2).length = m - 1
      · rw [if_pos a2]
        refine ⟨?_, hname, hfl, l ++ l2, by rw [← h1, ← g1, List.append_assoc]⟩
        simp
        omega
      · rw [if_neg a2]
        obtain ⟨g4, u, g5⟩ := dataLoop_bound (boundaryOf boundary) (m := m) (r2.length + 1) (acc := []) r2 (by simpa using hm)
        refine ⟨?_, hname, hfl, l ++ (l2 ++ u), ?_⟩
        · simp only [Option.mem_def, Option.some.injEq, forall_eq']
          have := stripEnd_length (dataLoop (boundaryOf boundary) m (r2.length + 1) [] r2).1
          omega
        · simp only [List.append_assoc, ← g5, g1, h1]

/-- **C89.** Every call reads something, so that the loop over the fields comes to an end. -/
theorem C89_consumes (boundary : List Nat) {m : Nat} (hm : 2 ≤ m) {inp : List Nat} (h : inp ≠ []) :
    (getPart boundary m inp).rest.length < inp.length := by
  have hpos := takeLine_pos (n := m - 1) (by omega) h
  have h1 := takeLine_append (m - 1) inp
  have key : ∀ r : List Nat, r.length ≤ (takeLine (m - 1) inp).2.length → r.length < inp.length := by
    intro r hr
    have := congrArg List.length h1
    rw [List.length_append] at this
    omega
  unfold getPart fgets
  rw [if_neg h]
  generalize takeLine (m - 1) inp = x at *
  obtain ⟨l, r⟩ := x
  simp only
  cases hf : findSub (bytes "name=\"") (cstr l) with
  | none => exact key r (le_refl _)
  | some t =>
    simp only
    cases hq : quoted (t.drop 6) with
    | none => exact key r (le_refl _)
    | some name =>
      simp only
      by_cases a1 : (cstr l).length = m - 1
      · rw [if_pos a1]; exact key r (le_refl _)
      rw [if_neg a1]
      by_cases hr : r = []
      · rw [if_pos hr]; exact key r (le_refl _)
      rw [if_neg hr]
      have g1 := congrArg List.length (takeLine_append (m - 1) r)
      generalize takeLine (m - 1) r = x at *
      obtain ⟨l2, r2⟩ := x
      rw [List.length_append] at g1
      simp only at g1 ⊢
      by_cases a2 : (cstr l2).length = m - 1
      · rw [if_pos a2]
        exact key r2 (by simp only; omega)
      · rw [if_neg a2]
        obtain ⟨-, u, g5⟩ := dataLoop_bound (boundaryOf boundary) (m := m) (r2.length + 1) (acc := []) r2 (by simp; omega)
        refine key _ ?_
        have := congrArg List.length g5
        rw [List.length_append] at this
        simp only
        omega

/-! ### Values -/

/-- Whole lines without NUL, none of which begins with `b`. -/
inductive Lines (b : List Nat) : List Nat → Prop
  | nil : Lines b []
  | cons {l s : List Nat} : (∀ c ∈ l, c ≠ 10 ∧ c ≠ 0) → ¬ b <+: l ++ [10] → Lines b s → Lines b (l ++ 10 :: s)

theorem lines_of {b : List Nat} (hb : ∀ c ∈ b, c ≠ 10) : ∀ n {s : List Nat}, s.length ≤ n → 0 ∉ s → NoLine b s → s = [] ∨ s.getLast? = some 10 → Lines b s
  | n, [], _, _, _, _ => .nil
  | 0, _ :: _, h, _, _, _ => by simp at h
  | n + 1, c :: s, hn, h0, hl, he => by
    have he : (c :: s).getLast? = some 10 := by simpa using he
    have hm : 10 ∈ c :: s := List.mem_of_getLast? he
    have hsp := List.takeWhile_append_dropWhile (p := fun c => decide (c ≠ 10)) (l := c :: s)
    generalize hl' : (c :: s).takeWhile (fun c => decide (c ≠ 10)) = l at hsp
    have hl10 : ∀ x ∈ l, x ≠ 10 := by
      intro x hx
      rw [← hl'] at hx
      simpa using List.mem_takeWhile_imp hx
    cases hd : (c :: s).dropWhile (fun c => decide (c ≠ 10)) with
    | nil =>
      rw [hd, List.append_nil] at hsp
      rw [← hsp] at hm
      exact absurd rfl (hl10 10 hm)
    | cons x t =>
      have hx : x = 10 := by
        have := List.head?_dropWhile_not (fun c => decide (c ≠ 10)) (c :: s)
        rw [hd] at this
        simpa using this
      subst hx
      rw [hd] at hsp
      rw [← hsp] at h0 hl he hn ⊢
      refine .cons (fun x hx => ⟨hl10 x hx, ?_⟩) ?_ (lines_of hb n ?_ ?_ ?_ ?_)
      · rintro rfl
        exact h0 (by simp [hx])
      · rintro ⟨y, hy⟩
        refine hl [] (l ++ 10 :: t) rfl (.inl rfl) ⟨y ++ t, ?_⟩
        rw [← List.append_assoc, hy]
        simp
      · simp at hn ⊢
        omega
      · intro h
        exact h0 (by simp [h])
      · intro a t' hat ha
        refine hl (l ++ 10 :: a) t' (by simp [hat]) (.inr ?_)
        rcases ha with rfl | ha
        · simp
        · obtain ⟨y, ys, rfl⟩ := List.exists_cons_of_ne_nil (l := a) (by rintro rfl; simp at ha)
          rw [List.getLast?_append_of_ne_nil _ (by simp), List.getLast?_cons_cons]
          exact ha
      · cases t with
        | nil => exact .inl rfl
        | cons y ys =>
          right
          rw [List.getLast?_append_of_ne_nil _ (by simp), List.getLast?_cons_cons] at he
          exact he

/-- Reading the lines of a value, and the boundary after it. -/
theorem dataLoop_lines {b : List Nat} {m : Nat} {s : List Nat} (hs : Lines b s) : ∀ {fuel : Nat} {acc : List Nat} {after : List Nat} (rest : List Nat),
    (∀ c ∈ b ++ after, c ≠ 10) → (acc ++ s ++ b ++ after).length + 1 < m → s.length < fuel →
    dataLoop b m fuel acc (s ++ (b ++ (after ++ 10 :: rest))) = (acc ++ s, rest) := by
  induction hs with
  | nil =>
    intro fuel acc after rest ha hlen hf
    obtain ⟨fuel, rfl⟩ : ∃ j, fuel = j + 1 := ⟨fuel - 1, by omega⟩
    simp only [List.length_append, List.length_nil] at hlen
    have := fgets_one (n := m - acc.length) ha (by simp; omega) rest
    rw [List.append_assoc] at this
    rw [List.nil_append, dataLoop, if_pos (by omega), this]
    simp only
    rw [if_pos, List.append_nil]
    rw [List.isPrefixOf_iff_prefix]
    exact ⟨after ++ [10], by simp⟩
  | @cons l s h hb _ ih =>
    intro fuel acc after rest ha hlen hf
    obtain ⟨fuel, rfl⟩ : ∃ j, fuel = j + 1 := ⟨fuel - 1, by omega⟩
    simp only [List.length_append, List.length_cons] at hlen hf
    have := fgets_one (n := m - acc.length) (fun c hc => (h c hc).1) (by omega) (s ++ (b ++ (after ++ 10 :: rest)))
    rw [List.append_assoc, List.cons_append, dataLoop, if_pos (by omega), this]
    simp only
    rw [if_neg (by rw [List.isPrefixOf_iff_prefix]; exact hb), cstr_id (by
      intro h0
      rcases List.mem_append.1 h0 with h0 | h0
      · exact (h 0 h0).2 rfl
      · simp at h0), ih rest ha (by simp; omega) (by omega)]
    simp

theorem find_name (r : List Nat) : findSub (bytes "name=\"") (bytes "Content-Disposition: form-data; name=\"" ++ r) = some (bytes "name=\"" ++ r) := rfl

theorem quoted_name {s : List Nat} (h : 34 ∉ s) (r : List Nat) : quoted (s ++ 34 :: r) = some s := by
  unfold quoted
  rw [if_pos (by simp)]
  congr 1
  rw [List.takeWhile_append_of_pos]
  · simp
  · intro c hc
    simp only [ne_eq, decide_eq_true_eq]
    rintro rfl
    exact h hc

theorem find_file {s : List Nat} (h : 34 ∉ s) (hf : ¬ bytes "filename=" <:+ s) (r : List Nat) :
    findSub (bytes "filename=\"") (s ++ 34 :: r) = findSub (bytes "filename=\"") r := by
  induction s with
  | nil => rfl
  | cons c s ih =>
    rw [List.cons_append, findSub, if_neg, ih (by simp at h; exact h.2) (fun h' => hf (h'.trans (List.suffix_cons _ _)))]
    rw [List.isPrefixOf_iff_prefix]
    rintro ⟨x, hx⟩
    have h1 : quoted (bytes "filename=" ++ 34 :: x) = some (bytes "filename=") := quoted_name (by decide) x
    have h2 : quoted ((c :: s) ++ 34 :: r) = some (c :: s) := quoted_name h r
    rw [show bytes "filename=" ++ 34 :: x = bytes "filename=\"" ++ x from rfl, hx, ← List.cons_append, h2] at h1
    apply hf
    rw [Option.some.inj h1]
    exact List.suffix_refl _

theorem stripEnd_eq {x e : List Nat} (he : ∀ c ∈ e, c = 10 ∨ c = 13) (hx : ∀ c ∈ x.getLast?, c ≠ 10 ∧ c ≠ 13) : stripEnd (x ++ e) = x := by
  unfold stripEnd
  rw [List.reverse_append, List.dropWhile_append_of_pos]
  · have : x.reverse.dropWhile (fun c => decide (c = 10 ∨ c = 13)) = x.reverse := by
      rw [← List.head?_reverse] at hx
      cases hr : x.reverse with
      | nil => rfl
      | cons c y =>
        rw [hr] at hx
        have := hx c rfl
        rw [List.dropWhile_cons_of_neg]
        simp
        omega
    rw [this, List.reverse_reverse]
  · intro c hc
    simpa using he c (by simpa using hc)

/-- The name of a part. -/
structure NameOk (s : List Nat) : Prop where
  quote : 34 ∉ s
  line : ∀ c ∈ s, c ≠ 10
  zero : 0 ∉ s

theorem part_run {boundary b : List Nat} {m : Nat} (p : Part) (hb : boundaryOf boundary = b) (hn : NameOk p.name) (hne : ¬ bytes "filename=" <:+ p.name)
    (hf : ∀ f ∈ p.file, NameOk f) (hlen : p.disposition.length < m - 1) {l : List Nat} (hl : ∀ c ∈ l, c ≠ 10 ∧ c ≠ 0) (hl' : l.length + 1 < m - 1)
    (rest : List Nat) : getPart boundary m (p.disposition ++ (l ++ 10 :: rest)) =
      ⟨(stripEnd (dataLoop b m (rest.length + 1) [] rest).1).length, some p.name, p.file.getD [],
        some (stripEnd (dataLoop b m (rest.length + 1) [] rest).1), (dataLoop b m (rest.length + 1) [] rest).2⟩ := by
  obtain ⟨d, hd, hd10, hd0⟩ : ∃ d, p.disposition = d ++ [10] ∧ (∀ c ∈ d, c ≠ 10) ∧ 0 ∉ d := by
    have hlit : (∀ c ∈ bytes "Content-Disposition: form-data; name=\"", c ≠ 10 ∧ c ≠ 0) ∧ ∀ c ∈ bytes "; filename=\"", c ≠ 10 ∧ c ≠ 0 := by decide
    unfold Part.disposition
    cases hpf : p.file with
    | none =>
      refine ⟨bytes "Content-Disposition: form-data; name=\"" ++ (p.name ++ [34, 13]), by simp [crlf], ?_, ?_⟩
      · intro c hc
        rcases List.mem_append.1 hc with hc | hc
        · exact (hlit.1 c hc).1
        · rcases List.mem_append.1 hc with hc | hc
          · exact hn.line c hc
          · simp at hc; omega
      · intro hc
        rcases List.mem_append.1 hc with hc | hc
        · exact (hlit.1 0 hc).2 rfl
        · rcases List.mem_append.1 hc with hc | hc
          · exact hn.zero hc
          · simp at hc
    | some f =>
      have hff := hf f (by rw [hpf]; rfl)
      refine ⟨bytes "Content-Disposition: form-data; name=\"" ++ (p.name ++ 34 :: (bytes "; filename=\"" ++ (f ++ [34, 13]))), by simp [crlf], ?_, ?_⟩
      · intro c hc
        rcases List.mem_append.1 hc with hc | hc
        · exact (hlit.1 c hc).1
        rcases List.mem_append.1 hc with hc | hc
        · exact hn.line c hc
        rcases List.mem_cons.1 hc with rfl | hc
        · omega
        rcases List.mem_append.1 hc with hc | hc
        · exact (hlit.2 c hc).1
        rcases List.mem_append.1 hc with hc | hc
        · exact hff.line c hc
        · simp at hc; omega
      · intro hc
        rcases List.mem_append.1 hc with hc | hc
        · exact (hlit.1 0 hc).2 rfl
        rcases List.mem_append.1 hc with hc | hc
        · exact hn.zero hc
        rcases List.mem_cons.1 hc with hc | hc
        · omega
        rcases List.mem_append.1 hc with hc | hc
        · exact (hlit.2 0 hc).2 rfl
        rcases List.mem_append.1 hc with hc | hc
        · exact hff.zero hc
        · simp at hc
  have hdl := congrArg List.length hd
  rw [List.length_append, List.length_singleton] at hdl
  have f1 : fgets m (p.disposition ++ (l ++ 10 :: rest)) = some (p.disposition, l ++ 10 :: rest) := by
    have := fgets_one (n := m) hd10 (by omega) (l ++ 10 :: rest)
    rw [hd, List.append_assoc]
    exact this
  have f2 : fgets m (l ++ 10 :: rest) = some (l ++ [10], rest) := fgets_one (fun c hc => (hl c hc).1) (by omega) rest
  have c1 : cstr p.disposition = p.disposition := cstr_id (by rw [hd]; simp [hd0])
  have c2 : cstr (l ++ [10]) = l ++ [10] := cstr_id (by
    intro h
    rcases List.mem_append.1 h with h | h
    · exact (hl 0 h).2 rfl
    · simp at h)
  unfold getPart
  rw [f1]
  simp only [c1, c2, f2]
  obtain ⟨z, hz⟩ : ∃ z, p.disposition = bytes "Content-Disposition: form-data; name=\"" ++ (p.name ++ 34 :: z) := ⟨_, rfl⟩
  have hfile : fileOf (bytes "name=\"" ++ (p.name ++ 34 :: z)) = p.file.getD [] := by
    have h1 : findSub (bytes "filename=\"") (bytes "name=\"" ++ (p.name ++ 34 :: z)) = findSub (bytes "filename=\"") z := by
      rw [show bytes "name=\"" ++ (p.name ++ 34 :: z) = bytes "name=" ++ 34 :: (p.name ++ 34 :: z) from rfl,
        find_file (by decide) (by decide), find_file hn.quote hne]
    unfold fileOf
    rw [h1]
    unfold Part.disposition at hz
    have hz' := List.cons.inj (List.append_cancel_left (List.append_cancel_left hz))
    rw [← hz'.2]
    cases hpf : p.file with
    | none => rfl
    | some f =>
      simp only
      have h2 : findSub (bytes "filename=\"") (bytes "; filename=\"" ++ (f ++ 34 :: crlf)) = some (bytes "filename=\"" ++ (f ++ 34 :: crlf)) := rfl
      rw [h2]
      simp only
      rw [show (bytes "filename=\"" ++ (f ++ 34 :: crlf)).drop 10 = f ++ 34 :: crlf from rfl, quoted_name (hf f (by rw [hpf]; rfl)).quote]
  have g1 : findSub (bytes "name=\"") p.disposition = some (bytes "name=\"" ++ (p.name ++ 34 :: z)) := by rw [hz, find_name]
  rw [g1]
  simp only
  rw [show (bytes "name=\"" ++ (p.name ++ 34 :: z)).drop 6 = p.name ++ 34 :: z from rfl, quoted_name hn.quote]
  simp only
  rw [if_neg (by omega), if_neg (by simp; omega), hfile, hb]

/-- A part that the reader with a buffer of `m` bytes can take: the line with the name fits; there is no NUL; no line of the value
    begins with the boundary; value and boundary line (`after` is its end) fit together. -/
structure Fit (b : List Nat) (m : Nat) (p : Part) (after : List Nat) : Prop where
  name : NameOk p.name
  notFile : ¬ bytes "filename=" <:+ p.name
  file : ∀ f ∈ p.file, NameOk f
  line : p.disposition.length < m - 1
  zero : 0 ∉ p.value
  lines : NoLine b (p.value ++ crlf)
  room : p.value.length + b.length + after.length + 3 < m
  after : ∀ c ∈ after, c ≠ 10
  boundary : ∀ c ∈ b, 32 ≤ c ∧ c < 128

theorem Fit.bound {b after : List Nat} {m : Nat} {p : Part} (h : Fit b m p after) : ∀ c ∈ b ++ after, c ≠ 10 := by
  intro c hc
  rcases List.mem_append.1 hc with hc | hc
  · have := h.boundary c hc
    omega
  · exact h.after c hc

theorem Fit.value_lines {b after : List Nat} {m : Nat} {p : Part} (h : Fit b m p after) : Lines b (p.value ++ crlf) :=
  lines_of (fun c hc => by have := h.boundary c hc; omega) _ (le_refl _) (by
    intro h0
    rcases List.mem_append.1 h0 with h0 | h0
    · exact h.zero h0
    · simp [crlf] at h0) h.lines (.inr (by
    rw [List.getLast?_append_of_ne_nil _ (by simp [crlf])]
    rfl))

/-- **C89.** A field: name, file name and value are stored, the value without line ends after it, and reading goes on after the boundary. -/
theorem C89_field {boundary b : List Nat} {m : Nat} {p : Part} {after : List Nat} (hb : boundaryOf boundary = b) (h : Fit b m p after)
    (hm : p.more = []) {x e : List Nat} (hv : p.value = x ++ e) (he : ∀ c ∈ e, c = 10 ∨ c = 13) (hx : ∀ c ∈ x.getLast?, c ≠ 10 ∧ c ≠ 13)
    (rest : List Nat) :
    getPart boundary m (p.text ++ (b ++ (after ++ 10 :: rest))) = ⟨x.length, some p.name, p.file.getD [], some x, rest⟩ := by
  have hroom := h.room
  have hd := dataLoop_lines (m := m) h.value_lines (fuel := ((p.value ++ crlf) ++ (b ++ (after ++ 10 :: rest))).length + 1) (acc := []) (after := after) rest
    h.bound (by simp [crlf]; omega) (by simp; omega)
  have hr := part_run (boundary := boundary) p hb h.name h.notFile h.file h.line (l := [13]) (by simp) (by simp; omega)
    ((p.value ++ crlf) ++ (b ++ (after ++ 10 :: rest)))
  have ht : p.text ++ (b ++ (after ++ 10 :: rest)) = p.disposition ++ ([13] ++ 10 :: ((p.value ++ crlf) ++ (b ++ (after ++ 10 :: rest)))) := by
    unfold Part.text
    rw [hm]
    simp [crlf]
  rw [ht, hr, hd]
  have hs : stripEnd ([] ++ (p.value ++ crlf)) = x := by
    rw [List.nil_append, hv, List.append_assoc]
    refine stripEnd_eq ?_ hx
    intro c hc
    rcases List.mem_append.1 hc with hc | hc
    · exact he c hc
    · simp [crlf] at hc
      omega
  rw [hs]

theorem Fit.mono {b : List Nat} {m : Nat} {p : Part} (h : Fit b m p (bytes "--" ++ [13])) : Fit b m p [13] := by
  have := h.room
  exact { h with
    room := by
      simp [show (bytes "--") = [45, 45] by decide] at this ⊢
      omega
    after := by simp }

/-- **C89.** A whole form: all fields, in order, and no more. -/
theorem C89_form {boundary b : List Nat} {m : Nat} (hb : boundaryOf boundary = b) {ps : List Part} {text : List Nat} (h : Form b ps text)
    (hok : ∀ p ∈ ps, Fit b m p (bytes "--" ++ [13]) ∧ p.more = [] ∧ ∀ c ∈ p.value.getLast?, c ≠ 10 ∧ c ≠ 13) :
    ∀ {n : Nat}, ps.length < n → ∀ u, readFields m n ⟨.putMultipart, u, boundary, text⟩ = ps.map fun p => (p.name, p.value) := by
  induction h with
  | @last p =>
    intro n hn u
    obtain ⟨n, rfl⟩ : ∃ j, n = j + 2 := ⟨n - 2, by simp at hn; omega⟩
    obtain ⟨h1, h2, h3⟩ := hok p (by simp)
    have := C89_field hb h1 h2 (x := p.value) (e := []) (by simp) (by simp) h3 []
    rw [List.append_assoc, show [13] ++ [10] = crlf from rfl] at this
    rw [readFields, getData]
    simp only [this]
    rw [if_pos (by split <;> omega)]
    rw [readFields, getData]
    simp [getPart, fgets]
  | @cons p rest ps _ ih =>
    intro n hn u
    obtain ⟨n, rfl⟩ : ∃ j, n = j + 1 := ⟨n - 1, by omega⟩
    obtain ⟨h1, h2, h3⟩ := hok p (by simp)
    have := C89_field hb h1.mono h2 (x := p.value) (e := []) (by simp) (by simp) h3 rest
    rw [show ([13] : List Nat) ++ 10 :: rest = crlf ++ rest from rfl] at this
    rw [readFields, getData]
    simp only [this]
    rw [if_pos (by split <;> omega), ih (fun q hq => hok q (by simp [hq])) (by simp at hn; omega) u]
    rfl

/-- **C89.** From the first byte of the standard input on, with what the server says about it. -/
theorem C89_request {b t text : List Nat} {m n : Nat} (hb : ∀ c ∈ b, 32 ≤ c ∧ c < 128) {ps : List Part} (h : Form b ps text)
    (hok : ∀ p ∈ ps, Fit b m p (bytes "--" ++ [13]) ∧ p.more = [] ∧ ∀ c ∈ p.value.getLast?, c ≠ 10 ∧ c ≠ 13) (hn : ps.length < n) :
    ∃ r, start ⟨none, some (bytes "multipart/form-data;" ++ t), some (b ++ (crlf ++ text)).length⟩ (b ++ (crlf ++ text)) = .ok (.ok r) ∧
      readFields m n r = ps.map fun p => (p.name, p.value) := by
  have hlen : (b ++ (crlf ++ text)).length = b.length + text.length + 2 := by simp [crlf]; omega
  have hf : fgets ((b ++ (crlf ++ text)).length + 1) (b ++ (crlf ++ text)) = some (b ++ [13] ++ [10], text) := by
    have := fgets_one (n := (b ++ (crlf ++ text)).length + 1) (l := b ++ [13]) (by
      intro c hc
      rcases List.mem_append.1 hc with hc | hc
      · have := hb c hc; omega
      · simp at hc; omega) (by rw [hlen]; simp; omega) text
    rw [List.append_assoc] at this
    exact this
  have hz : cstr (b ++ [13] ++ [10]) = b ++ [13] ++ [10] := cstr_id (by
    intro h0
    simp at h0
    have := hb 0 h0
    omega)
  have hbo : boundaryOf (b ++ [13] ++ [10]) = b := by
    unfold boundaryOf
    rw [List.append_assoc, List.takeWhile_append_of_pos]
    · simp
    · intro c hc
      simpa using hb c hc
  refine ⟨⟨.putMultipart, [], b ++ [13] ++ [10], text⟩, ?_, C89_form hbo h hok hn []⟩
  have hn0 : (b ++ (crlf ++ text)).length = (b.length + text.length + 1) + 1 := by omega
  unfold start
  have h1 : (bytes "application/x-www-form-urlencoded").isPrefixOf (bytes "multipart/form-data;" ++ t) = false := rfl
  have h2 : (bytes "multipart/form-data;").isPrefixOf (bytes "multipart/form-data;" ++ t) = true := by
    rw [List.isPrefixOf_iff_prefix]
    exact List.prefix_append _ _
  rw [hn0] at hf ⊢
  simp only [h1, h2, hf, hz, if_true, Bool.false_eq_true, if_false, reduceCtorEq]

theorem noLine_of {b s : List Nat} (h : ∀ i ≤ s.length, i = 0 ∨ s[i - 1]? = some 10 → ¬ b <+: s.drop i) : NoLine b s := by
  intro a t hs ha
  have := h a.length (by rw [hs]; simp) (by
    rcases ha with rfl | ha
    · exact .inl rfl
    · right
      have hne : a ≠ [] := by rintro rfl; simp at ha
      have := List.length_pos_iff.2 hne
      rw [hs, List.getElem?_append_left (by omega), ← List.getLast?_eq_getElem?]
      exact ha)
  rwa [hs, List.drop_left] at this

/-- A form with two fields meets the hypotheses. -/
example : ∃ r, start ⟨none, some (bytes "multipart/form-data;" ++ bytes " boundary=xyz"), some 127⟩
    (bytes "--xyz" ++ (crlf ++ ((⟨bytes "a", none, [], bytes "1"⟩ : Part).text ++ (bytes "--xyz" ++ (crlf ++
      ((⟨bytes "b", none, [], bytes "x\ny"⟩ : Part).text ++ (bytes "--xyz" ++ (bytes "--" ++ crlf)))))))) = .ok (.ok r) ∧
      readFields 80 9 r = [(bytes "a", bytes "1"), (bytes "b", bytes "x\ny")] := by
  refine C89_request (b := bytes "--xyz") (ps := [⟨bytes "a", none, [], bytes "1"⟩, ⟨bytes "b", none, [], bytes "x\ny"⟩]) (by decide) (.cons .last) ?_ (by decide)
  intro p hp
  rcases List.mem_cons.1 hp with rfl | hp
  · exact ⟨⟨⟨by decide, by decide, by decide⟩, by decide, by simp, by decide, by decide, noLine_of (by decide), by decide, by decide, by decide⟩, rfl, by decide⟩
  · rw [List.mem_singleton.1 hp]
    exact ⟨⟨⟨by decide, by decide, by decide⟩, by decide, by simp, by decide, by decide, noLine_of (by decide), by decide, by decide, by decide⟩, rfl, by decide⟩

/-! ### Where it goes wrong -/

/-- **Finding** (C89): a file comes with a line that tells its type, and the empty line after that becomes part of the value. -/
theorem C89_file {boundary b : List Nat} {m : Nat} {p : Part} {after h : List Nat} (hb : boundaryOf boundary = b)
    (hf : Fit b m { p with value := crlf ++ p.value } after) (hm : p.more = [h]) (hh : ∀ c ∈ h, c ≠ 10 ∧ c ≠ 0) (hl : h.length + 2 < m - 1)
    (hx : ∃ c, p.value.getLast? = some c ∧ c ≠ 10 ∧ c ≠ 13) (rest : List Nat) :
    getPart boundary m (p.text ++ (b ++ (after ++ 10 :: rest))) =
      ⟨p.value.length + 2, some p.name, p.file.getD [], some (crlf ++ p.value), rest⟩ := by
  have hroom := hf.room
  have hd := dataLoop_lines (m := m) hf.value_lines (fuel := ((crlf ++ p.value ++ crlf) ++ (b ++ (after ++ 10 :: rest))).length + 1) (acc := [])
    (after := after) rest hf.bound (by simp [crlf] at hroom ⊢; omega) (by simp; omega)
  have hr := part_run (boundary := boundary) p hb hf.name hf.notFile hf.file hf.line (l := h ++ [13]) (by
      intro c hc
      rcases List.mem_append.1 hc with hc | hc
      · exact hh c hc
      · simp at hc; omega) (by simp; omega)
    ((crlf ++ p.value ++ crlf) ++ (b ++ (after ++ 10 :: rest)))
  have ht : p.text ++ (b ++ (after ++ 10 :: rest)) = p.disposition ++ ((h ++ [13]) ++ 10 :: ((crlf ++ p.value ++ crlf) ++ (b ++ (after ++ 10 :: rest)))) := by
    unfold Part.text
    rw [hm]
    simp [crlf]
  rw [ht, hr, hd]
  have hs : stripEnd ([] ++ (crlf ++ p.value ++ crlf)) = crlf ++ p.value := by
    rw [List.nil_append]
    refine stripEnd_eq (by simp [crlf]) ?_
    obtain ⟨c, h1, h2⟩ := hx
    rw [List.getLast?_append_of_ne_nil _ (by rintro h0; rw [h0] at h1; cases h1), h1]
    intro c' hc'
    cases hc'
    exact h2
  rw [hs]
  simp [crlf]
  omega

/-- **Finding** (C89): a name of any length is stored; the callers' `field` has 30 bytes. -/
theorem C89_long_name (boundary : List Nat) (n : Nat) : ∃ inp, (getPart boundary (n + 50) inp).field = some (List.replicate n 97) := by
  have hp := part_run (boundary := boundary) (m := n + 50) ⟨List.replicate n 97, none, [], []⟩ rfl
    ⟨by simp, by simp, by simp⟩ (by
      intro h
      have := h.subset (a := 61) (by decide)
      simp at this) (by simp) (by
      unfold Part.disposition
      simp [crlf, show (bytes "Content-Disposition: form-data; name=\"").length = 38 from rfl]
      omega) (l := [13]) (by simp) (by simp) []
  exact ⟨_, by rw [hp]⟩

theorem takeLine_cut {n : Nat} {s : List Nat} (h : ∀ c ∈ s.take n, c ≠ 10) : takeLine n s = (s.take n, s.drop n) := by
  induction n generalizing s with
  | zero => rfl
  | succ n ih =>
    cases s with
    | nil => rfl
    | cons c s =>
      rw [takeLine, if_neg (h c (by simp)), ih (fun c hc => h c (by simp [hc]))]
      rfl

theorem stripEnd_self {s : List Nat} (h : ∀ c ∈ s, 32 ≤ c) : stripEnd s = s := by
  have := stripEnd_eq (x := s) (e := []) (by simp) (by
    intro c hc
    have := h c (List.mem_of_getLast? hc)
    omega)
  rwa [List.append_nil] at this

/-- **Finding** (C89): a value that does not fit is cut without any error, and reading goes on in the midst of it. -/
theorem C89_cut {boundary b : List Nat} {m : Nat} {p : Part} (hb : boundaryOf boundary = b) (hn : NameOk p.name) (hne : ¬ bytes "filename=" <:+ p.name)
    (hf : ∀ f ∈ p.file, NameOk f) (hlen : p.disposition.length < m - 1) (hm : p.more = []) (hv : ∀ c ∈ p.value, 32 ≤ c)
    (hbp : ¬ b <+: p.value) (hl : m - 1 ≤ p.value.length) (rest : List Nat) :
    getPart boundary m (p.text ++ rest) =
      ⟨(m - 1 : Nat), some p.name, p.file.getD [], some (p.value.take (m - 1)), p.value.drop (m - 1) ++ (crlf ++ rest)⟩ := by
  have hr := part_run (boundary := boundary) p hb hn hne hf hlen (l := [13]) (by simp) (by
      unfold Part.disposition at hlen
      simp [show (bytes "Content-Disposition: form-data; name=\"").length = 38 from rfl] at hlen ⊢
      omega)
    (p.value ++ (crlf ++ rest))
  have ht : p.text ++ rest = p.disposition ++ ([13] ++ 10 :: (p.value ++ (crlf ++ rest))) := by
    unfold Part.text
    rw [hm]
    simp [crlf]
  have h0 : 0 ∉ p.value.take (m - 1) := fun h => by have := hv 0 (List.mem_of_mem_take h); omega
  have htk : (p.value ++ (crlf ++ rest)).take (m - 1) = p.value.take (m - 1) := List.take_append_of_le_length hl
  have hd : dataLoop b m ((p.value ++ (crlf ++ rest)).length + 1) [] (p.value ++ (crlf ++ rest)) =
      (p.value.take (m - 1), p.value.drop (m - 1) ++ (crlf ++ rest)) := by
    obtain ⟨k, hk⟩ : ∃ k, (p.value ++ (crlf ++ rest)).length = k + 1 := ⟨_, by simp [crlf]; rfl⟩
    rw [hk, dataLoop, if_pos (by simp; omega), fgets, if_neg (by simp [crlf])]
    simp only [List.length_nil, Nat.sub_zero]
    rw [takeLine_cut (by
      rw [htk]
      intro c hc
      have := hv c (List.mem_of_mem_take hc)
      omega), htk]
    simp only
    rw [if_neg (by
      rw [List.isPrefixOf_iff_prefix]
      exact fun h => hbp (h.trans (List.take_prefix _ _))), cstr_id h0, List.nil_append, dataLoop, if_neg (by simp; omega),
      List.drop_append_of_le_length hl]
  rw [ht, hr, hd]
  simp only
  rw [stripEnd_self (fun c hc => hv c (List.mem_of_mem_take hc))]
  simp
  omega

/-- **Finding** (C89): when the value fits but the boundary after it does not, part of the boundary becomes part of the value. -/
theorem C89_boundary_kept {boundary b : List Nat} {m : Nat} {p : Part} (hb : boundaryOf boundary = b) (hn : NameOk p.name)
    (hne : ¬ bytes "filename=" <:+ p.name) (hf : ∀ f ∈ p.file, NameOk f) (hlen : p.disposition.length < m - 1) (hm : p.more = [])
    (hv : ∀ c ∈ p.value, 32 ≤ c) (hbc : ∀ c ∈ b, 32 ≤ c) (hbp : ¬ b <+: p.value ++ crlf) (hl : p.value.length + 2 < m - 1)
    (hl' : m - 1 < p.value.length + 2 + b.length) (rest : List Nat) :
    (getPart boundary m (p.text ++ (b ++ rest))).buff = some (p.value ++ crlf ++ b.take (m - 1 - (p.value.length + 2))) := by
  have hr := part_run (boundary := boundary) p hb hn hne hf hlen (l := [13]) (by simp) (by simp; omega)
    ((p.value ++ [13]) ++ 10 :: (b ++ rest))
  have ht : p.text ++ (b ++ rest) = p.disposition ++ ([13] ++ 10 :: ((p.value ++ [13]) ++ 10 :: (b ++ rest))) := by
    unfold Part.text
    rw [hm]
    simp [crlf]
  have htk : (b ++ rest).take (m - 1 - (p.value.length + 2)) = b.take (m - 1 - (p.value.length + 2)) := List.take_append_of_le_length (by omega)
  have hd : (dataLoop b m (((p.value ++ [13]) ++ 10 :: (b ++ rest)).length + 1) [] ((p.value ++ [13]) ++ 10 :: (b ++ rest))).1 =
      p.value ++ crlf ++ b.take (m - 1 - (p.value.length + 2)) := by
    obtain ⟨k, hk⟩ : ∃ k, ((p.value ++ [13]) ++ 10 :: (b ++ rest)).length = k + 2 := ⟨_, by simp; rfl⟩
    rw [hk, dataLoop, if_pos (by simp; omega), fgets_one (l := p.value ++ [13]) (by
      intro c hc
      rcases List.mem_append.1 hc with hc | hc
      · have := hv c hc; omega
      · simp at hc; omega) (by simp; omega)]
    simp only
    rw [if_neg (by
      rw [List.isPrefixOf_iff_prefix, List.append_assoc]
      exact hbp), cstr_id (by
      intro h
      simp at h
      have := hv 0 h
      omega), List.nil_append, dataLoop, if_pos (by simp; omega), fgets, if_neg (by
        intro h
        rw [(List.append_eq_nil_iff.1 h).1, List.length_nil] at hl'
        omega)]
    simp only [List.length_append, List.length_singleton]
    rw [show m - (p.value.length + 1 + 1) - 1 = m - 1 - (p.value.length + 2) by omega, takeLine_cut (by
      rw [htk]
      intro c hc
      have := hbc c (List.mem_of_mem_take hc)
      omega), htk]
    simp only
    rw [if_neg (by
      rw [List.isPrefixOf_iff_prefix]
      intro h
      have := h.length_le
      rw [List.length_take] at this
      omega), cstr_id (by
      intro h
      have := hbc 0 (List.mem_of_mem_take h)
      omega), dataLoop, if_neg (by simp; omega)]
    simp [crlf]
  rw [ht, hr]
  simp only [hd]
  have hs : stripEnd (p.value ++ crlf ++ b.take (m - 1 - (p.value.length + 2))) = p.value ++ crlf ++ b.take (m - 1 - (p.value.length + 2)) := by
    have := stripEnd_eq (x := p.value ++ crlf ++ b.take (m - 1 - (p.value.length + 2))) (e := []) (by simp) (by
      intro c hc
      rw [List.getLast?_append_of_ne_nil _ (by
        intro h
        have := congrArg List.length h
        rw [List.length_take, List.length_nil] at this
        omega)] at hc
      have := hbc c (List.mem_of_mem_take (List.mem_of_getLast? hc))
      omega)
    rwa [List.append_nil] at this
  rw [hs]

/-- Such parts exist: a buffer of 60 bytes. -/
example : (getPart (bytes "--0123456789\r\n") 60 ((⟨bytes "a", none, [], List.replicate 50 120⟩ : Part).text ++ (bytes "--0123456789" ++ crlf))).buff =
    some (List.replicate 50 120 ++ crlf ++ bytes "--01234") :=
  C89_boundary_kept (b := bytes "--0123456789") (p := ⟨bytes "a", none, [], List.replicate 50 120⟩) rfl ⟨by decide, by decide, by decide⟩ (by decide)
    (by simp) (by decide) rfl (by decide) (by decide) (by decide) (by decide) (by decide) crlf

end Verif.Props
