import Verif.Lemmas.Decimal
import Verif.Props.AdesValues

/-!
# C85: the columns of an ADES observation are read back
-/

namespace Verif.Props

open Verif Verif.Ades Verif.AdesObs Verif.Spec Verif.MpcLine

/-- An element: tag, value, and what follows the value in the input. -/
abbrev Elem := Int × List Nat × List Nat

/-- The context after the elements have been processed one after the other.  Between them the nesting of tags may change. -/
inductive Fed (e : Ext) (c : Ctx) : List Elem → Ctx → Prop
  | nil : Fed e c [] c
  | state {els : List Elem} {d : Ctx} (st : St) : Fed e c els d → Fed e c els { d with st := st }
  | next {els : List Elem} {d : Ctx} {r : Ctx × List Nat × Int} (x : Elem) : Fed e c els d → processTag e d x.1 x.2.1 x.2.2 = .ok r →
      Fed e c (els ++ [x]) r.1

/-- No time runs into the right ascension. -/
def ShortTimes (els : List Elem) : Prop := ∀ x ∈ els, x.1 = 65 → (fitsTime (x.2.1 ++ x.2.2)).length ≤ 17

/-- The columns of `own`. -/
def ranges : List (Nat × Nat) := [(0, 11), (12, 12), (13, 13), (14, 14), (15, 31), (32, 43), (44, 56), (65, 69), (70, 70), (71, 71), (72, 76), (77, 79)]

theorem own_cases (t : Int) : own t = none ∨ ∃ q ∈ ranges, own t = some q := by
  unfold own
  by_cases h : t = 75 ∨ t = 95 ∨ t = 16 ∨ t = 140
  · rw [if_pos h]
    exact Or.inr ⟨_, by decide, rfl⟩
  rw [if_neg h]
  clear h
  by_cases h : t = 37
  · rw [if_pos h]
    exact Or.inr ⟨_, by decide, rfl⟩
  rw [if_neg h]
  clear h
  by_cases h : t = 94 ∨ t = 56
  · rw [if_pos h]
    exact Or.inr ⟨_, by decide, rfl⟩
  rw [if_neg h]
  clear h
  by_cases h : t = 52 ∨ t = 34 ∨ t = 136
  · rw [if_pos h]
    exact Or.inr ⟨_, by decide, rfl⟩
  rw [if_neg h]
  clear h
  by_cases h : t = 65
  · rw [if_pos h]
    exact Or.inr ⟨_, by decide, rfl⟩
  rw [if_neg h]
  clear h
  by_cases h : t = 96
  · rw [if_pos h]
    exact Or.inr ⟨_, by decide, rfl⟩
  rw [if_neg h]
  clear h
  by_cases h : t = 29
  · rw [if_pos h]
    exact Or.inr ⟨_, by decide, rfl⟩
  rw [if_neg h]
  clear h
  by_cases h : t = 50
  · rw [if_pos h]
    exact Or.inr ⟨_, by decide, rfl⟩
  rw [if_neg h]
  clear h
  by_cases h : t = 19
  · rw [if_pos h]
    exact Or.inr ⟨_, by decide, rfl⟩
  rw [if_neg h]
  clear h
  by_cases h : t = 17
  · rw [if_pos h]
    exact Or.inr ⟨_, by decide, rfl⟩
  rw [if_neg h]
  clear h
  by_cases h : t = 101
  · rw [if_pos h]
    exact Or.inr ⟨_, by decide, rfl⟩
  rw [if_neg h]
  clear h
  by_cases h : t = 132
  · rw [if_pos h]
    exact Or.inr ⟨_, by decide, rfl⟩
  rw [if_neg h]
  clear h
  exact Or.inl rfl

theorem own_mem {t : Int} {q : Nat × Nat} (h : own t = some q) : q ∈ ranges := by
  rcases own_cases t with h' | ⟨q', hq, h'⟩
  · rw [h] at h'
    cases h'
  · rw [h, Option.some.injEq] at h'
    rw [h']
    exact hq

theorem ranges_disjoint : ∀ q ∈ ranges, ∀ q' ∈ ranges, q.1 = q'.1 ∨ q.2 < q'.1 ∨ q'.2 < q.1 := by decide

theorem own_disjoint {t t' : Int} {a b a' b' i : Nat} (h : own t = some (a, b)) (h' : own t' = some (a', b')) (hi : a ≤ i ∧ i ≤ b)
    (hi' : a' ≤ i ∧ i ≤ b') : a = a' := by
  have := ranges_disjoint _ (own_mem h) _ (own_mem h')
  simp only at this
  omega

/-- Columns with a single element to write them. -/
theorem fed_columns {e : Ext} {c d : Ctx} {els : List Elem} (h : Fed e c els d) (hs : ShortTimes els) {x : Elem} {a b : Nat}
    (hx : own x.1 = some (a, b)) (hu : ∀ y ∈ els, (∃ b', own y.1 = some (a, b')) → y = x) {k : Nat} {s : List Nat}
    (hw : ∀ d r, processTag e d x.1 x.2.1 x.2.2 = .ok r → ∀ i, a ≤ i → i ≤ b → r.1.line i = blit d.line k s i)
    {i : Nat} (h1 : a ≤ i) (h2 : i ≤ b) : d.line i = if x ∈ els then blit c.line k s i else c.line i := by
  induction h with
  | nil => simp
  | state st _ ih => exact ih hs hu
  | @next els d r y _ hp ih =>
    have ih := ih (fun z hz => hs z (by simp [hz])) (fun z hz => hu z (by simp [hz]))
    by_cases hy : ∃ b', own y.1 = some (a, b')
    · obtain rfl := hu y (by simp) hy
      rw [if_pos (by simp), hw d r hp i h1 h2]
      unfold blit
      split
      · rfl
      · rename_i hb
        rw [ih]
        split
        · rw [blit_out hb]
        · rfl
    · have hf := processTag_frame hp (hs y (by simp)) (i := i) (by
        intro a' b' h' hi
        exact hy ⟨b', by rw [own_disjoint hx h' ⟨h1, h2⟩ hi]; exact h'⟩)
      have hyx : y ≠ x := fun hh => hy ⟨b, by rw [hh]; exact hx⟩
      rw [hf, ih]
      simp [Ne.symm hyx]

/-! ## Times -/

theorem readDigits_padded {w n : Nat} {s rest : List Nat} (h : Padded w n s) (hr : isDigit (at? rest 0) = false) : readDigits 0 (s ++ rest) = n := by
  rw [(Scan.digits_span h.digits hr 0).2, readDigits_eq _ h.digits, h.value]

theorem atoi_time {s more : List Nat} {d m y hour minute second p v : Nat} (h : AdesTime s d m y hour minute second p v) :
    atoi (s ++ more) = y := by
  obtain ⟨hy, hm, hd, hh, hn, hs, hf⟩ := h
  rename_i yyyy mm dd hh' nn ss f
  have := readDigits_padded (rest := 45 :: (mm ++ 45 :: (dd ++ 84 :: (hh' ++ 58 :: (nn ++ 58 :: (ss ++ (f ++ [90])))))) ++ more) hy rfl
  rw [← List.append_assoc] at this
  obtain ⟨a, b, c, e, rfl, ha, -⟩ := padded_list4 hy
  simp only [List.cons_append] at this ⊢
  unfold atoi
  rw [if_neg (by simp [isSpace]; omega), if_neg (by omega), if_neg (by omega), this]

theorem time_length {s more : List Nat} {d m y hour minute second p v : Nat} (h : AdesTime s d m y hour minute second p v)
    (h1 : 1700 ≤ y) (h2 : y ≤ 2099) : (fitsTime (s ++ more)).length = 14 + p := by
  obtain ⟨c, yy, ty, mm, dd, hh, nn, ss, ds, -, -, -, p1, p2, p3, p4, p5, p6, p7, e⟩ := fitsTime_eq (more := more) h h1 h2
  rw [e]
  simp [p1.width, p2.width, p3.width, p4.width, p5.width, p6.width, p7.width]
  omega

/-- What is done with a time of no more than three decimals. -/
theorem time_put {e : Ext} {c : Ctx} {s more : List Nat} {d m y hour minute second p v : Nat}
    (h : AdesTime s d m y hour minute second p v) (h1 : 1700 ≤ y) (h2 : y ≤ 2099) (hp : p ≤ 3) :
    processTag e c 65 s more = .ok ({ c with line := blit c.line 15 (fitsTime (s ++ more)) }, [], 0) := by
  have hl := time_length (more := more) h h1 h2
  have ha := atoi_time (more := more) h
  unfold processTag obsTime blitIn
  simp only [hl, ha]
  rw [if_neg (by decide), if_neg (by decide), if_neg (by decide), if_pos trivial, if_pos (by omega)]
  simp only [Outcome.bind]
  rw [if_neg (by simp; omega)]

/-- Bytes of a card, with what was there before behind them. -/
theorem card_text {m m' : Card} {a w : Nat} {s : List Nat} (hw : s.length ≤ w) (h : ∀ i, a ≤ i → i < a + w → m' i = blit m a s i)
    (hb : ∀ i, a ≤ i → i < a + w → m i = 32) : (List.range' a w).map m' = s ++ List.replicate (w - s.length) 32 := by
  apply List.ext_getElem
  · simp; omega
  · intro i h1 h2
    simp only [List.length_map, List.length_range'] at h1
    rw [List.getElem_map, List.getElem_range', h _ (by omega) (by omega)]
    by_cases hi : i < s.length
    · rw [List.getElem_append_left hi, blit_in (by omega), show a + 1 * i - a = i by omega]
      unfold at?
      rw [List.getD_eq_getElem _ _ hi]
    · rw [List.getElem_append_right (by omega), List.getElem_replicate, blit_out (by omega), hb _ (by omega) (by omega)]

/-- C85: the bytes stored for a time make up a date of the compact kind with hours, minutes and seconds. -/
theorem C85_time {s more : List Nat} {d m y hour minute second p v : Nat} (h : AdesTime s d m y hour minute second p v)
    (h1 : 1700 ≤ y) (h2 : y ≤ 2099) (hp : p ≤ 3) {e : Ext} {c : Ctx} (hc : ∀ i, 15 ≤ i → i < 32 → c.line i = 32) :
    ∃ c', processTag e c 65 s more = .ok (c', [], 0) ∧
      CivilField ((List.range' 15 17).map c'.line) d m y
        ((hour : ℚ) / 24 + (minute : ℚ) / 1440 + ((second : ℚ) + (v : ℚ) / 10 ^ p) / 86400) (20 + p) := by
  refine ⟨_, time_put h h1 h2 hp, ?_⟩
  have hl := time_length (more := more) h h1 h2
  have hm := card_text (m := c.line) (m' := blit c.line 15 (fitsTime (s ++ more))) (a := 15) (w := 17) (s := fitsTime (s ++ more))
    (by omega) (fun i _ _ => rfl) hc
  simp only [hm]
  obtain ⟨c, yy, ty, mm, dd, hh, nn, ss, ds, c1, c2, ey, p1, p2, p3, p4, p5, p6, p7, e⟩ := fitsTime_eq (more := more) h h1 h2
  rw [hl, e, show 17 - (14 + p) = 3 - p by omega, ey]
  have := CivilField.seconds c1 c2 p1 p2 p3 p4 p5 p6 (s := ds ++ List.replicate (3 - p) 32) (p := p) (v := v) ⟨ds, p7, hp, rfl⟩
  simpa using this

/-! ## Angles -/

theorem pointLoc_kept {s : List Nat} {f : Nat} (hf : f ≠ s.length) (k : Nat) : pointLoc s k f = f := by
  induction k with
  | zero => rfl
  | succ k ih => rw [pointLoc, if_neg (fun h => hf h.1), ih]

theorem pointLoc_eq {a f : List Nat} (hf : AllDigits f) : pointLoc (a ++ 46 :: f) (a ++ 46 :: f).length (a ++ 46 :: f).length = a.length := by
  have key : ∀ k, a.length < k → k ≤ (a ++ 46 :: f).length → pointLoc (a ++ 46 :: f) k (a ++ 46 :: f).length = a.length := by
    intro k hk
    induction k, hk using Nat.le_induction with
    | base =>
      intro _
      have : at? (a ++ 46 :: f) a.length = 46 := by simp [at?]
      rw [pointLoc, if_pos ⟨rfl, this⟩, pointLoc_kept (by simp)]
    | succ k hk ih =>
      intro hl
      have : at? (a ++ 46 :: f) k ≠ 46 := by
        obtain ⟨j, rfl⟩ : ∃ j, k = a.length + 1 + j := ⟨k - (a.length + 1), by omega⟩
        have hj : j < f.length := by simp at hl; omega
        have e : at? (a ++ 46 :: f) (a.length + 1 + j) = f[j] := by
          unfold at?
          rw [List.getD_eq_getElem?_getD, List.getElem?_append_right (by omega), show a.length + 1 + j - a.length = j + 1 by omega,
            List.getElem?_cons_succ, List.getElem?_eq_getElem hj, Option.getD_some]
        have := hf _ (List.getElem_mem hj)
        omega
      rw [pointLoc, if_neg (fun h => this h.2), ih (by omega)]
  exact key _ (by simp) (le_refl _)

/-- A value of no more than seven decimals. -/
theorem place_short {a f more : List Nat} {k p v : Nat} (ha : a.length ≤ k) (hf : Padded p v f) (hp : p ≤ 7) :
    placeValue (a ++ 46 :: f) more k = .ok (List.replicate (k - a.length) 48 ++ (a ++ 46 :: f), false) := by
  have hw := hf.width
  unfold placeValue
  simp only [pointLoc_eq hf.digits]
  rw [if_neg (by omega), if_neg (by simp; omega), List.take_of_length_le (by simp; omega)]

theorem zeros_padded {w k n : Nat} {a : List Nat} (h : Padded w n a) (hk : w ≤ k) : Padded k n (List.replicate (k - w) 48 ++ a) where
  digits := by
    intro c hc
    rcases List.mem_append.1 hc with hc | hc
    · rw [List.eq_of_mem_replicate hc]; omega
    · exact h.digits c hc
  value := by
    have : ∀ j, value (List.replicate j 48) = 0 := by
      intro j
      induction j with
      | zero => rfl
      | succ j ih => rw [List.replicate_succ, show (48 :: List.replicate j 48 : List Nat) = [48] ++ List.replicate j 48 from rfl, value_append, ih]; simp [value]
    rw [value_append, this, h.value, Nat.zero_mul, Nat.zero_add]
  width := by rw [List.length_append, List.length_replicate, h.width]; omega

/-- The sign of a right ascension, if it is written at all. -/
def plusSign (b : Bool) : List Nat := if b then [43] else []

theorem ra_put {e : Ext} {c : Ctx} {b : Bool} {s more : List Nat} {z p v : Nat} (h : AdesDegrees 3 s z p v) (hp : p ≤ 7) :
    ∃ w, ∃ t : List Nat, Padded 3 z t ∧ (∃ f, Padded p v f ∧ w = t ++ 46 :: f) ∧
      processTag e c 96 (plusSign b ++ s) more = .ok ({ c with line := blit c.line 32 w }, [], 0) := by
  obtain ⟨h1, h3, ha, hf⟩ := h
  rename_i k a f
  refine ⟨List.replicate (3 - k) 48 ++ a ++ 46 :: f, _, zeros_padded ha h3, ⟨f, hf, rfl⟩, ?_⟩
  have hd : (if at? (plusSign b ++ (a ++ 46 :: f)) 0 = 43 then (plusSign b ++ (a ++ 46 :: f)).drop 1 else plusSign b ++ (a ++ 46 :: f)) = a ++ 46 :: f := by
    cases b with
    | true => rfl
    | false =>
      have hne : a ≠ [] := by rintro rfl; have := ha.width; simp at this; omega
      have := Scan.head_digit ha.digits hne
      rw [if_neg]
      · rfl
      · simp only [plusSign, Bool.false_eq_true, if_false, List.nil_append]
        rw [Scan.at_append_left hne]
        omega
  unfold processTag placeRa
  simp only [hd]
  rw [if_neg (by decide), if_neg (by decide), if_neg (by decide), if_neg (by decide), if_neg (by decide), if_neg (by decide),
    if_neg (by decide), if_neg (by decide), if_neg (by decide), if_neg (by decide), if_neg (by decide), if_neg (by decide),
    if_neg (by decide), if_neg (by decide), if_pos trivial, place_short (by rw [ha.width]; exact h3) hf hp]
  simp [Outcome.bind, ha.width]

/-- C85: a right ascension of up to three figures and seven decimals is stored exactly, in degrees. -/
theorem C85_ra {e : Ext} {c : Ctx} {b : Bool} {s more : List Nat} {z p v : Nat} (h : AdesDegrees 3 s z p v) (hp : p ≤ 7)
    (hc : ∀ i, 32 ≤ i → i < 44 → c.line i = 32) :
    ∃ c', processTag e c 96 (plusSign b ++ s) more = .ok (c', [], 0) ∧
      AngleField true ((List.range' 32 12).map c'.line) (((z : ℚ) + (v : ℚ) / 10 ^ p) / 15) (200 + p) (3600 / 15 / 10 ^ p) := by
  obtain ⟨w, t, ht, ⟨f, hf, rfl⟩, hq⟩ := ra_put (e := e) (c := c) (b := b) (more := more) h hp
  refine ⟨_, hq, ?_⟩
  have hw1 := ht.width
  have hw2 := hf.width
  have hm := card_text (m := c.line) (m' := blit c.line 32 (t ++ 46 :: f)) (a := 32) (w := 12) (s := t ++ 46 :: f)
    (by simp; omega) (fun i _ _ => rfl) hc
  simp only [hm]
  have := AngleField.degrees (ra := true) rfl ht (f := f ++ List.replicate (8 - p) 32) (p := p) (v := v) ⟨f, hf, by omega, rfl⟩
  simp only [List.length_append, List.length_cons, hw1, hw2, show 12 - (3 + (p + 1)) = 8 - p by omega]
  simpa using this

/-- The sign of a declination: none, plus or minus. -/
inductive DecSign : List Nat → Nat → Prop
  | none : DecSign [] 43
  | plus : DecSign [43] 43
  | minus : DecSign [45] 45

theorem sign_split {sg a : List Nat} {c : Nat} (h : DecSign sg c) (h1 : at? a 0 ≠ 45) (h2 : at? a 0 ≠ 43) :
    (if (decide (at? (sg ++ a) 0 = 45 ∨ at? (sg ++ a) 0 = 43)) = true then at? (sg ++ a) 0 else 43) = c ∧
    (if (decide (at? (sg ++ a) 0 = 45 ∨ at? (sg ++ a) 0 = 43)) = true then (sg ++ a).drop 1 else sg ++ a) = a := by
  cases h with
  | none => simp [h1, h2]
  | plus => simp [at?]
  | minus => simp [at?]

theorem dec_put {e : Ext} {c : Ctx} {sg s more : List Nat} {g z p v : Nat} (hg : DecSign sg g) (h : AdesDegrees 2 s z p v) (hp : p ≤ 7) :
    ∃ w, ∃ t : List Nat, Padded 2 z t ∧ (∃ f, Padded p v f ∧ w = t ++ 46 :: f) ∧
      processTag e c 29 (sg ++ s) more = .ok ({ c with line := blit (blit c.line 44 [g]) 45 w }, [], 0) := by
  obtain ⟨h1, h3, ha, hf⟩ := h
  rename_i k a f
  refine ⟨List.replicate (2 - k) 48 ++ a ++ 46 :: f, _, zeros_padded ha h3, ⟨f, hf, rfl⟩, ?_⟩
  have hne : a ≠ [] := by rintro rfl; have := ha.width; simp at this; omega
  have hh := Scan.head_digit ha.digits hne
  rw [← Scan.at_append_left (b := 46 :: f) hne] at hh
  obtain ⟨e1, e2⟩ := sign_split hg (a := a ++ 46 :: f) (by omega) (by omega)
  unfold processTag placeDec
  simp only [e1, e2]
  rw [if_neg (by decide), if_neg (by decide), if_neg (by decide), if_neg (by decide), if_neg (by decide), if_neg (by decide),
    if_neg (by decide), if_neg (by decide), if_neg (by decide), if_neg (by decide), if_neg (by decide), if_neg (by decide),
    if_neg (by decide), if_neg (by decide), if_neg (by decide), if_pos trivial, place_short (by rw [ha.width]; exact h3) hf hp]
  simp [Outcome.bind, ha.width]

theorem blit_sign {m : Card} {g : Nat} {w : List Nat} (i : Nat) : blit (blit m 44 [g]) 45 w i = blit m 44 (g :: w) i := by
  by_cases h : 45 ≤ i ∧ i < 45 + w.length
  · rw [blit_in h, blit_in (by simp; omega), show i - 44 = (i - 45) + 1 by omega]
    simp [at?]
  · rw [blit_out h]
    by_cases h2 : i = 44
    · subst h2
      rw [blit_in (by simp), blit_in (by simp)]
      rfl
    · rw [blit_out (by simp; omega), blit_out (by simp; omega)]

/-- C85: a declination of up to two figures and seven decimals is stored exactly, with a sign. -/
theorem C85_dec {e : Ext} {c : Ctx} {sg s more : List Nat} {g z p v : Nat} (hg : DecSign sg g) (h : AdesDegrees 2 s z p v) (hp : p ≤ 7)
    (hc : ∀ i, 44 ≤ i → i < 57 → c.line i = 32) :
    ∃ c', processTag e c 29 (sg ++ s) more = .ok (c', [], 0) ∧ c'.line 44 = g ∧
      AngleField false ((List.range' 45 12).map c'.line) ((z : ℚ) + (v : ℚ) / 10 ^ p) (100 + p) (3600 / 10 ^ p) := by
  obtain ⟨w, t, ht, ⟨f, hf, rfl⟩, hq⟩ := dec_put (e := e) (c := c) (more := more) hg h hp
  refine ⟨_, hq, ?_, ?_⟩
  · simp only
    rw [blit_out (by omega), blit_in (by simp)]
    rfl
  have hw1 := ht.width
  have hw2 := hf.width
  have hm := card_text (m := blit c.line 44 [g]) (m' := blit (blit c.line 44 [g]) 45 (t ++ 46 :: f)) (a := 45) (w := 12) (s := t ++ 46 :: f)
    (by simp; omega) (fun i _ _ => rfl) (by
      intro i h1 h2
      rw [blit_out (by simp; omega)]
      exact hc i (by omega) (by omega))
  simp only [hm]
  have := AngleField.decimal (ra := false) ht (f := f ++ List.replicate (9 - p) 32) (p := p) (v := v) ⟨f, hf, by omega, rfl⟩
  simp only [List.length_append, List.length_cons, hw1, hw2, show 12 - (2 + (p + 1)) = 9 - p by omega]
  simpa using this

/-! ### More than seven decimals -/

/-- Blanks, figures, a point and figures. -/
theorem quick_blanks {j q n v : Nat} {a f rest : List Nat} (ha : Padded (q + 1) n a) (hq : q < 9) (hf : Padded 8 v f)
    (hr : isDigit (at? rest 0) = false) :
    quickAtof (List.replicate j 32 ++ (a ++ 46 :: (f ++ rest))) = .ok ((n : ℚ) + (v : ℚ) / 10 ^ 8) := by
  have hlt : 10 ^ (q + 1) ≤ 10 ^ 9 := Nat.pow_le_pow_right (by omega) (by omega)
  have := padded_lt ha
  have hq := C73_decimal (.none j) ha.digits hf.digits (Or.inl (padded_ne ha)) hr (by rw [ha.value]; unfold INT_MAX; omega)
    (by rw [hf.width]; omega)
  unfold quickAtof
  rw [hq, ha.value, hf.value, hf.width]
  rfl

theorem count_small {j q n : Nat} {a rest : List Nat} (ha : Padded q n a) (hr : isDigit (at? rest 0) = false) :
    digitCount (List.replicate j 32 ++ (a ++ rest)) ≤ q := by
  cases j with
  | zero =>
    rw [List.replicate_zero, List.nil_append, count_padded ha hr]
  | succ j =>
    rw [digitCount_stop _ rfl]
    omega

theorem at_point {j : Nat} {a rest : List Nat} : at? (List.replicate j 32 ++ (a ++ 46 :: rest)) (j + a.length) = 46 := by
  unfold at?
  rw [List.getD_eq_getElem?_getD, List.getElem?_append_right (by simp), List.length_replicate, Nat.add_sub_cancel_left,
    List.getElem?_append_right (le_refl _)]
  simp

theorem drop_point {j : Nat} {a rest : List Nat} : (List.replicate j 32 ++ (a ++ 46 :: rest)).drop (j + a.length + 1) = rest := by
  rw [show List.replicate j 32 ++ (a ++ 46 :: rest) = (List.replicate j 32 ++ a ++ [46]) ++ rest by simp]
  exact List.drop_left' (by simp; omega)

/-- Three bytes, a point and eight decimals are degrees of right ascension. -/
theorem angle_three {isDec : Bool} {j q n v : Nat} {a f : List Nat} (ha : Padded (q + 1) n a) (hj : j + (q + 1) = 3) (hf : Padded 8 v f) :
    angle isDec (List.replicate j 32 ++ (a ++ 46 :: f)) = .ok (((n : ℚ) + (v : ℚ) / 10 ^ 8) / 15, 208, 3600 / 15 / 10 ^ 8) := by
  have h1 := quick_blanks (j := j) (rest := []) ha (by omega) hf rfl
  rw [List.append_nil] at h1
  have h2 := count_small (j := j) (rest := 46 :: f) ha rfl
  have hp := at_point (j := j) (a := a) (rest := f)
  have hd := drop_point (j := j) (a := a) (rest := f)
  rw [ha.width, hj] at hp hd
  have hn : at? (List.replicate j 32 ++ (a ++ 46 :: f)) 2 ≠ 46 := by
    have hq : a[q]? = some (at? a q) := by
      unfold at?
      rw [List.getElem?_eq_getElem (by rw [ha.width]; omega), List.getD_eq_getElem]
    have hm := ha.digits (at? a q) (List.mem_of_getElem? hq)
    have e : at? (List.replicate j 32 ++ (a ++ 46 :: f)) 2 = at? a q := by
      unfold at?
      rw [List.getD_eq_getElem?_getD, List.getElem?_append_right (by simp; omega), List.length_replicate,
        List.getElem?_append_left (by rw [ha.width]; omega), show 2 - j = q by omega, List.getD_eq_getElem?_getD]
    rw [e]
    omega
  have hc : digitCount f = 8 := by
    have := count_padded (rest := []) hf rfl
    rwa [List.append_nil] at this
  unfold angle
  rw [h1]
  simp only [Outcome.bind]
  rw [if_neg (by omega), if_neg hn, if_pos hp, hd, hc]
  norm_num

/-- Two bytes, a point, eight decimals and a blank are degrees. -/
theorem angle_two {isDec : Bool} {j q n v : Nat} {a f : List Nat} (ha : Padded (q + 1) n a) (hj : j + (q + 1) = 2) (hf : Padded 8 v f) :
    angle isDec (List.replicate j 32 ++ (a ++ 46 :: (f ++ [32]))) = .ok ((n : ℚ) + (v : ℚ) / 10 ^ 8, 108, 3600 / 10 ^ 8) := by
  have h1 := quick_blanks (j := j) (rest := [32]) ha (by omega) hf rfl
  have h2 := count_small (j := j) (rest := 46 :: (f ++ [32])) ha rfl
  have hp := at_point (j := j) (a := a) (rest := f ++ [32])
  have hd := drop_point (j := j) (a := a) (rest := f ++ [32])
  rw [ha.width, hj] at hp hd
  have hc : digitCount (f ++ [32]) = 8 := count_padded hf rfl
  unfold angle
  rw [h1]
  simp only [Outcome.bind]
  rw [if_neg (by omega), if_pos hp, hd, hc]
  norm_num

/-- `%.8f` of a number that is not negative. -/
theorem fixed_parts {x : ℚ} (hx : 0 ≤ x) : ∃ n v : Nat, v < 10 ^ 8 ∧ Time.fmtFixed 8 x = dec n ++ 46 :: pad 8 v ∧
    |(n : ℚ) + (v : ℚ) / 10 ^ 8 - x| ≤ 1 / 2 / 10 ^ 8 := by
  obtain ⟨N, hN, -, hd⟩ := fmtFixed_written (K := ℚ) 8 x
  refine ⟨N / 10 ^ 8, N % 10 ^ 8, Nat.mod_lt _ (by norm_num), ?_, ?_⟩
  · unfold Time.fmtFixed
    rw [← hN]
    simp [not_lt.2 hx]
  · rw [abs_of_nonneg hx] at hd
    have e : ((N / 10 ^ 8 : Nat) : ℚ) + ((N % 10 ^ 8 : Nat) : ℚ) / 10 ^ 8 = (N : ℚ) / 10 ^ 8 := by
      have : (N : ℚ) = ((10 ^ 8 * (N / 10 ^ 8) + N % 10 ^ 8 : Nat) : ℚ) := by rw [Nat.div_add_mod]
      rw [this]
      push_cast
      ring
    rw [e, show (N : ℚ) / 10 ^ 8 - x = ((N : ℚ) - x * 10 ^ 8) / 10 ^ 8 by field_simp, abs_div, abs_of_pos (show (0 : ℚ) < 10 ^ 8 by norm_num)]
    exact div_le_div_of_nonneg_right hd (by norm_num)

theorem dec_padded (n : Nat) : ∃ q, Padded (q + 1) n (dec n) := by
  have h := numeral_dec n
  refine ⟨(dec n).length - 1, h.digits, h.value, ?_⟩
  have := List.length_pos_of_ne_nil h.nonempty
  omega

/-- The bytes stored for a value of more than seven decimals. -/
def rounded (k : Nat) (x : ℚ) : List Nat := if k = 2 then fixed8 11 x ++ [32] else fixed8 12 x

theorem place_long {a f more : List Nat} {k w z p v : Nat} (h1 : 1 ≤ w) (hk : w ≤ k) (ha : Padded w z a) (hf : Padded p v f) (hp : 8 ≤ p)
    (hm : Scan.Stops more) : placeValue (a ++ 46 :: f) more k =
      if (rounded k ((z : ℚ) + (v : ℚ) / 10 ^ p)).length < 13 then .ok (rounded k ((z : ℚ) + (v : ℚ) / 10 ^ p), true) else .abort := by
  have hw := hf.width
  have hwa := ha.width
  have hne : a ≠ [] := by rintro rfl; simp at hwa; omega
  have hx : atof (a ++ 46 :: f ++ more) = (z : ℚ) + (v : ℚ) / 10 ^ p := by
    unfold atof
    rw [Scan.strtold_decimal ha.digits hne hf.digits hm, ha.value, hf.value, hf.width]
  unfold placeValue rounded
  simp only [pointLoc_eq hf.digits, hx]
  rw [if_neg (by omega), if_pos (by simp; omega)]

/-- What twelve bytes are read as. -/
def RaReads (w : List Nat) (x : ℚ) (n : Nat) : Prop :=
  ∀ t : List Nat, t.take 12 = w ++ List.replicate (12 - w.length) 32 → getRaDec t = .ok (x / 15, 200 + (n : Int), 3600 / 15 / 10 ^ n)

def DecReads (w : List Nat) (x : ℚ) (n : Nat) : Prop :=
  ∀ (t : List Nat) (g : Nat), g = 43 ∨ g = 45 → t.take 12 = w ++ List.replicate (12 - w.length) 32 →
    getRaDec (g :: t) = .ok (Spec.signed (g == 45) x, 100 + (n : Int), 3600 / 10 ^ n)

theorem rounded_three {x : ℚ} (hx : 0 ≤ x) (hl : (rounded 3 x).length < 13) :
    ∃ y, |y - x| ≤ 1 / 2 / 10 ^ 8 ∧ (rounded 3 x).length = 12 ∧ RaReads (rounded 3 x) y 8 := by
  obtain ⟨n, v, hv, e, hd⟩ := fixed_parts hx
  obtain ⟨q, hq⟩ := dec_padded n
  have hp := padded_pad hv (by omega)
  have e2 : rounded 3 x = List.replicate (12 - (q + 1 + 9)) 32 ++ (dec n ++ 46 :: pad 8 v) := by
    unfold rounded fixed8
    rw [if_neg (by omega), e]
    simp only [List.length_append, List.length_cons, hq.width, hp.width]
  have e3 : (rounded 3 x).length = 12 - (q + 1 + 9) + (q + 1 + 9) := by
    rw [e2]; simp [hq.width, hp.width]
  have hq3 : q < 3 := by omega
  refine ⟨(n : ℚ) + (v : ℚ) / 10 ^ 8, hd, by omega, ?_⟩
  intro t ht
  rw [show 12 - (rounded 3 x).length = 0 by omega, List.replicate_zero, List.append_nil] at ht
  have h0 : at? (rounded 3 x) 0 ≠ 43 ∧ at? (rounded 3 x) 0 ≠ 45 := by
    rw [e2]
    cases h : 12 - (q + 1 + 9) with
    | zero =>
      have := Scan.head_digit hq.digits (padded_ne hq)
      rw [List.replicate_zero, List.nil_append, Scan.at_append_left (padded_ne hq)]
      omega
    | succ j => simp [List.replicate_succ, at?]
  rw [getRaDec_unsigned ht (by omega) h0.1 h0.2, e2, angle_three hq (by omega) hp]
  norm_num

theorem rounded_two {x : ℚ} (hx : 0 ≤ x) (hl : (rounded 2 x).length < 13) :
    ∃ y, |y - x| ≤ 1 / 2 / 10 ^ 8 ∧ (rounded 2 x).length = 12 ∧ DecReads (rounded 2 x) y 8 := by
  obtain ⟨n, v, hv, e, hd⟩ := fixed_parts hx
  obtain ⟨q, hq⟩ := dec_padded n
  have hp := padded_pad hv (by omega)
  have e2 : rounded 2 x = List.replicate (11 - (q + 1 + 9)) 32 ++ (dec n ++ 46 :: (pad 8 v ++ [32])) := by
    unfold rounded fixed8
    rw [if_pos rfl, e]
    simp only [List.length_append, List.length_cons, hq.width, hp.width]
    simp
  have e3 : (rounded 2 x).length = 11 - (q + 1 + 9) + (q + 1 + 10) := by
    rw [e2]; simp [hq.width, hp.width]
  have hq3 : q < 2 := by omega
  refine ⟨(n : ℚ) + (v : ℚ) / 10 ^ 8, hd, by omega, ?_⟩
  intro t g hg ht
  rw [show 12 - (rounded 2 x).length = 0 by omega, List.replicate_zero, List.append_nil] at ht
  rw [getRaDec_signed hg ht (by omega), e2, angle_two hq (by omega) hp]
  norm_num [Outcome.bind]

/-- How far an angle of `p` decimals is changed. -/
def allowed (p : Nat) : ℚ := if p ≤ 7 then 0 else 1 / 2 / 10 ^ 8

theorem drop_plus {b : Bool} {s : List Nat} {z p v : Nat} (h : AdesDegrees 3 s z p v) :
    (if at? (plusSign b ++ s) 0 = 43 then (plusSign b ++ s).drop 1 else plusSign b ++ s) = s := by
  obtain ⟨h1, h3, ha, hf⟩ := h
  cases b with
  | true => rfl
  | false =>
    rename_i a f
    have hne : a ≠ [] := by rintro rfl; have := ha.width; simp at this; omega
    have := Scan.head_digit ha.digits hne
    rw [if_neg]
    · rfl
    · simp only [plusSign, Bool.false_eq_true, if_false, List.nil_append]
      rw [Scan.at_append_left hne]
      omega

theorem tag_ra (e : Ext) (c : Ctx) (s more : List Nat) : processTag e c 96 s more = (placeRa c s more).bind fun c => .ok (c, [], 0) := rfl

theorem tag_dec (e : Ext) (c : Ctx) (s more : List Nat) : processTag e c 29 s more = (placeDec c s more).bind fun c => .ok (c, [], 0) := rfl

/-- C85: a right ascension is stored so that it is read back: exactly if it has no more than seven decimals, to half a unit of the
    eighth otherwise, and then the whole text is kept as well. -/
theorem C85_ra_any {b : Bool} {s more : List Nat} {z p v : Nat} (h : AdesDegrees 3 s z p v) (hm : 8 ≤ p → Scan.Stops more) :
    ∃ w, ∀ (e : Ext) (d : Ctx) r, processTag e d 96 (plusSign b ++ s) more = .ok r →
      (∀ i, r.1.line i = blit d.line 32 w i) ∧ w.length ≤ 12 ∧ r.1.fullRa = (if 8 ≤ p then s else d.fullRa) ∧
      ∃ x, |x - ((z : ℚ) + (v : ℚ) / 10 ^ p)| ≤ allowed p ∧ RaReads w x (min p 8) := by
  by_cases hp : p ≤ 7
  · obtain ⟨w, t, ht, ⟨f, hf, rfl⟩, -⟩ := ra_put (e := ⟨fun _ => .abort⟩) (c := init) (b := b) (more := more) h hp
    refine ⟨t ++ 46 :: f, fun e d r hr => ?_⟩
    obtain ⟨w', t', ht', ⟨f', hf', rfl⟩, hq⟩ := ra_put (e := e) (c := d) (b := b) (more := more) h hp
    rw [hr, Outcome.ok.injEq] at hq
    subst hq
    have et : t' = t := padded_unique ht' ht
    have ef : f' = f := padded_unique hf' hf
    subst et ef
    have hw1 := ht.width
    have hw2 := hf.width
    refine ⟨fun i => rfl, by simp; omega, by rw [if_neg (by omega)], (z : ℚ) + (v : ℚ) / 10 ^ p, by simp [allowed, hp], ?_⟩
    intro l hl
    have := AngleField.degrees (ra := true) rfl ht (f := f' ++ List.replicate (8 - p) 32) (p := p) (v := v) ⟨f', hf, by omega, rfl⟩
    rw [C72_ra this (by
      rw [hl]
      simp only [List.length_append, List.length_cons, hw1, hw2, show 12 - (3 + (p + 1)) = 8 - p by omega]
      simp) (by omega) (by omega), Nat.min_eq_left (by omega)]
  · refine ⟨rounded 3 ((z : ℚ) + (v : ℚ) / 10 ^ p), fun e d r hr => ?_⟩
    rw [tag_ra] at hr
    have hr := quiet_ok hr
    unfold placeRa at hr
    simp only [drop_plus h] at hr
    obtain ⟨h1, h3, ha, hf⟩ := h
    rw [place_long h1 h3 ha hf (by omega) (hm (by omega))] at hr
    by_cases hl : (rounded 3 ((z : ℚ) + (v : ℚ) / 10 ^ p)).length < 13
    · rw [if_pos hl] at hr
      simp only [Outcome.bind, if_true] at hr
      split at hr
      · rw [Outcome.ok.injEq] at hr
        obtain ⟨y, hy, hlen, hread⟩ := rounded_three (x := (z : ℚ) + (v : ℚ) / 10 ^ p) (by positivity) hl
        rw [← hr]
        refine ⟨fun i => rfl, by omega, by rw [if_pos (by omega)], y, by rw [allowed, if_neg hp]; exact hy, ?_⟩
        rw [Nat.min_eq_right (by omega)]
        exact hread
      · cases hr
    · rw [if_neg hl] at hr
      simp [Outcome.bind] at hr

/-- C85: the same for a declination. -/
theorem C85_dec_any {sg s more : List Nat} {g z p v : Nat} (hg : DecSign sg g) (h : AdesDegrees 2 s z p v) (hm : 8 ≤ p → Scan.Stops more) :
    ∃ w, ∀ (e : Ext) (d : Ctx) r, processTag e d 29 (sg ++ s) more = .ok r →
      (∀ i, r.1.line i = blit d.line 44 (g :: w) i) ∧ w.length ≤ 12 ∧ r.1.fullDec = (if 8 ≤ p then g :: s else d.fullDec) ∧
      ∃ x, |x - ((z : ℚ) + (v : ℚ) / 10 ^ p)| ≤ allowed p ∧ DecReads w x (min p 8) := by
  by_cases hp : p ≤ 7
  · obtain ⟨w, t, ht, ⟨f, hf, rfl⟩, -⟩ := dec_put (e := ⟨fun _ => .abort⟩) (c := init) (more := more) hg h hp
    refine ⟨t ++ 46 :: f, fun e d r hr => ?_⟩
    obtain ⟨w', t', ht', ⟨f', hf', rfl⟩, hq⟩ := dec_put (e := e) (c := d) (more := more) hg h hp
    rw [hr, Outcome.ok.injEq] at hq
    subst hq
    have et : t' = t := padded_unique ht' ht
    have ef : f' = f := padded_unique hf' hf
    subst et ef
    have hw1 := ht.width
    have hw2 := hf.width
    refine ⟨fun i => blit_sign i, by simp; omega, by rw [if_neg (by omega)], (z : ℚ) + (v : ℚ) / 10 ^ p, by simp [allowed, hp], ?_⟩
    intro l c hc hl
    have := AngleField.decimal (ra := false) ht (f := f' ++ List.replicate (9 - p) 32) (p := p) (v := v) ⟨f', hf, by omega, rfl⟩
    rw [C72_dec this hc (by
      rw [hl]
      simp only [List.length_append, List.length_cons, hw1, hw2, show 12 - (2 + (p + 1)) = 9 - p by omega]
      simp) (by omega) (by omega), Nat.min_eq_left (by omega)]
  · refine ⟨rounded 2 ((z : ℚ) + (v : ℚ) / 10 ^ p), fun e d r hr => ?_⟩
    rw [tag_dec] at hr
    have hr := quiet_ok hr
    unfold placeDec at hr
    cases h with
    | @mk w z p v a f h1 h3 ha hf =>
    have hne : a ≠ [] := by rintro rfl; have := ha.width; simp at this; omega
    have hh := Scan.head_digit ha.digits hne
    rw [← Scan.at_append_left (b := 46 :: f) hne] at hh
    obtain ⟨e1, e2⟩ := sign_split hg (a := a ++ 46 :: f) (by omega) (by omega)
    simp only [e1, e2] at hr
    rw [place_long h1 h3 ha hf (by omega) (hm (by omega))] at hr
    by_cases hl : (rounded 2 ((z : ℚ) + (v : ℚ) / 10 ^ p)).length < 13
    · rw [if_pos hl] at hr
      simp only [Outcome.bind, if_true] at hr
      split at hr
      · rw [Outcome.ok.injEq] at hr
        obtain ⟨y, hy, hlen, hread⟩ := rounded_two (x := (z : ℚ) + (v : ℚ) / 10 ^ p) (by positivity) hl
        rw [← hr]
        refine ⟨fun i => blit_sign i, by omega, by rw [if_pos (by omega)], y, by rw [allowed, if_neg hp]; exact hy, ?_⟩
        rw [Nat.min_eq_right (by omega)]
        exact hread
      · cases hr
    · rw [if_neg hl] at hr
      simp [Outcome.bind] at hr

/-! ## A whole observation -/

theorem fed_processed {e : Ext} {c d : Ctx} {els : List Elem} (h : Fed e c els d) {x : Elem} (hx : x ∈ els) :
    ∃ d' r, processTag e d' x.1 x.2.1 x.2.2 = .ok r := by
  induction h with
  | nil => simp at hx
  | state st _ ih => exact ih hx
  | @next els d r y _ hp ih =>
    rcases List.mem_append.1 hx with hx | hx
    · exact ih hx
    · rw [List.mem_singleton] at hx
      subst hx
      exact ⟨d, r, hp⟩

theorem own_mark {t : Int} {b : Nat} (h : own t = some (12, b)) : t = 37 := by
  unfold own at h
  by_cases h0 : t = 75 ∨ t = 95 ∨ t = 16 ∨ t = 140
  · rw [if_pos h0] at h
    simp at h
  rw [if_neg h0] at h
  by_cases h1 : t = 37
  · exact h1
  rw [if_neg h1] at h
  by_cases h2 : t = 94 ∨ t = 56
  · rw [if_pos h2] at h
    simp at h
  rw [if_neg h2] at h
  by_cases h3 : t = 52 ∨ t = 34 ∨ t = 136
  · rw [if_pos h3] at h
    simp at h
  rw [if_neg h3] at h
  by_cases h4 : t = 65
  · rw [if_pos h4] at h
    simp at h
  rw [if_neg h4] at h
  by_cases h5 : t = 96
  · rw [if_pos h5] at h
    simp at h
  rw [if_neg h5] at h
  by_cases h6 : t = 29
  · rw [if_pos h6] at h
    simp at h
  rw [if_neg h6] at h
  by_cases h7 : t = 50
  · rw [if_pos h7] at h
    simp at h
  rw [if_neg h7] at h
  by_cases h8 : t = 19
  · rw [if_pos h8] at h
    simp at h
  rw [if_neg h8] at h
  by_cases h9 : t = 17
  · rw [if_pos h9] at h
    simp at h
  rw [if_neg h9] at h
  by_cases h10 : t = 101
  · rw [if_pos h10] at h
    simp at h
  rw [if_neg h10] at h
  by_cases h11 : t = 132
  · rw [if_pos h11] at h
    simp at h
  rw [if_neg h11] at h
  cases h

theorem own_mode {t : Int} {b : Nat} (h : own t = some (14, b)) : t = 52 ∨ t = 34 ∨ t = 136 := by
  unfold own at h
  by_cases h0 : t = 75 ∨ t = 95 ∨ t = 16 ∨ t = 140
  · rw [if_pos h0] at h
    simp at h
  rw [if_neg h0] at h
  by_cases h1 : t = 37
  · rw [if_pos h1] at h
    simp at h
  rw [if_neg h1] at h
  by_cases h2 : t = 94 ∨ t = 56
  · rw [if_pos h2] at h
    simp at h
  rw [if_neg h2] at h
  by_cases h3 : t = 52 ∨ t = 34 ∨ t = 136
  · exact h3
  rw [if_neg h3] at h
  by_cases h4 : t = 65
  · rw [if_pos h4] at h
    simp at h
  rw [if_neg h4] at h
  by_cases h5 : t = 96
  · rw [if_pos h5] at h
    simp at h
  rw [if_neg h5] at h
  by_cases h6 : t = 29
  · rw [if_pos h6] at h
    simp at h
  rw [if_neg h6] at h
  by_cases h7 : t = 50
  · rw [if_pos h7] at h
    simp at h
  rw [if_neg h7] at h
  by_cases h8 : t = 19
  · rw [if_pos h8] at h
    simp at h
  rw [if_neg h8] at h
  by_cases h9 : t = 17
  · rw [if_pos h9] at h
    simp at h
  rw [if_neg h9] at h
  by_cases h10 : t = 101
  · rw [if_pos h10] at h
    simp at h
  rw [if_neg h10] at h
  by_cases h11 : t = 132
  · rw [if_pos h11] at h
    simp at h
  rw [if_neg h11] at h
  cases h

theorem own_time {t : Int} {b : Nat} (h : own t = some (15, b)) : t = 65 := by
  unfold own at h
  by_cases h0 : t = 75 ∨ t = 95 ∨ t = 16 ∨ t = 140
  · rw [if_pos h0] at h
    simp at h
  rw [if_neg h0] at h
  by_cases h1 : t = 37
  · rw [if_pos h1] at h
    simp at h
  rw [if_neg h1] at h
  by_cases h2 : t = 94 ∨ t = 56
  · rw [if_pos h2] at h
    simp at h
  rw [if_neg h2] at h
  by_cases h3 : t = 52 ∨ t = 34 ∨ t = 136
  · rw [if_pos h3] at h
    simp at h
  rw [if_neg h3] at h
  by_cases h4 : t = 65
  · exact h4
  rw [if_neg h4] at h
  by_cases h5 : t = 96
  · rw [if_pos h5] at h
    simp at h
  rw [if_neg h5] at h
  by_cases h6 : t = 29
  · rw [if_pos h6] at h
    simp at h
  rw [if_neg h6] at h
  by_cases h7 : t = 50
  · rw [if_pos h7] at h
    simp at h
  rw [if_neg h7] at h
  by_cases h8 : t = 19
  · rw [if_pos h8] at h
    simp at h
  rw [if_neg h8] at h
  by_cases h9 : t = 17
  · rw [if_pos h9] at h
    simp at h
  rw [if_neg h9] at h
  by_cases h10 : t = 101
  · rw [if_pos h10] at h
    simp at h
  rw [if_neg h10] at h
  by_cases h11 : t = 132
  · rw [if_pos h11] at h
    simp at h
  rw [if_neg h11] at h
  cases h

theorem own_ra {t : Int} {b : Nat} (h : own t = some (32, b)) : t = 96 := by
  unfold own at h
  by_cases h0 : t = 75 ∨ t = 95 ∨ t = 16 ∨ t = 140
  · rw [if_pos h0] at h
    simp at h
  rw [if_neg h0] at h
  by_cases h1 : t = 37
  · rw [if_pos h1] at h
    simp at h
  rw [if_neg h1] at h
  by_cases h2 : t = 94 ∨ t = 56
  · rw [if_pos h2] at h
    simp at h
  rw [if_neg h2] at h
  by_cases h3 : t = 52 ∨ t = 34 ∨ t = 136
  · rw [if_pos h3] at h
    simp at h
  rw [if_neg h3] at h
  by_cases h4 : t = 65
  · rw [if_pos h4] at h
    simp at h
  rw [if_neg h4] at h
  by_cases h5 : t = 96
  · exact h5
  rw [if_neg h5] at h
  by_cases h6 : t = 29
  · rw [if_pos h6] at h
    simp at h
  rw [if_neg h6] at h
  by_cases h7 : t = 50
  · rw [if_pos h7] at h
    simp at h
  rw [if_neg h7] at h
  by_cases h8 : t = 19
  · rw [if_pos h8] at h
    simp at h
  rw [if_neg h8] at h
  by_cases h9 : t = 17
  · rw [if_pos h9] at h
    simp at h
  rw [if_neg h9] at h
  by_cases h10 : t = 101
  · rw [if_pos h10] at h
    simp at h
  rw [if_neg h10] at h
  by_cases h11 : t = 132
  · rw [if_pos h11] at h
    simp at h
  rw [if_neg h11] at h
  cases h

theorem own_dec {t : Int} {b : Nat} (h : own t = some (44, b)) : t = 29 := by
  unfold own at h
  by_cases h0 : t = 75 ∨ t = 95 ∨ t = 16 ∨ t = 140
  · rw [if_pos h0] at h
    simp at h
  rw [if_neg h0] at h
  by_cases h1 : t = 37
  · rw [if_pos h1] at h
    simp at h
  rw [if_neg h1] at h
  by_cases h2 : t = 94 ∨ t = 56
  · rw [if_pos h2] at h
    simp at h
  rw [if_neg h2] at h
  by_cases h3 : t = 52 ∨ t = 34 ∨ t = 136
  · rw [if_pos h3] at h
    simp at h
  rw [if_neg h3] at h
  by_cases h4 : t = 65
  · rw [if_pos h4] at h
    simp at h
  rw [if_neg h4] at h
  by_cases h5 : t = 96
  · rw [if_pos h5] at h
    simp at h
  rw [if_neg h5] at h
  by_cases h6 : t = 29
  · exact h6
  rw [if_neg h6] at h
  by_cases h7 : t = 50
  · rw [if_pos h7] at h
    simp at h
  rw [if_neg h7] at h
  by_cases h8 : t = 19
  · rw [if_pos h8] at h
    simp at h
  rw [if_neg h8] at h
  by_cases h9 : t = 17
  · rw [if_pos h9] at h
    simp at h
  rw [if_neg h9] at h
  by_cases h10 : t = 101
  · rw [if_pos h10] at h
    simp at h
  rw [if_neg h10] at h
  by_cases h11 : t = 132
  · rw [if_pos h11] at h
    simp at h
  rw [if_neg h11] at h
  cases h

theorem own_stn {t : Int} {b : Nat} (h : own t = some (77, b)) : t = 132 := by
  unfold own at h
  by_cases h0 : t = 75 ∨ t = 95 ∨ t = 16 ∨ t = 140
  · rw [if_pos h0] at h
    simp at h
  rw [if_neg h0] at h
  by_cases h1 : t = 37
  · rw [if_pos h1] at h
    simp at h
  rw [if_neg h1] at h
  by_cases h2 : t = 94 ∨ t = 56
  · rw [if_pos h2] at h
    simp at h
  rw [if_neg h2] at h
  by_cases h3 : t = 52 ∨ t = 34 ∨ t = 136
  · rw [if_pos h3] at h
    simp at h
  rw [if_neg h3] at h
  by_cases h4 : t = 65
  · rw [if_pos h4] at h
    simp at h
  rw [if_neg h4] at h
  by_cases h5 : t = 96
  · rw [if_pos h5] at h
    simp at h
  rw [if_neg h5] at h
  by_cases h6 : t = 29
  · rw [if_pos h6] at h
    simp at h
  rw [if_neg h6] at h
  by_cases h7 : t = 50
  · rw [if_pos h7] at h
    simp at h
  rw [if_neg h7] at h
  by_cases h8 : t = 19
  · rw [if_pos h8] at h
    simp at h
  rw [if_neg h8] at h
  by_cases h9 : t = 17
  · rw [if_pos h9] at h
    simp at h
  rw [if_neg h9] at h
  by_cases h10 : t = 101
  · rw [if_pos h10] at h
    simp at h
  rw [if_neg h10] at h
  by_cases h11 : t = 132
  · exact h11
  rw [if_neg h11] at h
  cases h

theorem ranges_single : ∀ q ∈ ranges, (q.1 ≤ 12 → 12 ≤ q.2 → q.1 = 12) ∧ (q.1 ≤ 14 → 14 ≤ q.2 → q.1 = 14) := by decide

theorem fed_mark {e : Ext} {c d : Ctx} {els : List Elem} (h : Fed e (setup c) els d) (hs : ShortTimes els) : d.line 12 = 32 ∨ d.line 12 = 42 := by
  induction h with
  | nil => exact Or.inl rfl
  | state st _ ih => exact ih hs
  | @next els d r y _ hp ih =>
    have ih := ih fun z hz => hs z (by simp [hz])
    by_cases ho : y.1 = 37
    · rw [ho, show processTag e d 37 y.2.1 y.2.2 = .ok (if at? (y.2.1 ++ y.2.2) 0 = 42 then d.put 12 [42] else d, [], 0) from rfl,
        Outcome.ok.injEq] at hp
      rw [← hp]
      simp only
      split
      · exact Or.inr rfl
      · exact ih
    · rw [processTag_frame hp (hs y (by simp)) (i := 12)]
      · exact ih
      · rintro a b hab ⟨h1, h2⟩
        obtain rfl := (ranges_single _ (own_mem hab)).1 h1 h2
        exact ho (own_mark hab)

theorem mode_codes : ∀ x ∈ modes, x.2 ≠ 82 ∧ x.2 ≠ 114 := by decide +kernel

theorem modeByte_ne (s : List Nat) (old : Nat) (h : old ≠ 82 ∧ old ≠ 114) : modeByte s old ≠ 82 ∧ modeByte s old ≠ 114 := by
  have key : ∀ (l : List (List Nat × Nat)), (∀ x ∈ l, x.2 ≠ 82 ∧ x.2 ≠ 114) → ∀ o, o ≠ 82 ∧ o ≠ 114 →
      l.foldl (fun o x => if x.1 = s then x.2 else o) o ≠ 82 ∧ l.foldl (fun o x => if x.1 = s then x.2 else o) o ≠ 114 := by
    intro l
    induction l with
    | nil => intro _ o ho; exact ho
    | cons x l ih =>
      intro hl o ho
      rw [List.foldl_cons]
      refine ih (fun y hy => hl y (by simp [hy])) _ ?_
      split
      · exact hl x (by simp)
      · exact ho
  exact key modes mode_codes old h

theorem fed_mode {e : Ext} {c d : Ctx} {els : List Elem} (h : Fed e (setup c) els d) (hs : ShortTimes els) : d.line 14 ≠ 82 ∧ d.line 14 ≠ 114 := by
  induction h with
  | nil => exact ⟨by simp [setup], by simp [setup]⟩
  | state st _ ih => exact ih hs
  | @next els d r y _ hp ih =>
    have ih := ih fun z hz => hs z (by simp [hz])
    by_cases ho : y.1 = 52 ∨ y.1 = 34 ∨ y.1 = 136
    · rcases ho with ho | ho | ho
      · rw [ho, show processTag e d 52 y.2.1 y.2.2 = .ok (if y.2.1.length = 3 then d.put 14 [modeByte y.2.1 (d.line 14)] else d, [], 0) from rfl,
          Outcome.ok.injEq] at hp
        rw [← hp]
        simp only
        split
        · exact modeByte_ne _ _ ih
        · exact ih
      · rw [ho, show processTag e d 34 y.2.1 y.2.2 = .ok (d.put 14 [88], [], 0) from rfl, Outcome.ok.injEq] at hp
        rw [← hp]
        exact ⟨by simp [Ctx.put, blit, at?], by simp [Ctx.put, blit, at?]⟩
      · rw [ho] at hp
        have hp := named_ok (quiet_ok hp)
        split at hp
        · rw [Outcome.ok.injEq] at hp
          rw [← hp]
          exact ⟨by simp [Ctx.put, blit, at?], by simp [Ctx.put, blit, at?]⟩
        · split at hp
          · rw [Outcome.ok.injEq] at hp
            rw [← hp]
            exact ⟨by simp [Ctx.put, blit, at?], by simp [Ctx.put, blit, at?]⟩
          · split at hp
            · rw [Outcome.ok.injEq] at hp
              rw [← hp]
              exact ⟨by simp [Ctx.put, blit, at?], by simp [Ctx.put, blit, at?]⟩
            · cases hp
    · rw [processTag_frame hp (hs y (by simp)) (i := 14)]
      · exact ih
      · rintro a b hab ⟨h1, h2⟩
        obtain rfl := (ranges_single _ (own_mem hab)).2 h1 h2
        exact ho (own_mode hab)

/-- The 80 columns. -/
def columns (c : Ctx) : List Nat := (List.range 80).map c.line

theorem columns_get {c : Ctx} {l : List Nat} (hl : l.take 80 = columns c) {i : Nat} (hi : i < 80) : l[i]? = some (c.line i) := by
  have : (l.take 80)[i]? = some (c.line i) := by
    rw [hl]
    simp [columns, hi]
  rwa [List.getElem?_take_of_lt hi] at this

theorem columns_part {c : Ctx} {l : List Nat} (hl : l.take 80 = columns c) {a w : Nat} (h : a + w ≤ 80) :
    (l.drop a).take w = (List.range' a w).map c.line := by
  have hlen : 80 ≤ l.length := by
    have := congrArg List.length hl
    simp [columns] at this
    omega
  apply List.ext_getElem?
  intro i
  by_cases hi : i < w
  · rw [List.getElem?_take_of_lt hi, List.getElem?_drop, columns_get hl (by omega)]
    simp [hi]
  · rw [List.getElem?_eq_none (by simp; omega), List.getElem?_eq_none (by simp; omega)]

/-- The four elements that every observation has, with what is said about each value. -/
structure Observation (els : List Elem) (time ra dec stn : Elem) : Prop where
  timeTag : time.1 = 65
  raTag : ra.1 = 96
  decTag : dec.1 = 29
  stnTag : stn.1 = 132
  hasTime : time ∈ els
  hasRa : ra ∈ els
  hasDec : dec ∈ els
  hasStn : stn ∈ els
  oneTime : ∀ x ∈ els, x.1 = 65 → x = time
  oneRa : ∀ x ∈ els, x.1 = 96 → x = ra
  oneDec : ∀ x ∈ els, x.1 = 29 → x = dec
  oneStn : ∀ x ∈ els, x.1 = 132 → x = stn

/-- **C85.** Whatever elements an observation is made of, and in whatever order they come: if it has one time, from 1700 to 2099 and of no
    more than three decimals, one right ascension, one declination and one station, then the 80 columns are read back as the same
    time, the same angles and the same station. -/
theorem C85_observation {e : Ext} {c k : Ctx} {els : List Elem} (hfed : Fed e (setup c) els k) {ts tm rs rm ds dm st sm sg : List Nat} {b : Bool}
    (ho : Observation els (65, ts, tm) (96, plusSign b ++ rs, rm) (29, sg ++ ds, dm) (132, st, sm))
    {d m y hour minute second p v : Nat} (ht : AdesTime ts d m y hour minute second p v) (h1 : 1700 ≤ y) (h2 : y ≤ 2099) (hp : p ≤ 3)
    {n : Int} (hn : MixedDate d m y n)
    {rz rp rv : Nat} (hr : AdesDegrees 3 rs rz rp rv) (hrm : 8 ≤ rp → Scan.Stops rm)
    {g dz dp dv : Nat} (hg : DecSign sg g) (hd : AdesDegrees 2 ds dz dp dv) (hdm : 8 ≤ dp → Scan.Stops dm)
    (hst : st.length = 3) (hst' : ∀ x ∈ st, 33 ≤ x ∧ x ≤ 122)
    {l : List Nat} (hl : l.take 80 = columns k) (hlen : l.length ≤ 82) :
    extractDate l = ((n : ℚ) - 1 / 2 + ((hour : ℚ) / 24 + (minute : ℚ) / 1440 + ((second : ℚ) + (v : ℚ) / 10 ^ p) / 86400), some (20 + p)) ∧
    (∃ x y : ℚ, |x - ((rz : ℚ) + (rv : ℚ) / 10 ^ rp)| ≤ allowed rp ∧ |y - ((dz : ℚ) + (dv : ℚ) / 10 ^ dp)| ≤ allowed dp ∧
      getRaDecReport l = .ok (0, (x / 15, 200 + (min rp 8 : Nat), 3600 / 15 / 10 ^ (min rp 8)),
        (Spec.signed (g == 45) y, 100 + (min dp 8 : Nat), 3600 / 10 ^ (min dp 8)))) ∧
    (l.drop 77).take 3 = st := by
  have hs : ShortTimes els := by
    intro x hx h65
    rw [ho.oneTime x hx h65, time_length (more := tm) ht h1 h2]
    omega
  have hlen' : 80 ≤ l.length := by
    have := congrArg List.length hl
    simp [columns] at this
    omega
  have hblank : ∀ i, i < 80 → (setup c).line i = 32 := by
    intro i hi
    simp [setup, hi]
  -- the time
  have tcol : ∀ i, 15 ≤ i → i < 15 + 17 → k.line i = blit (setup c).line 15 (fitsTime (ts ++ tm)) i := by
    intro i i1 i2
    rw [fed_columns hfed hs (x := (65, ts, tm)) (a := 15) (b := 31) rfl (fun y hy ⟨b', hb⟩ => ho.oneTime y hy (own_time hb)) (k := 15)
      (s := fitsTime (ts ++ tm)) (by
        intro d' r hr' i _ _
        rw [time_put ht h1 h2 hp, Outcome.ok.injEq] at hr'
        rw [← hr']) i1 (by omega), if_pos ho.hasTime]
  have tlen := time_length (more := tm) ht h1 h2
  have ttext := card_text (w := 17) (by omega) tcol (fun i i1 i2 => hblank i (by omega))
  obtain ⟨c', hc', hfield⟩ := C85_time (more := tm) (e := e) (c := setup c) ht h1 h2 hp (fun i i1 i2 => hblank i (by omega))
  have hc1 : c'.line = blit (setup c).line 15 (fitsTime (ts ++ tm)) := by
    rw [time_put ht h1 h2 hp, Outcome.ok.injEq] at hc'
    have := congrArg Prod.fst hc'
    simp only at this
    rw [← this]
  have hsame : (List.range' 15 17).map c'.line = (l.drop 15).take 17 := by
    rw [columns_part hl (by omega), ttext, hc1, card_text (w := 17) (m := (setup c).line) (s := fitsTime (ts ++ tm)) (by omega) (fun i _ _ => rfl)
      (fun i i1 i2 => hblank i (by omega))]
  rw [hsame] at hfield
  -- the station
  have scol : ∀ i, 77 ≤ i → i < 77 + 3 → k.line i = blit (setup c).line 77 st i := by
    intro i i1 i2
    rw [fed_columns hfed hs (x := (132, st, sm)) (a := 77) (b := 79) rfl (fun y hy ⟨b', hb⟩ => ho.oneStn y hy (own_stn hb)) (k := 77)
      (s := st) (by
        intro d' r hr' i _ _
        rw [show processTag e d' 132 st sm = .ok (d'.put 77 [at? (st ++ sm) 0, at? (st ++ sm) 1, at? (st ++ sm) 2], [], 0) from rfl,
          Outcome.ok.injEq] at hr'
        rw [← hr']
        match st, hst with
        | [a, b, c], _ => rfl) i1 (by omega), if_pos ho.hasStn]
  have stext := card_text (w := 3) (by omega) scol (fun i i1 i2 => hblank i (by omega))
  rw [hst, Nat.sub_self, List.replicate_zero, List.append_nil] at stext
  have hstn : (l.drop 77).take 3 = st := by rw [columns_part hl (by omega), stext]
  have hobs : ObsLine l ((l.drop 15).take 17) := by
    refine ⟨hlen', hlen, ?_, ?_, rfl⟩
    · rw [columns_get hl (by omega)]
      rcases fed_mark hfed hs with h | h <;> simp [h]
    · intro i i1 i2
      refine ⟨k.line i, columns_get hl i2, ?_⟩
      rw [scol i i1 (by omega), blit_in (by omega)]
      apply hst'
      unfold at?
      rw [List.getD_eq_getElem _ _ (by omega)]
      exact List.getElem_mem _
  have hmode := fed_mode hfed hs
  refine ⟨C71_date hobs hfield hn (by omega) (by
    rw [columns_get hl (by omega)]
    simpa using hmode), ?_, hstn⟩
  -- the angles
  obtain ⟨wr, hwr⟩ := C85_ra_any (b := b) hr hrm
  obtain ⟨wd, hwd⟩ := C85_dec_any hg hd hdm
  obtain ⟨d1, r1, q1⟩ := fed_processed hfed ho.hasRa
  obtain ⟨d2, r2, q2⟩ := fed_processed hfed ho.hasDec
  obtain ⟨-, lr, -, x, hx, readr⟩ := hwr _ _ _ q1
  obtain ⟨-, ld, -, y', hy, readd⟩ := hwd _ _ _ q2
  have rcol : ∀ i, 32 ≤ i → i < 32 + 12 → k.line i = blit (setup c).line 32 wr i := by
    intro i i1 i2
    rw [fed_columns hfed hs (x := (96, plusSign b ++ rs, rm)) (a := 32) (b := 43) rfl (fun y hy ⟨b', hb⟩ => ho.oneRa y hy (own_ra hb))
      (k := 32) (s := wr) (fun d' r hr' i _ _ => (hwr _ _ _ hr').1 i) i1 (by omega), if_pos ho.hasRa]
  have dcol : ∀ i, 44 ≤ i → i < 44 + 13 → k.line i = blit (setup c).line 44 (g :: wd) i := by
    intro i i1 i2
    rw [fed_columns hfed hs (x := (29, sg ++ ds, dm)) (a := 44) (b := 56) rfl (fun y hy ⟨b', hb⟩ => ho.oneDec y hy (own_dec hb))
      (k := 44) (s := g :: wd) (fun d' r hr' i _ _ => (hwd _ _ _ hr').1 i) i1 (by omega), if_pos ho.hasDec]
  have rtext := card_text (w := 12) lr rcol (fun i i1 i2 => hblank i (by omega))
  have dtext := card_text (w := 13) (by simp; omega) dcol (fun i i1 i2 => hblank i (by omega))
  have g1 := readr (l.drop 32) (by rw [columns_part hl (by omega), rtext])
  have g2 : getRaDec (l.drop 44) = .ok (Spec.signed (g == 45) y', 100 + ((min dp 8 : Nat) : Int), 3600 / 10 ^ (min dp 8)) := by
    have e44 : l.drop 44 = g :: l.drop 45 := by
      rw [List.drop_eq_getElem_cons (by omega)]
      congr 1
      have := columns_get hl (i := 44) (by omega)
      rw [List.getElem?_eq_getElem (by omega), Option.some.injEq] at this
      rw [this, dcol 44 (by omega) (by omega), blit_in (by simp)]
      rfl
    rw [e44]
    refine readd _ _ (by cases hg <;> simp) ?_
    have := columns_part hl (a := 44) (w := 13) (by omega)
    rw [dtext, e44, List.take_succ_cons, List.cons_append, List.cons.injEq] at this
    rw [this.2]
    simp
  refine ⟨x, y', hx, hy, ?_⟩
  obtain ⟨code, hcode, h0, -⟩ := C72_report g1 g2
  rw [hcode, h0.2 ⟨by simp only; omega, by simp only; omega⟩]

end Verif.Props
