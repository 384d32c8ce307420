import Verif.Lemmas.GetTimeOffset
import Verif.Props.TimeRead

/-!
# Property theorems: offsets at the end of a time, and endless loops (C65)
-/

namespace Verif.Props
open Verif Verif.GetTime Verif.Spec Verif.Time Verif.Date Verif.Scan

variable {K : Type} [Field K] [LinearOrder K] [IsStrictOrderedRing K] [FloorRing K]

/-- Days in a second, minute, hour, day, week, lunation, year and century. -/
def unitDays (u : Nat) : Option K :=
  if u = 115 then some (1 / 86400) else if u = 109 then some (1 / 1440) else if u = 104 then some (1 / 24) else if u = 100 then some 1
  else if u = 119 then some 7 else if u = 108 then some (29530588853 / 1000000000) else if u = 121 then some (1461 / 4)
  else if u = 99 then some 36525 else none

theorem scales_eq (u : Nat) : (scales (K := K)).lookup u = unitDays u := by
  unfold scales unitDays
  have hb : ∀ k : Nat, (u == k) = decide (u = k) := fun k => rfl
  simp only [List.lookup, hb]
  split_ifs <;> simp_all

theorem unitDays_pos {u : Nat} {x : K} (h : unitDays u = some x) : 0 < x ∧ 97 ≤ u ∧ u ≤ 122 ∧ u ≠ 101 := by
  unfold unitDays at h
  split_ifs at h <;> (injection h with h; subst h; exact ⟨by positivity, by omega⟩)

/-- The number with its sign. -/
def signed (sgn : Nat) (v : K) : K := if sgn = 45 then -v else v

theorem real_neg (v p : Nat) (e : Int) : (real true v p e : K) = -real false v p e := by simp [real]

theorem scanReal_signed {t : List Nat} {v : K} {r : List Nat} {sgn : Nat} (hs : sgn = 45 ∨ sgn = 43) (h1 : skipSpace t = t)
    (h2 : sign t = (false, t)) (h : scanReal (K := K) t = some (v, r)) : scanReal (K := K) (sgn :: t) = some (signed sgn v, r) := by
  unfold scanReal at *
  simp only [h1, h2] at h
  have h3 : skipSpace (sgn :: t) = sgn :: t := skipSpace_of (by rcases hs with rfl | rfl <;> rfl)
  rw [h3]
  rcases hs with rfl | rfl
  · simp only [sign]
    cases hm : mantissa t with
    | none => rw [hm] at h; cases h
    | some q =>
      obtain ⟨m, p, s⟩ := q
      rw [hm] at h
      simp only at h ⊢
      cases he : exponent s with
      | none =>
        rw [he] at h
        simp only at h ⊢
        split_ifs at h ⊢
        injection h with h
        injection h with h3 h4
        rw [real_neg, h3, h4]; rfl
      | some q =>
        rw [he] at h
        simp only at h ⊢
        injection h with h
        injection h with h3 h4
        rw [real_neg, h3, h4]; rfl
  · simp only [sign]
    exact h

theorem scanReal_number {t rest : List Nat} {v : K} {dot : Bool} (h : NumField t v dot) {sgn : Nat} (hs : sgn = 45 ∨ sgn = 43) (hr : Stops rest) :
    scanReal (K := K) (sgn :: (t ++ rest)) = some (signed sgn v, rest) := by
  have hh := h.head
  have h0 : at? (t ++ rest) 0 = at? t 0 := at_append_left h.ne_nil
  have h1 : skipSpace (t ++ rest) = t ++ rest := skipSpace_of (by rw [h0]; simp [isSpace]; omega)
  exact scanReal_signed hs h1 (sign_of (by omega) (by omega)) (h.scanReal hr)

theorem last_two (P : List Nat) (a b : Nat) :
    at? (P ++ [a, b]) ((P ++ [a, b]).length - 1) = b ∧ at? (P ++ [a, b]) ((P ++ [a, b]).length - 2) = a := by
  have h1 : (P ++ [a, b]).length - 1 = P.length + 1 := by simp
  have h2 : (P ++ [a, b]).length - 2 = P.length := by simp
  rw [h1, h2]
  simp [at?, List.getD_eq_getElem?_getD]

/-- What the loop does with one offset at the end. -/
theorem collectOffset_unit {P ds : List Nat} {sgn u : Nat} {v x : K} {dot : Bool} (hs : sgn = 45 ∨ sgn = 43) (hd : NumField ds v dot)
    (hu : unitDays u = some x) :
    collectOffset (K := K) (P ++ sgn :: (ds ++ [32, u])) = (signed sgn v * x, trimEnd P) := by
  have hup := unitDays_pos hu
  have hl : (P ++ sgn :: (ds ++ [32, u])).length = (P ++ sgn :: ds).length + 2 := by simp; omega
  have e : P ++ sgn :: (ds ++ [32, u]) = (P ++ sgn :: ds) ++ [32, u] := by simp
  have h1 : at? (P ++ sgn :: (ds ++ [32, u])) ((P ++ sgn :: (ds ++ [32, u])).length - 1) = u := by
    rw [e]; exact (last_two _ _ _).1
  have h2 : at? (P ++ sgn :: (ds ++ [32, u])) ((P ++ sgn :: (ds ++ [32, u])).length - 2) = 32 := by
    rw [e]; exact (last_two _ _ _).2
  have h3 : lastSign (P ++ sgn :: (ds ++ [32, u])) = some (P, sgn :: (ds ++ [32, u])) := by
    apply lastSign_append hs
    intro y hy
    rcases List.mem_append.1 hy with h | h
    · have := hd.bytes y h; omega
    · simp only [List.mem_cons, List.not_mem_nil, or_false] at h; omega
  have h4 := scanReal_number hd hs (rest := [32, u]) ⟨rfl, by simp [at?], by simp [at?], by simp [at?]⟩
  have h5 : skipSpace [32, u] = [u] := by
    rw [skipSpace, if_pos (by rfl), skipSpace_of]
    simp [at?, isSpace]; omega
  unfold collectOffset
  rw [if_pos (by omega), h1, h2, scales_eq, hu]
  simp only [h3, h4, h5]

theorem signed_ne {sgn : Nat} {v x : K} (hv : v ≠ 0) (hx : 0 < x) : signed sgn v * x ≠ 0 := by
  unfold signed
  split_ifs
  · exact mul_ne_zero (neg_ne_zero.2 hv) hx.ne'
  · exact mul_ne_zero hv hx.ne'

theorem trimEnd_unit {P : List Nat} {u : Nat} (hu : u ≠ 32) : trimEnd (P ++ [u]) = P ++ [u] := by
  apply trimEnd_of
  intro x hx
  rw [List.getLast?_concat] at hx
  simp at hx
  omega

theorem offsets_unit {P ds : List Nat} {sgn u : Nat} {v x : K} {dot : Bool} (hs : sgn = 45 ∨ sgn = 43) (hd : NumField ds v dot)
    (hu : unitDays u = some x) (hv : v ≠ 0) (n : Nat) (hn : P.length < n) :
    offsets (K := K) (n + 1) 0 (trimEnd (P ++ sgn :: (ds ++ [32, u]))) =
      (offsets (K := K) (P.length + 1) 0 (trimEnd P)).bind fun p => .ok (p.1 + signed sgn v * x, p.2) := by
  have hup := unitDays_pos hu
  have e : P ++ sgn :: (ds ++ [32, u]) = (P ++ sgn :: (ds ++ [32])) ++ [u] := by simp
  have ht : trimEnd (P ++ sgn :: (ds ++ [32, u])) = P ++ sgn :: (ds ++ [32, u]) := by rw [e]; exact trimEnd_unit (by omega)
  have hP := trimEnd_length P
  rw [ht, offsets]
  simp only [collectOffset_unit hs hd hu]
  rw [if_neg (by simp), if_neg (signed_ne hv hup.1), if_neg (by
    intro h
    have := congrArg List.length h
    simp only [List.length_append, List.length_cons, List.length_nil] at this
    omega), trimEnd_trimEnd, offsets_add, offsets_fuel n (P.length + 1) 0 _ (by omega) (by omega)]

theorem normalise_short {text : List Nat} (hne : text ≠ []) (h : (spacedOut text).length < 80) : normalise text = .ok (spacedOut text) :=
  C62_copied text hne (by omega)

theorem spacedOut_length (s : List Nat) : s.length ≤ (spacedOut s).length := by
  have : ∀ (s : List Nat) (a : Nat), s.length ≤ (spacedRest a s).length := by
    intro s
    induction s with
    | nil => intro a; exact Nat.le_refl _
    | cons b s ih =>
      intro a
      have := ih b
      rw [spacedRest]
      split_ifs <;> simp only [List.length_cons] <;> omega
  cases s with
  | nil => exact Nat.le_refl _
  | cons a s => rw [spacedOut_cons]; simp only [List.length_cons]; have := this s a; omega

/-- **C65.** An offset written at the end ("+3.5h", "-2 w", any sign, number other than zero and unit) is added to
    what the text before it stands for, whatever that text is; errors, aborts and so on stay as they are. -/
theorem C65_offset_adds (env : Env K) (f : Fmt) (init : K) (base ds text : List Nat) (sgn u : Nat) (v x : K) (dec : Bool)
    (hs : sgn = 45 ∨ sgn = 43) (hd : Decimal v dec ds) (hv : v ≠ 0) (hu : unitDays u = some x)
    (hb : base ≠ []) (hb0 : at? base 0 ≠ 32) (ht0 : at? text 0 ≠ 32)
    (htext : spacedOut text = spacedOut base ++ sgn :: (ds ++ [32, u])) (hl : (spacedOut text).length < 80) :
    getTimeFromString env f init text =
      (getTimeFromString env f init base).bind fun q => if q.2 = -2 then .ok q else .ok (q.1 + signed sgn v * x, q.2) := by
  have htn : text ≠ [] := by rintro rfl; have := congrArg List.length htext; simp [spacedOut] at this
  have hl1 := spacedOut_length text
  have hl2 := spacedOut_length base
  have hl3 : (spacedOut base).length < (spacedOut text).length := by rw [htext]; simp
  unfold getTimeFromString
  rw [getTime_succ, getTime_succ, trimStart_of ht0, trimStart_of hb0, if_neg (by simp only [not_or]; exact ⟨by omega, htn⟩),
    if_neg (by simp only [not_or]; exact ⟨by omega, hb⟩), normalise_short htn hl, normalise_short hb (by omega)]
  simp only [Run.bind]
  rw [htext, offsets_unit hs hd.numField hu hv _ (by rw [htext] at hl3; exact hl3)]
  cases offsets (K := K) ((spacedOut base).length + 1) 0 (trimEnd (spacedOut base)) with
  | ok p =>
    obtain ⟨o, s⟩ := p
    exact afterOffsets_shift env f 79 init o _ s
  | abort => rfl
  | ub => rfl
  | hang => rfl

/-- **C65.** An offset alone is counted from the initial time. -/
theorem C65_offset_alone (env : Env K) (f : Fmt) (init : K) (hinit : init ≠ -2451545) (ds text : List Nat) (sgn u : Nat) (v x : K) (dec : Bool)
    (hs : sgn = 45 ∨ sgn = 43) (hd : Decimal v dec ds) (hv : v ≠ 0) (hu : unitDays u = some x) (ht0 : at? text 0 ≠ 32)
    (htext : spacedOut text = sgn :: (ds ++ [32, u])) (hl : (spacedOut text).length < 80) :
    getTimeFromString env f init text = .ok (init + signed sgn v * x, 0) := by
  have htn : text ≠ [] := by rintro rfl; have := congrArg List.length htext; simp [spacedOut] at this
  have hl1 := spacedOut_length text
  unfold getTimeFromString
  rw [getTime_succ, trimStart_of ht0, if_neg (by simp only [not_or]; exact ⟨by omega, htn⟩), normalise_short htn hl]
  simp only [Run.bind]
  have := offsets_unit (P := []) hs hd.numField hu hv (spacedOut text).length (by rw [htext]; simp)
  rw [List.nil_append, ← htext] at this
  rw [this]
  have h0 : offsets (K := K) (([] : List Nat).length + 1) 0 (trimEnd []) = .ok (0, []) := rfl
  rw [h0]
  simp only [Run.bind, afterOffsets]
  have hk : keywords env (⟨-2451545, [], 0, init⟩ : St K) = ⟨init, [], 0, init⟩ := by
    simp [keywords, kwJd, kwYear, kwMjd, kwGps, kwUnix, kwNow, kwEmpty, at?, bytes, List.isPrefixOf]
  have hc : checkBc [] = (false, []) := by decide
  simp only [List.length_nil, hc, hk]
  simp [hinit]

/-- **C65.** Finding: the loop never ends if the text ends in a blank and a unit and its last sign is followed by a
    number other than zero, white space and something more than the unit: "2009-03-05 12 h". -/
theorem C65_endless (env : Env K) (f : Fmt) (init : K) (pre ds mid text : List Nat) (sgn u c : Nat) (v x : K) (dec : Bool)
    (hs : sgn = 45 ∨ sgn = 43) (hd : Decimal v dec ds) (hv : v ≠ 0) (hu : unitDays u = some x)
    (hc : isSpace c = false) (hm : ∀ y ∈ c :: mid, y ≠ 45 ∧ y ≠ 43) (ht0 : at? text 0 ≠ 32)
    (htext : spacedOut text = pre ++ sgn :: (ds ++ 32 :: c :: (mid ++ [32, u]))) (hl : (spacedOut text).length < 80) :
    getTimeFromString env f init text = .hang := by
  have htn : text ≠ [] := by rintro rfl; have := congrArg List.length htext; simp [spacedOut] at this
  have hl1 := spacedOut_length text
  have hup := unitDays_pos hu
  unfold getTimeFromString
  rw [getTime_succ, trimStart_of ht0, if_neg (by simp only [not_or]; exact ⟨by omega, htn⟩), normalise_short htn hl]
  simp only [Run.bind]
  have e : spacedOut text = (pre ++ sgn :: (ds ++ 32 :: c :: mid)) ++ [32, u] := by rw [htext]; simp
  have e' : spacedOut text = (pre ++ sgn :: (ds ++ 32 :: c :: (mid ++ [32]))) ++ [u] := by rw [htext]; simp
  have ht : trimEnd (spacedOut text) = spacedOut text := by rw [e']; exact trimEnd_unit (by omega)
  have h1 : at? (spacedOut text) ((spacedOut text).length - 1) = u := by
    rw [e]; exact (last_two _ _ _).1
  have h2 : at? (spacedOut text) ((spacedOut text).length - 2) = 32 := by
    rw [e]; exact (last_two _ _ _).2
  have h3 : lastSign (spacedOut text) = some (pre, sgn :: (ds ++ 32 :: c :: (mid ++ [32, u]))) := by
    rw [htext]
    apply lastSign_append hs
    intro y hy
    simp only [List.mem_append, List.mem_cons, List.not_mem_nil, or_false] at hy
    rcases hy with h | h | h | h | h | h
    · have := hd.numField.bytes y h; omega
    · omega
    · exact hm y (by simp [h])
    · exact hm y (by simp [h])
    · omega
    · omega
  have h4 := scanReal_number hd.numField hs (rest := 32 :: c :: (mid ++ [32, u])) ⟨rfl, by simp [at?], by simp [at?], by simp [at?]⟩
  have h5 : skipSpace (32 :: c :: (mid ++ [32, u])) = c :: (mid ++ [32, u]) := by
    rw [skipSpace, if_pos (by rfl), skipSpace_of]
    exact hc
  have h6 : collectOffset (K := K) (spacedOut text) = (signed sgn v, spacedOut text) := by
    unfold collectOffset
    rw [if_pos (by rw [htext]; simp only [List.length_append, List.length_cons]; omega), h1, h2, scales_eq, hu]
    simp only [h3, h4, h5]
    cases mid <;> rfl
  have hne : signed sgn v ≠ 0 := by
    unfold signed
    split_ifs
    · exact neg_ne_zero.2 hv
    · exact hv
  rw [ht, offsets]
  simp only [h6]
  rw [if_neg (by rw [htext]; simp), if_neg hne]
  simp

/-- **C65.** Finding: a zero offset ends the loop, so that offsets before it are not taken as such. -/
theorem C65_zero_offset (P ds : List Nat) (sgn u : Nat) (x : K) (dec : Bool) (hs : sgn = 45 ∨ sgn = 43) (hd : Decimal (0 : K) dec ds)
    (hu : unitDays u = some x) (n : Nat) :
    offsets (K := K) (n + 1) 0 (P ++ sgn :: (ds ++ [32, u])) = .ok (0, trimEnd P) := by
  rw [offsets]
  simp only [collectOffset_unit hs hd.numField hu]
  rw [if_neg (by simp), if_pos (by simp [signed])]

/-! ## Nested calls -/

/-- Lower case, with blanks between digits and letters. -/
def Spaced (s : List Nat) : Prop := (∀ c ∈ s, lower c = c) ∧ s.IsChain (fun a b => ¬ Boundary a b)

theorem Spaced.infix {s t : List Nat} (h : Spaced s) (ht : t <:+: s) : Spaced t :=
  ⟨fun c hc => h.1 c (ht.subset hc), h.2.infix ht⟩

theorem Spaced.eq {s : List Nat} (h : Spaced s) : spacedOut s = s := by
  cases s with
  | nil => rfl
  | cons a s =>
    rw [spacedOut_cons, h.1 a (by simp)]
    congr 1
    have : ∀ (s : List Nat) (a : Nat), Spaced (a :: s) → spacedRest a s = s := by
      intro s
      induction s with
      | nil => intro a _; rfl
      | cons b s ih =>
        intro a h
        have h2 := h.2
        rw [List.isChain_cons_cons] at h2
        rw [spacedRest, if_neg h2.1, h.1 b (by simp), ih b (h.infix ⟨[a], [], by simp⟩)]
    exact this s a h

theorem lower_lower (c : Nat) : lower (lower c) = lower c := by
  unfold lower
  split_ifs <;> omega

theorem boundary_lower (a b : Nat) : Boundary (lower a) (lower b) ↔ Boundary a b := by
  unfold lower Boundary Letter Figure
  split_ifs <;> omega

theorem boundary_blank (a : Nat) : ¬ Boundary a 32 ∧ ¬ Boundary 32 a := by
  unfold Boundary Letter Figure
  omega

theorem spacedRest_spaced (a : Nat) (s : List Nat) : Spaced (lower a :: spacedRest a s) := by
  induction s generalizing a with
  | nil => exact ⟨by simp [spacedRest, lower_lower], by simp [spacedRest]⟩
  | cons b s ih =>
    obtain ⟨h1, h2⟩ := ih b
    rw [spacedRest]
    split_ifs with hb
    · refine ⟨?_, ?_⟩
      · intro c hc
        simp only [List.mem_cons] at hc
        rcases hc with rfl | rfl | hc
        · exact lower_lower a
        · rfl
        · exact h1 c (by simpa using hc)
      · rw [List.isChain_cons_cons, List.isChain_cons_cons]
        exact ⟨(boundary_blank _).1, (boundary_blank _).2, h2⟩
    · refine ⟨?_, ?_⟩
      · intro c hc
        rw [List.mem_cons] at hc
        rcases hc with rfl | hc
        · exact lower_lower a
        · exact h1 c hc
      · rw [List.isChain_cons_cons, boundary_lower]
        exact ⟨hb, h2⟩

theorem spacedOut_spaced (s : List Nat) : Spaced (spacedOut s) := by
  cases s with
  | nil => exact ⟨by simp [spacedOut], by simp [spacedOut]⟩
  | cons a s => rw [spacedOut_cons]; exact spacedRest_spaced a s

theorem normalise_prefix {text str : List Nat} (h : normalise text = .ok str) : str <+: spacedOut text ∧ str.length < 80 := by
  have h1 := C62_contents text (by rw [h]; simp)
  rw [h] at h1
  injection h1 with h1
  rw [h1]
  exact ⟨List.take_prefix _ _, by simp⟩

theorem normalise_spaced {text : List Nat} (h : Spaced text) (hne : text ≠ []) (hl : text.length < 80) : normalise text = .ok text := by
  have := normalise_short hne (by rw [h.eq]; exact hl)
  rwa [h.eq] at this

theorem trimEnd_prefix (s : List Nat) : trimEnd s <+: s := by
  obtain ⟨k, h⟩ := trimEnd_append s
  exact ⟨_, h.symm⟩

theorem trimStart_suffix (s : List Nat) : trimStart s <:+ s := List.dropWhile_suffix _

theorem collectOffset_prefix (s : List Nat) : (collectOffset (K := K) s).2 <+: s := by
  unfold collectOffset
  split
  · split
    · split
      · exact List.prefix_refl _
      · rename_i a b hs
        obtain ⟨h1, h2⟩ := lastSign_some hs
        split
        · exact List.prefix_refl _
        · split
          · exact (trimEnd_prefix a).trans ⟨b, h1.symm⟩
          · exact List.prefix_refl _
    · split
      · split
        · exact List.nil_prefix
        · exact List.prefix_refl _
      · exact List.prefix_refl _
  · exact List.prefix_refl _

theorem offsets_prefix (n : Nat) (acc : K) (s : List Nat) (o : K) (t : List Nat) (h : offsets n acc s = .ok (o, t)) : t <+: s := by
  induction n generalizing acc s with
  | zero => cases h
  | succ n ih =>
    rw [offsets] at h
    simp only at h
    split_ifs at h with h1 h2 h3
    · injection h with h; injection h with h4 h5; rw [h5]
    · injection h with h; injection h with h4 h5; rw [← h5]; exact collectOffset_prefix s
    · exact (ih _ _ h).trans ((trimEnd_prefix _).trans (collectOffset_prefix s))

theorem getTime_depth (env : Env K) (f : Fmt) (n : Nat) :
    ∀ (m : Nat) (init : K) (text : List Nat), Spaced text → text.length < 2 * n → n ≤ m →
      getTime env f m init text = getTime env f n init text := by
  induction n with
  | zero => intro m init text _ h; omega
  | succ n ih =>
    intro m init text hsp hl hm
    obtain ⟨m, rfl⟩ : ∃ k, m = k + 1 := ⟨m - 1, by omega⟩
    rw [getTime_succ, getTime_succ]
    split_ifs with h0
    · rfl
    · simp only [not_or] at h0
      have hsuf := trimStart_suffix text
      have hsp' := hsp.infix hsuf.isInfix
      have hlen := hsuf.length_le
      rw [normalise_spaced hsp' h0.2 (by omega)]
      simp only [Run.bind]
      cases ho : offsets (K := K) ((trimStart text).length + 1) 0 (trimEnd (trimStart text)) with
      | ok p =>
        obtain ⟨o, t⟩ := p
        have hpre := (offsets_prefix _ _ _ _ _ ho).trans (trimEnd_prefix _)
        have hlen2 := hpre.length_le
        simp only
        unfold afterOffsets
        simp only
        split
        · rename_i k hk
          have hlt : 1 < t.length := by
            by_contra hcon
            rw [if_neg hcon] at hk
            cases hk
          rw [ih m init _ (hsp'.infix ((List.take_prefix _ _).trans hpre).isInfix) (by rw [List.length_take]; omega) (by omega)]
        · rfl
      | abort => rfl
      | ub => rfl
      | hang => rfl

/-- **C65.** Lunar phases make the function call itself: at most 40 times one inside the other. -/
theorem C65_depth (env : Env K) (f : Fmt) (m : Nat) (hm : 41 ≤ m) (init : K) (text : List Nat) :
    getTime env f m init text = getTime env f 41 init text := by
  obtain ⟨m, rfl⟩ : ∃ k, m = k + 1 := ⟨m - 1, by omega⟩
  rw [getTime_succ, getTime_succ]
  split_ifs with h0
  · rfl
  · cases hn : normalise (trimStart text) with
    | ok str =>
      obtain ⟨h1, h2⟩ := normalise_prefix hn
      have hsp := (spacedOut_spaced (trimStart text)).infix h1.isInfix
      simp only [Run.bind]
      cases ho : offsets (K := K) (str.length + 1) 0 (trimEnd str) with
      | ok p =>
        obtain ⟨o, t⟩ := p
        have hpre := (offsets_prefix _ _ _ _ _ ho).trans (trimEnd_prefix _)
        have hlen2 := hpre.length_le
        simp only
        unfold afterOffsets
        simp only
        split
        · rw [getTime_depth env f 40 m init _ (hsp.infix ((List.take_prefix _ _).trans hpre).isInfix) (by rw [List.length_take]; omega) (by omega)]
        · rfl
      | abort => rfl
      | ub => rfl
      | hang => rfl
    | abort => rfl
    | ub => rfl
    | hang => rfl

theorem finish_hang (f : Fmt) (bc : Bool) (d : Ymd K) (h m : Int) (s o : K) (flag : Int) :
    ((finish f bc d h m s o).bind fun t => .ok (t, flag)) ≠ .hang := by
  unfold finish
  simp only
  split <;> simp [Run.bind]

theorem separated_hang (env : Env K) (f : Fmt) (bc : Bool) (g : Fields K) (cur : Ymd K) : separated env f bc g cur ≠ .hang := by
  unfold separated threeFields
  simp only
  split_ifs <;> simp [Run.bind]

theorem dateOnly_hang (env : Env K) (f : Fmt) (bc : Bool) (o init : K) (flag : Int) (cur : Ymd K) (str : List Nat) (h m : Int) (s : K) :
    dateOnly env f bc o init flag cur str h m s ≠ .hang := by
  unfold dateOnly
  simp only
  split_ifs
  · exact finish_hang f bc cur h m s o flag
  · cases hs : separated env f bc (readFields env (at? (firstField str).2 0) (firstField str).1 ((firstField str).2.drop 1) flag) cur with
    | ok d => exact finish_hang f bc d h m s o _
    | abort => simp [Run.bind]
    | ub => simp [Run.bind]
    | hang => exact absurd hs (separated_hang env f bc _ cur)
  · cases hl : lone env init str cur with
    | date d => exact finish_hang f bc d h m s o flag
    | time t fl => simp
    | error => simp

theorem dateAndTime_hang (env : Env K) (f : Fmt) (bc : Bool) (o : K) (s : St K) : dateAndTime env f bc o s ≠ .hang := by
  unfold dateAndTime
  simp only
  split_ifs
  all_goals first | exact finish_hang f bc _ _ _ _ o s.flag | exact dateOnly_hang env f bc o s.init s.flag _ _ _ _ _

theorem offsets_unsigned {s : List Nat} (h : ∀ c ∈ s, c ≠ 45 ∧ c ≠ 43) (n : Nat) : offsets (K := K) (n + 1) 0 s = .ok (0, s) := by
  have hl : lastSign s = none := by
    cases hs : lastSign s with
    | none => rfl
    | some p =>
      exfalso
      have : ∀ (s a b : List Nat), lastSign s = some (a, b) → 45 ∈ s ∨ 43 ∈ s := by
        intro s
        induction s with
        | nil => intro a b h; cases h
        | cons c s ih =>
          intro a b h
          rw [lastSign] at h
          cases hs : lastSign s with
          | some p => have := ih _ _ (by rw [hs]); simp only [List.mem_cons]; tauto
          | none =>
            rw [hs] at h
            simp only at h
            split_ifs at h with hc
            rcases hc with rfl | rfl <;> simp
      rcases this s p.1 p.2 (by rw [hs]) with h1 | h1
      · exact (h 45 h1).1 rfl
      · exact (h 43 h1).2 rfl
  have h0 : ¬ (at? s 0 = 45 ∨ at? s 0 = 43) := by
    cases s with
    | nil => simp [at?]
    | cons c s =>
      have := h c (by simp)
      simp only [at?, List.getD_cons_zero]
      tauto
  have hc : collectOffset (K := K) s = (0, s) := by
    unfold collectOffset
    split_ifs
    · split
      · rw [hl]
      · rfl
    · rfl
  rw [offsets]
  simp only [hc, if_true]
  split <;> rfl

theorem lower_sign {c : Nat} (h : lower c = 45 ∨ lower c = 43) : c = 45 ∨ c = 43 := by
  unfold lower at h
  split_ifs at h <;> omega

theorem spacedOut_mem {s : List Nat} {c : Nat} (h : c ∈ spacedOut s) : c = 32 ∨ ∃ d ∈ s, c = lower d := by
  have : ∀ (s : List Nat) (a : Nat), c ∈ spacedRest a s → c = 32 ∨ ∃ d ∈ s, c = lower d := by
    intro s
    induction s with
    | nil => intro a h; simp [spacedRest] at h
    | cons b s ih =>
      intro a h
      rw [spacedRest] at h
      split_ifs at h
      · simp only [List.mem_cons] at h
        rcases h with h | h | h
        · exact Or.inl h
        · exact Or.inr ⟨b, by simp, h⟩
        · exact (ih b h).imp id (fun ⟨d, hd, e⟩ => ⟨d, by simp [hd], e⟩)
      · simp only [List.mem_cons] at h
        rcases h with h | h
        · exact Or.inr ⟨b, by simp, h⟩
        · exact (ih b h).imp id (fun ⟨d, hd, e⟩ => ⟨d, by simp [hd], e⟩)
  cases s with
  | nil => simp [spacedOut] at h
  | cons a s =>
    rw [spacedOut_cons, List.mem_cons] at h
    rcases h with h | h
    · exact Or.inr ⟨a, by simp, h⟩
    · exact (this s a h).imp id (fun ⟨d, hd, e⟩ => ⟨d, by simp [hd], e⟩)

theorem afterOffsets_returns (env : Env K) (f : Fmt) (n : Nat) (init o : K) (t : List Nat)
    (h : 1 < t.length → getTime env f n init (t.take (t.length - 2)) ≠ .hang) : afterOffsets env f n init (o, t) ≠ .hang := by
  unfold afterOffsets
  simp only
  split
  · rename_i k hk
    have hlt : 1 < t.length := by
      by_contra hcon
      rw [if_neg hcon] at hk
      cases hk
    have := h hlt
    cases hg : getTime env f n init (t.take (t.length - 2)) with
    | ok q => simp [Run.bind]
    | abort => simp [Run.bind]
    | ub => simp [Run.bind]
    | hang => exact absurd hg this
  · split_ifs
    · simp
    · exact dateAndTime_hang env f _ o _

theorem getTime_returns (env : Env K) (f : Fmt) (n : Nat) :
    ∀ (init : K) (text : List Nat), Spaced text → (∀ c ∈ text, c ≠ 45 ∧ c ≠ 43) → text.length < 2 * n → getTime env f n init text ≠ .hang := by
  induction n with
  | zero => intro init text _ _ h; omega
  | succ n ih =>
    intro init text hsp hns hl
    rw [getTime_succ]
    split_ifs with h0
    · simp
    · simp only [not_or] at h0
      have hsuf := trimStart_suffix text
      have hsp' := hsp.infix hsuf.isInfix
      have hlen := hsuf.length_le
      rw [normalise_spaced hsp' h0.2 (by omega)]
      simp only [Run.bind]
      have hpre := trimEnd_prefix (trimStart text)
      have hlen2 := hpre.length_le
      have hns' : ∀ c ∈ trimEnd (trimStart text), c ≠ 45 ∧ c ≠ 43 := fun c hc => hns c (hsuf.subset (hpre.subset hc))
      rw [offsets_unsigned hns']
      apply afterOffsets_returns
      intro hlt
      apply ih
      · exact hsp'.infix ((List.take_prefix _ _).trans hpre).isInfix
      · exact fun c hc => hns' c (List.mem_of_mem_take hc)
      · rw [List.length_take]; omega

/-- **C65.** Without a plus or minus sign in the text the function always returns. -/
theorem C65_returns (env : Env K) (f : Fmt) (init : K) (text : List Nat) (h : ∀ c ∈ text, c ≠ 45 ∧ c ≠ 43) :
    getTimeFromString env f init text ≠ .hang := by
  unfold getTimeFromString
  rw [getTime_succ]
  split_ifs with h0
  · simp
  · cases hn : normalise (trimStart text) with
    | ok str =>
      obtain ⟨h1, h2⟩ := normalise_prefix hn
      have hsp := (spacedOut_spaced (trimStart text)).infix h1.isInfix
      have hpre := trimEnd_prefix str
      have hns' : ∀ c ∈ trimEnd str, c ≠ 45 ∧ c ≠ 43 := by
        intro c hc
        rcases spacedOut_mem (h1.subset (hpre.subset hc)) with rfl | ⟨d, hd, rfl⟩
        · omega
        · have := h d ((trimStart_suffix text).subset hd)
          constructor
          · intro he; have := lower_sign (Or.inl he); tauto
          · intro he; have := lower_sign (Or.inr he); tauto
      simp only [Run.bind]
      rw [offsets_unsigned hns']
      apply afterOffsets_returns
      intro hlt
      have hlen := hpre.length_le
      refine getTime_returns env f 79 init _ (hsp.infix ((List.take_prefix _ _).trans hpre).isInfix)
        (fun c hc => hns' c (List.mem_of_mem_take hc)) (by rw [List.length_take]; omega)
    | abort => simp [Run.bind]
    | ub => simp [Run.bind]
    | hang => 
      exfalso
      unfold normalise at hn
      split at hn
      · cases hn
      · simp only at hn; split_ifs at hn

/-! ## Examples -/

/-- "2009 3 5 +36h" is a day and a half after "2009 3 5". -/
example : getTimeFromString exampleEnv exampleFmt 0 (bytes "2009 3 5 +36h") =
    (getTimeFromString exampleEnv exampleFmt 0 (bytes "2009 3 5 ")).bind
      fun q => if q.2 = -2 then .ok q else .ok (q.1 + signed 43 36 * (1 / 24), q.2) :=
  C65_offset_adds exampleEnv exampleFmt 0 (bytes "2009 3 5 ") (bytes "36") _ 43 104 36 (1 / 24) false (by decide)
    ⟨36, by unfold Whole AllDigits value; decide, by norm_num⟩ (by norm_num) rfl (by decide) (by decide) (by decide) (by decide) (by decide)

/-- "-2 w" -/
example : getTimeFromString exampleEnv exampleFmt 100 (bytes "-2 w") = .ok (100 + signed 45 2 * 7, 0) :=
  C65_offset_alone exampleEnv exampleFmt 100 (by norm_num) (bytes "2") _ 45 119 2 7 false (by decide)
    ⟨2, by unfold Whole AllDigits value; decide, by norm_num⟩ (by norm_num) rfl (by decide) (by decide) (by decide)

/-- "2009-03-05 12h" -/
example : getTimeFromString exampleEnv exampleFmt 100 (bytes "2009-03-05 12h") = .hang :=
  C65_endless exampleEnv exampleFmt 100 (bytes "2009-03") (bytes "05") (bytes "2") _ 45 104 49 5 (1 / 24) false (by decide)
    ⟨5, by unfold Whole AllDigits value; decide, by norm_num⟩ (by norm_num) rfl (by decide) (by decide) (by decide) (by decide) (by decide)

example : getTimeFromString exampleEnv exampleFmt 100 (bytes "2009 03 05 12h") ≠ .hang := C65_returns _ _ _ _ (by decide)

/-- "2009 3 5+1 d-0 h": the loop ends before it has seen the day. -/
example : offsets (K := ℚ) 41 0 (bytes "2009 3 5+1 d" ++ 45 :: (bytes "0" ++ [32, 104])) = .ok (0, bytes "2009 3 5+1 d") :=
  C65_zero_offset (bytes "2009 3 5+1 d") (bytes "0") 45 104 (1 / 24) false (by decide)
    ⟨0, by unfold Whole AllDigits value; decide, by norm_num⟩ rfl 40

example : getTime exampleEnv exampleFmt 80 0 (bytes "5 jan 2009 fm nm") = getTime exampleEnv exampleFmt 41 0 (bytes "5 jan 2009 fm nm") :=
  C65_depth _ _ 80 (by omega) _ _

end Verif.Props
