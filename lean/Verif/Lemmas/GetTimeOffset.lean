import Verif.Lemmas.GetTimePlain

/-! # Offsets at the end of a time -/

namespace Verif.GetTime

open Verif Verif.Time Verif.Date Verif.Scan Verif.Spec Verif.Props

variable {K : Type} [Field K] [LinearOrder K] [IsStrictOrderedRing K] [FloorRing K]

/-- Everything after the offsets have been taken off, lines 452-892. -/
def afterOffsets (env : Env K) (f : Fmt) (n : Nat) (init : K) (p : K × List Nat) : Run (K × Int) :=
  match (if p.2.length > 1 then phaseIdx (at? p.2 (p.2.length - 2)) (at? p.2 (p.2.length - 1)) else none) with
  | some k =>
    (getTime env f n init (p.2.take (p.2.length - 2))).bind fun q =>
    .ok (env.phase k q.1 + p.1, if q.1 ≠ -2451545 then 1 else 0)
  | none =>
    let c := checkBc p.2
    let s := keywords env ⟨-2451545, c.2, 0, init⟩
    if s.rval ≠ -2451545 then .ok (s.rval + p.1, s.flag)
    else dateAndTime env f c.1 p.1 s

theorem getTime_succ (env : Env K) (f : Fmt) (n : Nat) (init : K) (text : List Nat) :
    getTime env f (n + 1) init text =
      if (trimStart text).length ≥ 80 ∨ trimStart text = [] then .ok (init, -3)
      else (normalise (trimStart text)).bind fun str =>
        (offsets (str.length + 1) 0 (trimEnd str)).bind (afterOffsets env f n init) := rfl

/-- A result later by `a` days; the error -2 stays as it is. -/
def shift (a : K) (r : Run (K × Int)) : Run (K × Int) :=
  r.bind fun q => if q.2 = -2 then .ok q else .ok (q.1 + a, q.2)

theorem shift_bind {α : Type} (a : K) (r : Run α) (g h : α → Run (K × Int)) (hg : ∀ x, g x = shift a (h x)) :
    r.bind g = shift a (r.bind h) := by
  cases r with
  | ok x => exact hg x
  | abort => rfl
  | ub => rfl
  | hang => rfl

theorem finish_shift (f : Fmt) (bc : Bool) (d : Ymd K) (h m : Int) (s o a : K) (flag : Int) (hf : flag ≠ -2) :
    ((finish f bc d h m s (o + a)).bind fun t => .ok (t, flag)) = shift a ((finish f bc d h m s o).bind fun t => .ok (t, flag)) := by
  unfold finish
  simp only
  cases dmyToDay (trunc d.dday) d.month (if bc = true then 1 - d.year else d.year) f.calendar with
  | none => rfl
  | some z =>
    simp only [shift, Run.bind, if_neg hf]
    congr 2
    ring

theorem readField_flag (env : Env K) (k : Nat) (e : Int) (t : List Nat) (g : Fields K) (hg : g.flag ≠ -2) (he : e ≠ -2) :
    (readField env k e t g).flag ≠ -2 := by
  unfold readField
  split
  · exact hg
  · simp only
    split_ifs <;> assumption

theorem thirdField_flag (env : Env K) (s : List Nat) (g : Fields K) (hg : g.flag ≠ -2) : (thirdField env s g).flag ≠ -2 := by
  unfold thirdField
  split
  · exact hg
  · split
    · exact hg
    · simp only
      split <;> (simp only; split_ifs <;> first | assumption | decide)

theorem readFields_flag (env : Env K) (symbol : Nat) (first rest : List Nat) (flag : Int) (hf : flag ≠ -2) :
    (readFields env symbol first rest flag).flag ≠ -2 := by
  unfold readFields
  simp only
  have h1 := readField_flag env 1 (-4) first ⟨[], 0, 0, flag⟩ hf (by decide)
  have h2 := readField_flag env 2 (-5) (rest.takeWhile fun c => c != symbol && c != 32) _ h1 (by decide)
  split_ifs
  · exact thirdField_flag env _ _ h2
  · exact h2

theorem loneNumber_flag (s : List Nat) (cur : Ymd K) (t : K) (fl : Option Int) (h : loneNumber s cur = .time t fl) :
    fl = none ∨ fl = some 1 := by
  unfold loneNumber at h
  split at h
  · cases h
  · simp only at h
    split_ifs at h <;> first | (cases h; simp; done) | cases h

theorem lone_flag (env : Env K) (init : K) (s : List Nat) (cur : Ymd K) (t : K) (fl : Option Int)
    (h : lone env init s cur = .time t fl) : fl = none ∨ fl = some 1 := by
  unfold lone at h
  split_ifs at h
  split at h
  · cases h
  · split at h
    · cases h
    · exact loneNumber_flag s cur t fl h

theorem dateOnly_shift (env : Env K) (f : Fmt) (bc : Bool) (o a init : K) (flag : Int) (hf : flag ≠ -2) (cur : Ymd K) (str : List Nat)
    (h m : Int) (s : K) :
    dateOnly env f bc (o + a) init flag cur str h m s = shift a (dateOnly env f bc o init flag cur str h m s) := by
  unfold dateOnly
  simp only
  split_ifs
  · exact finish_shift f bc cur h m s o a flag hf
  · apply shift_bind
    intro d
    exact finish_shift f bc d h m s o a _ (readFields_flag env _ _ _ flag hf)
  · cases hl : lone env init str cur with
    | date d => exact finish_shift f bc d h m s o a flag hf
    | time t fl =>
      have hfl : fl.getD flag ≠ -2 := by
        rcases lone_flag env init str cur t fl hl with rfl | rfl
        · exact hf
        · simp
      simp only [shift, Run.bind, if_neg hfl]
      congr 2
      ring
    | error => rfl

theorem dateAndTime_shift (env : Env K) (f : Fmt) (bc : Bool) (o a : K) (s : St K) (hf : s.flag ≠ -2) :
    dateAndTime env f bc (o + a) s = shift a (dateAndTime env f bc o s) := by
  unfold dateAndTime
  simp only
  split_ifs
  all_goals first | exact finish_shift f bc _ _ _ _ o a s.flag hf | exact dateOnly_shift env f bc o a s.init s.flag hf _ _ _ _ _

theorem keywords_flag (env : Env K) (s : St K) (hf : s.flag ≠ -2) : (keywords env s).flag ≠ -2 := by
  have h1 : (kwJd s).flag ≠ -2 := by
    unfold kwJd
    by_cases h0 : at? s.str 0 = 106
    · rw [if_pos h0]
      simp only
      split_ifs <;> first | exact hf | decide
    · rw [if_neg h0]; exact hf
  have h2 : (kwYear (kwJd s)).flag ≠ -2 := by unfold kwYear; split_ifs <;> exact h1
  have h3 : (kwMjd (kwYear (kwJd s))).flag ≠ -2 := by
    unfold kwMjd; split_ifs
    · simp
    · exact h2
  have h4 : (kwGps (kwMjd (kwYear (kwJd s)))).flag ≠ -2 := by unfold kwGps; split_ifs <;> exact h3
  have h5 : (kwUnix (kwGps (kwMjd (kwYear (kwJd s))))).flag ≠ -2 := by unfold kwUnix; split_ifs <;> exact h4
  have h6 : (kwNow env (kwUnix (kwGps (kwMjd (kwYear (kwJd s)))))).flag ≠ -2 := by unfold kwNow; split_ifs <;> exact h5
  unfold keywords kwEmpty
  split_ifs <;> exact h6

theorem afterOffsets_shift (env : Env K) (f : Fmt) (n : Nat) (init o a : K) (s : List Nat) :
    afterOffsets env f n init (o + a, s) = shift a (afterOffsets env f n init (o, s)) := by
  unfold afterOffsets
  simp only
  split
  · apply shift_bind
    intro q
    unfold shift
    simp only [Run.bind]
    have : (if q.1 ≠ -2451545 then (1 : Int) else 0) ≠ -2 := by split_ifs <;> decide
    rw [if_neg this]
    congr 2
    ring
  · have hf := keywords_flag env ⟨-2451545, (checkBc s).2, 0, init⟩ (by simp)
    generalize keywords env ⟨-2451545, (checkBc s).2, 0, init⟩ = st at *
    split_ifs
    · simp only [shift, Run.bind, if_neg hf]
      congr 2
      ring
    · exact dateAndTime_shift env f _ o a _ hf

/-! ## The loop -/

theorem trimEnd_append (a : List Nat) : ∃ k, a = trimEnd a ++ List.replicate k 32 := by
  unfold trimEnd
  refine ⟨(a.reverse.takeWhile (· == 32)).length, ?_⟩
  have h : a.reverse.takeWhile (· == 32) = List.replicate (a.reverse.takeWhile (· == 32)).length 32 := by
    rw [List.eq_replicate_iff]
    refine ⟨rfl, ?_⟩
    intro b hb
    have := List.all_takeWhile (p := (· == 32)) (l := a.reverse)
    rw [List.all_eq_true] at this
    simpa using this b hb
  have e := List.takeWhile_append_dropWhile (p := (· == 32)) (l := a.reverse)
  have e2 := congrArg List.reverse e
  rw [List.reverse_append, List.reverse_reverse] at e2
  rw [h, List.reverse_replicate] at e2
  exact e2.symm

theorem trimEnd_length (a : List Nat) : (trimEnd a).length ≤ a.length := by
  obtain ⟨k, h⟩ := trimEnd_append a
  rw [congrArg List.length h, List.length_append]
  omega

theorem trimEnd_trimEnd (a : List Nat) : trimEnd (trimEnd a) = trimEnd a := by
  apply trimEnd_of
  unfold trimEnd
  intro x hx
  rw [List.getLast?_reverse] at hx
  have := List.head?_dropWhile_not (· == 32) a.reverse
  rw [Option.mem_def] at hx
  rw [hx] at this
  simpa using this

theorem lastSign_some {s a b : List Nat} (h : lastSign s = some (a, b)) : s = a ++ b ∧ b ≠ [] := by
  induction s generalizing a with
  | nil => cases h
  | cons c s ih =>
    rw [lastSign] at h
    cases hs : lastSign s with
    | some p =>
      obtain ⟨a', b'⟩ := p
      rw [hs] at h
      simp only [Option.some.injEq, Prod.mk.injEq] at h
      obtain ⟨rfl, rfl⟩ := h
      obtain ⟨h1, h2⟩ := ih hs
      exact ⟨by rw [h1]; rfl, h2⟩
    | none =>
      rw [hs] at h
      simp only at h
      split_ifs at h
      simp only [Option.some.injEq, Prod.mk.injEq] at h
      obtain ⟨rfl, rfl⟩ := h
      exact ⟨rfl, by simp⟩

theorem lastSign_append {a b : List Nat} {c : Nat} (hc : c = 45 ∨ c = 43) (hb : ∀ x ∈ b, x ≠ 45 ∧ x ≠ 43) :
    lastSign (a ++ c :: b) = some (a, c :: b) := by
  have h0 : ∀ b : List Nat, (∀ x ∈ b, x ≠ 45 ∧ x ≠ 43) → lastSign b = none := by
    intro b
    induction b with
    | nil => intro _; rfl
    | cons x b ih =>
      intro hb
      have := hb x (by simp)
      rw [lastSign, ih (fun y hy => hb y (by simp [hy]))]
      simp only
      rw [if_neg (by tauto)]
  induction a with
  | nil => rw [List.nil_append, lastSign, h0 b hb]; simp only; rw [if_pos hc]
  | cons x a ih => rw [List.cons_append, lastSign, ih]

/-- Either nothing has changed or the text has become shorter. -/
theorem collectOffset_shorter (s : List Nat) :
    (collectOffset (K := K) s).2 = s ∨ (collectOffset (K := K) s).2.length < s.length := by
  unfold collectOffset
  split
  · rename_i hl
    split
    · split
      · exact Or.inl rfl
      · rename_i a b hs
        obtain ⟨h1, h2⟩ := lastSign_some hs
        have hlen : a.length < s.length := by
          rw [h1, List.length_append]
          have : b.length ≠ 0 := by simpa using h2
          omega
        split
        · exact Or.inl rfl
        · split
          · exact Or.inr (lt_of_le_of_lt (trimEnd_length a) hlen)
          · exact Or.inl rfl
    · split
      · split
        · exact Or.inr (by simp; omega)
        · exact Or.inl rfl
      · exact Or.inl rfl
  · exact Or.inl rfl

/-- The loop is given enough rounds. -/
theorem offsets_fuel (n m : Nat) (acc : K) (s : List Nat) (hn : s.length < n) (hm : s.length < m) :
    offsets n acc s = offsets m acc s := by
  induction n generalizing m acc s with
  | zero => omega
  | succ n ih =>
    cases m with
    | zero => omega
    | succ m =>
      rw [offsets, offsets]
      simp only
      split_ifs with h1 h2 h3
      · rfl
      · rfl
      · rfl
      · have := (collectOffset_shorter (K := K) s).resolve_left h3
        have h4 := trimEnd_length (collectOffset (K := K) s).2
        exact ih m _ _ (by omega) (by omega)

theorem offsets_add (n : Nat) (acc a : K) (s : List Nat) :
    offsets n (acc + a) s = (offsets n acc s).bind fun p => .ok (p.1 + a, p.2) := by
  induction n generalizing acc s with
  | zero => rfl
  | succ n ih =>
    rw [offsets, offsets]
    simp only
    split_ifs with h1 h2 h3
    · rfl
    · rfl
    · rfl
    · rw [show acc + a + (collectOffset (K := K) s).1 = acc + (collectOffset (K := K) s).1 + a by ring, ih]

end Verif.GetTime
