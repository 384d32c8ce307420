import Verif.Model.B32
import Verif.Spec.Horizons
import Verif.Lemmas.Scan
import Mathlib.Tactic.SplitIfs
import Mathlib.Tactic.Ring
import Mathlib.Tactic.FieldSimp
import Mathlib.Tactic.Linarith
import Mathlib.Data.Rat.Floor
import Mathlib.Algebra.Order.Field.Basic

/-!
# C109: files of scaled integers from Horizons tables
-/

namespace Verif.Props

open Verif Verif.Spec Verif.Spec.Horizons Verif.B32

/-! ## Numbers and lines -/

theorem cstr_load (b : List Nat) {l : List Nat} (h0 : 0 ∉ l) {i : Nat} (hi : i ≤ l.length) :
    Multipart.cstr ((load b l).drop i) = l.drop i := by
  unfold load Multipart.cstr
  rw [List.drop_append_of_le_length hi, List.takeWhile_append_of_pos]
  · simp
  · intro c hc
    have : c ≠ 0 := fun e => h0 (e ▸ List.mem_of_mem_drop hc)
    simpa using this

theorem sci_read {t rest : List Nat} {x : ℚ} (h : SciText t x) (hr : ∀ d, rest.head? = some d → ¬(48 ≤ d ∧ d ≤ 57)) :
    MpcLine.atof (t ++ rest) = x := by
  obtain ⟨neg, eneg, ds, fs, es, hd, hne, hf, he, hene, rfl, rfl⟩ := h
  have hr' : isDigit (at? rest 0) = false := by
    cases rest with
    | nil => rfl
    | cons c r =>
      have := hr c rfl
      simp [at?, isDigit]
      omega
  have hs : Scan.sign (Scan.skipSpace ((if neg then 45 else 32) :: ds ++ 46 :: fs ++ 69 :: (if eneg then 45 else 43) :: es ++ rest)) =
      (neg, ds ++ 46 :: fs ++ (69 :: (if eneg then 45 else 43) :: (es ++ rest))) := by
    cases neg with
    | true => simp [Scan.skipSpace, show isSpace 45 = false from rfl, Scan.sign]
    | false =>
      have := Scan.start_digits (rest := 46 :: (fs ++ (69 :: (if eneg then 45 else 43) :: (es ++ rest)))) hd hne
      simpa [Scan.skipSpace, show isSpace 32 = true from rfl] using this
  have hm := Scan.mantissa_decimal (rest := 69 :: (if eneg then 45 else 43) :: (es ++ rest)) hd hf (Or.inl hne) rfl
  have hx : Scan.exponent (69 :: (if eneg then 45 else 43) :: (es ++ rest)) = some (if eneg then -(value es : Int) else value es, rest) := by
    obtain ⟨h1, h2⟩ := Scan.digits_span he hr' 0
    have hl : es.length ≠ 0 := by simpa using hene
    have h3 : readDigits 0 (es ++ rest) = value es := by rw [h2, readDigits_eq _ he]
    cases eneg <;> simp [Scan.exponent, at?, Scan.sign, h1, h3, hene]
  unfold MpcLine.atof Scan.strtold
  rw [hs]
  simp only [hm, hx]
  unfold Scan.real
  have hp : (10 : ℚ) ^ fs.length ≠ 0 := by positivity
  cases neg <;> cases eneg <;> simp <;> field_simp <;> ring

theorem date_read {l : List Nat} {jd : ℚ} (h : HeadText l jd) : MpcLine.atof l = jd := by
  obtain ⟨ds, fs, mid, rest, hd, hne, hf, -, -, rfl, rfl, -, -⟩ := h
  have := Scan.strtold_decimal (K := ℚ) (rest := bytes " = A.D." ++ (mid ++ (bytes "00:00:00.0000 (CT)" ++ rest))) hd hne hf
    (by
      have e : at? (bytes " = A.D." ++ (mid ++ (bytes "00:00:00.0000 (CT)" ++ rest))) 0 = 32 := rfl
      unfold Scan.Stops
      rw [e]
      decide)
  unfold MpcLine.atof
  simp only [List.append_assoc] at this ⊢
  rw [this]

theorem number_load (b : List Nat) {l : List Nat} (h0 : 0 ∉ l) {i : Nat} (hi : i ≤ l.length) :
    number (load b l) i = MpcLine.atof (l.drop i) := by
  unfold number
  rw [cstr_load b h0 hi]

theorem load_piece (b l : List Nat) {i k : Nat} (h : i + k ≤ l.length) : ((load b l).drop i).take k = (l.drop i).take k := by
  unfold load
  rw [List.drop_append_of_le_length (by omega), List.take_append_of_le_length (by simp; omega)]

theorem head_is {l : List Nat} {jd : ℚ} (h : HeadText l jd) (h0 : 0 ∉ l) (b : List Nat) :
    isHead (load b l) = true ∧ number (load b l) 0 = jd := by
  have hn : number (load b l) 0 = jd := by rw [number_load b h0 (by omega), List.drop_zero, date_read h]
  refine ⟨?_, hn⟩
  have hl := cstr_load b h0 (i := 0) (by omega)
  rw [List.drop_zero, List.drop_zero] at hl
  obtain ⟨ds, fs, mid, rest, hd, hne, hf, h16, hmid, rfl, -, hlo, hhi⟩ := h
  unfold isHead
  rw [hn, hl, load_piece, load_piece]
  · have e1 : ((ds ++ 46 :: fs ++ bytes " = A.D." ++ mid ++ bytes "00:00:00.0000 (CT)" ++ rest).drop 17).take 7 = bytes " = A.D." := by
      have : ds ++ 46 :: fs ++ bytes " = A.D." ++ mid ++ bytes "00:00:00.0000 (CT)" ++ rest =
          (ds ++ 46 :: fs) ++ (bytes " = A.D." ++ (mid ++ (bytes "00:00:00.0000 (CT)" ++ rest))) := by simp
      rw [this, List.drop_left' (by simp; omega)]
      exact List.take_left' rfl
    have e2 : ((ds ++ 46 :: fs ++ bytes " = A.D." ++ mid ++ bytes "00:00:00.0000 (CT)" ++ rest).drop 37).take 18 =
        bytes "00:00:00.0000 (CT)" := by
      have : ds ++ 46 :: fs ++ bytes " = A.D." ++ mid ++ bytes "00:00:00.0000 (CT)" ++ rest =
          (ds ++ 46 :: fs ++ bytes " = A.D." ++ mid) ++ (bytes "00:00:00.0000 (CT)" ++ rest) := by simp
      rw [this, List.drop_left' (by simp [hmid, show (bytes " = A.D.").length = 7 from rfl]; omega)]
      exact List.take_left' rfl
    rw [e1, e2]
    simp [hlo, hhi, hmid, show (bytes " = A.D.").length = 7 from rfl, show (bytes "00:00:00.0000 (CT)").length = 18 from rfl]
    omega
  · simp [hmid, show (bytes " = A.D.").length = 7 from rfl, show (bytes "00:00:00.0000 (CT)").length = 18 from rfl]; omega
  · simp [hmid, show (bytes " = A.D.").length = 7 from rfl, show (bytes "00:00:00.0000 (CT)").length = 18 from rfl]; omega

theorem other_is {l : List Nat} (h : Other l) (h0 : 0 ∉ l) (b : List Nat) : isHead (load b l) = false := by
  by_contra hc
  rw [Bool.not_eq_false] at hc
  unfold isHead at hc
  have hl := cstr_load b h0 (i := 0) (by omega)
  rw [List.drop_zero, List.drop_zero] at hl
  rw [hl] at hc
  simp only [Bool.and_eq_true, decide_eq_true_eq, beq_iff_eq] at hc
  obtain ⟨⟨⟨-, h54⟩, h1⟩, h2⟩ := hc
  rw [load_piece _ _ (by omega)] at h1 h2
  rcases h with h | h
  · exact h h1
  · exact h h2

theorem row_read {l : List Nat} {x y z : ℚ} (h : RowText l x y z) (h0 : 0 ∉ l) (b : List Nat) :
    number (load b l) 1 = x ∧ number (load b l) 24 = y ∧ number (load b l) 47 = z := by
  obtain ⟨c, s, t, u, rest, hs, ht, hu, ls, lt, rfl, hr⟩ := h
  rw [number_load b h0 (by simp), number_load b h0 (by simp; omega), number_load b h0 (by simp; omega)]
  have e1 : (c :: s ++ 32 :: t ++ 32 :: u ++ rest).drop 1 = s ++ (32 :: t ++ 32 :: u ++ rest) := by simp
  have e2 : (c :: s ++ 32 :: t ++ 32 :: u ++ rest).drop 24 = t ++ (32 :: u ++ rest) := by
    have : c :: s ++ 32 :: t ++ 32 :: u ++ rest = (c :: s ++ [32]) ++ (t ++ (32 :: u ++ rest)) := by simp
    rw [this, List.drop_left' (by simp; omega)]
  have e3 : (c :: s ++ 32 :: t ++ 32 :: u ++ rest).drop 47 = u ++ rest := by
    have : c :: s ++ 32 :: t ++ 32 :: u ++ rest = (c :: s ++ 32 :: t ++ [32]) ++ (u ++ rest) := by simp
    rw [this, List.drop_left' (by simp; omega)]
  rw [e1, e2, e3]
  refine ⟨sci_read hs ?_, sci_read ht ?_, sci_read hu hr⟩ <;> (intro d hd; simp at hd; omega)

/-! ## The two passes -/

/-- What a position does to the state in the first pass. -/
def look (p : Pos) (s : State) : State := count (note p.z (note p.y (note p.x (date p.jd s))))

/-- ... in the second. -/
def push (m : ℚ) (p : Pos) (s : State) : State :=
  let s := date p.jd s
  count { s with out := s.out ++ [p.x, p.y, p.z].map fun x => trunc (x * 1500000000 / m) }

theorem date_with (jd : ℚ) (s : State) (b : List Nat) : (date jd s).with b = date jd (s.with b) := by
  unfold date State.with; dsimp only; split_ifs <;> rfl

theorem note_with (x : ℚ) (s : State) (b : List Nat) : (note x s).with b = note x (s.with b) := by
  unfold note State.with; dsimp only; split_ifs <;> rfl

theorem look_with (p : Pos) (s : State) (b : List Nat) : look p (s.with b) = (look p s).with b := by
  unfold look
  rw [← date_with, ← note_with, ← note_with, ← note_with]
  rfl

theorem push_with (m : ℚ) (p : Pos) (s : State) (b : List Nat) : push m p (s.with b) = (push m p s).with b := by
  unfold push
  rw [← date_with]
  rfl

theorem fold_with {f : Pos → State → State} (hf : ∀ p s b, f p (s.with b) = (f p s).with b) (ps : List Pos) (s : State) (b : List Nat) :
    ps.foldl (fun s p => f p s) (s.with b) = (ps.foldl (fun s p => f p s) s).with b := by
  induction ps generalizing s with
  | nil => rfl
  | cons p ps ih => rw [List.foldl_cons, List.foldl_cons, hf, ih]

theorem with_with (s : State) (a b : List Nat) : (s.with a).with b = s.with b := rfl

/-- A pass in which every position has the effect `f`. -/
theorem pass_table {ls : List (List Nat)} {ps : List Pos} (hT : Table ls ps) (second : Bool) (f : Pos → State → State)
    (P : State → Prop) (hw : ∀ p s b, f p (s.with b) = (f p s).with b) (hP : ∀ p s, P s → P (f p s)) (hPw : ∀ s b, P s → P (s.with b))
    (hf : ∀ p ∈ ps, ∀ s b, P s → number b 1 = p.x → number b 24 = p.y → number b 47 = p.z →
      row second ((date p.jd s).with b) = .ok ((f p s).with b))
    (h0 : ∀ l ∈ ls, 0 ∉ l) (s : State) (hs : P s) : ∃ b, rows second ls s = .ok ((ps.foldl (fun s p => f p s) s).with b) := by
  induction hT generalizing s with
  | done => exact ⟨s.buf, rfl⟩
  | other l ls ps h t ih =>
    have hl := other_is h (h0 l (by simp)) s.buf
    obtain ⟨b, hb⟩ := ih hf (fun l hl => h0 l (by simp [hl])) (s.with (load s.buf l)) (hPw _ _ hs)
    refine ⟨b, ?_⟩
    rw [fold_with hw, with_with] at hb
    cases ls with
    | nil =>
      rw [rows, if_neg (by simp [hl])]
      rw [rows] at hb
      exact hb
    | cons d ls =>
      rw [rows]
      simp only [hl]
      exact hb
  | row l d ls p ps h r t ih =>
    obtain ⟨hl, hn⟩ := head_is h (h0 l (by simp)) s.buf
    obtain ⟨hx, hy, hz⟩ := row_read r (h0 d (by simp)) (load s.buf l)
    obtain ⟨b, hb⟩ := ih (fun q hq => hf q (by simp [hq])) (fun l hl => h0 l (by simp [hl]))
      ((f p s).with (load (load s.buf l) d)) (hPw _ _ (hP _ _ hs))
    refine ⟨b, ?_⟩
    rw [rows]
    simp only [hl, if_true, hn]
    rw [hf p (by simp) s _ hs hx hy hz]
    rw [fold_with hw, with_with] at hb
    exact hb

theorem look_row (p : Pos) (s : State) (b : List Nat) (hx : number b 1 = p.x) (hy : number b 24 = p.y) (hz : number b 47 = p.z) :
    row false ((date p.jd s).with b) = .ok ((look p s).with b) := by
  unfold row
  rw [show ((date p.jd s).with b).buf = b from rfl, hx, hy, hz]
  have e : ∀ x t, ordinate false x t = .ok (note x t) := fun _ _ => rfl
  simp only [e, Run.bind, look, ← note_with]
  rfl

theorem trunc_fits {m x : ℚ} (hm : 0 < m) (hx : |x| ≤ m) :
    -1500000000 ≤ trunc (x * 1500000000 / m) ∧ trunc (x * 1500000000 / m) ≤ 1500000000 := by
  have hx' := abs_le.1 hx
  unfold trunc
  have h1 : x * 1500000000 / m ≤ 1500000000 := by rw [div_le_iff₀ hm]; nlinarith
  have h2 : -1500000000 ≤ x * 1500000000 / m := by rw [le_div_iff₀ hm]; nlinarith
  generalize x * 1500000000 / m = y at h1 h2
  split_ifs with hy
  · have := Int.floor_le (-y)
    have h3 : (⌊-y⌋ : ℚ) ≤ 1500000000 := by linarith
    have h4 : 0 ≤ ⌊-y⌋ := Int.floor_nonneg.2 (by linarith)
    have h5 : ⌊-y⌋ ≤ 1500000000 := by exact_mod_cast h3
    omega
  · have := Int.floor_le y
    have h3 : (⌊y⌋ : ℚ) ≤ 1500000000 := by linarith
    have h4 : 0 ≤ ⌊y⌋ := Int.floor_nonneg.2 (by linarith)
    have h5 : ⌊y⌋ ≤ 1500000000 := by exact_mod_cast h3
    omega

theorem emit_fits {m x : ℚ} (hm : 0 < m) (hx : |x| ≤ m) (s : State) (hs : s.max = m) :
    ordinate true x s = .ok { s with out := s.out ++ [trunc (x * 1500000000 / m)] } := by
  have := trunc_fits hm hx
  rw [show ordinate true x s = emit x s from rfl]
  unfold emit
  rw [hs, if_neg (by linarith)]
  dsimp only
  rw [if_neg (by omega)]

theorem date_max (jd : ℚ) (s : State) : (date jd s).max = s.max := by
  unfold date; split_ifs <;> rfl

theorem push_max (m : ℚ) (p : Pos) (s : State) : (push m p s).max = s.max := date_max _ _

theorem push_row {m : ℚ} (hm : 0 < m) (p : Pos) (h : |p.x| ≤ m ∧ |p.y| ≤ m ∧ |p.z| ≤ m) (s : State) (hs : s.max = m) (b : List Nat)
    (hx : number b 1 = p.x) (hy : number b 24 = p.y) (hz : number b 47 = p.z) :
    row true ((date p.jd s).with b) = .ok ((push m p s).with b) := by
  unfold row
  rw [show ((date p.jd s).with b).buf = b from rfl, hx, hy, hz]
  have hd := date_max p.jd s
  rw [emit_fits hm h.1 _ (by rw [← hs, ← hd]; rfl)]
  simp only [Run.bind]
  rw [emit_fits hm h.2.1 _ (by rw [← hs, ← hd]; rfl)]
  simp only
  rw [emit_fits hm h.2.2 _ (by rw [← hs, ← hd]; rfl)]
  simp [State.with, count, push]

/-! ## What the passes find -/

/-- The step of a table: from the first date to the second. -/
def stepOf : List Pos → ℚ
  | p :: q :: _ => q.jd - p.jd
  | _ => 0

/-- The steps `f` count positions and take the dates from the first two. -/
def DatedSteps (f : Pos → State → State) : Prop :=
  ∀ p s, (f p s).n = s.n + 1 ∧ (f p s).jd0 = (date p.jd s).jd0 ∧ (f p s).step = (date p.jd s).step

theorem note_keeps (x : ℚ) (s : State) : (note x s).n = s.n ∧ (note x s).jd0 = s.jd0 ∧ (note x s).step = s.step ∧ (note x s).out = s.out := by
  unfold note; split_ifs <;> exact ⟨rfl, rfl, rfl, rfl⟩

theorem date_n (jd : ℚ) (s : State) : (date jd s).n = s.n ∧ (date jd s).out = s.out := by
  unfold date; split_ifs <;> exact ⟨rfl, rfl⟩

theorem look_dated : DatedSteps look := by
  intro p s
  have h1 := note_keeps p.x (date p.jd s)
  have h2 := note_keeps p.y (note p.x (date p.jd s))
  have h3 := note_keeps p.z (note p.y (note p.x (date p.jd s)))
  have h4 := date_n p.jd s
  refine ⟨?_, ?_, ?_⟩
  · show (note p.z _).n + 1 = _
    rw [h3.1, h2.1, h1.1, h4.1]
  · show (note p.z _).jd0 = _
    rw [h3.2.1, h2.2.1, h1.2.1]
  · show (note p.z _).step = _
    rw [h3.2.2.1, h2.2.2.1, h1.2.2.1]

theorem push_dated (m : ℚ) : DatedSteps (push m) := by
  intro p s
  refine ⟨?_, rfl, rfl⟩
  show (date p.jd s).n + 1 = _
  rw [(date_n p.jd s).1]

theorem dated_late {f : Pos → State → State} (hf : DatedSteps f) (ps : List Pos) (s : State) (hs : 2 ≤ s.n) :
    (ps.foldl (fun s p => f p s) s).n = s.n + ps.length ∧ (ps.foldl (fun s p => f p s) s).jd0 = s.jd0 ∧
      (ps.foldl (fun s p => f p s) s).step = s.step := by
  induction ps generalizing s with
  | nil => exact ⟨rfl, rfl, rfl⟩
  | cons p ps ih =>
    obtain ⟨h1, h2, h3⟩ := hf p s
    obtain ⟨i1, i2, i3⟩ := ih (f p s) (by omega)
    have hd : date p.jd s = s := by unfold date; rw [if_neg (by omega), if_neg (by omega)]
    rw [List.foldl_cons, i1, i2, i3, h1, h2, h3, hd, List.length_cons]
    exact ⟨by omega, rfl, rfl⟩

theorem dated_fold {f : Pos → State → State} (hf : DatedSteps f) (p : Pos) (ps : List Pos) (s : State) (hs : s.n = 0) :
    ((p :: ps).foldl (fun s p => f p s) s).n = (p :: ps).length ∧ ((p :: ps).foldl (fun s p => f p s) s).jd0 = p.jd ∧
      (ps ≠ [] ∨ s.step = stepOf (p :: ps) → ((p :: ps).foldl (fun s p => f p s) s).step = stepOf (p :: ps)) := by
  obtain ⟨h1, h2, h3⟩ := hf p s
  have hd : date p.jd s = { s with jd0 := p.jd } := by unfold date; rw [if_pos hs]
  rw [hd] at h2 h3
  cases ps with
  | nil =>
    simp only [List.foldl_cons, List.foldl_nil, List.length_cons, List.length_nil]
    refine ⟨by omega, h2, ?_⟩
    rintro (h | h)
    · exact absurd rfl h
    · rw [h3]; exact h
  | cons q ps =>
    obtain ⟨g1, g2, g3⟩ := hf q (f p s)
    have hd' : date q.jd (f p s) = { f p s with step := q.jd - (f p s).jd0 } := by
      unfold date; rw [if_neg (by omega), if_pos (by omega)]
    rw [hd'] at g2 g3
    obtain ⟨i1, i2, i3⟩ := dated_late hf ps (f q (f p s)) (by omega)
    rw [List.foldl_cons, List.foldl_cons, i1, i2, i3, g1, g2, g3, h1, hs]
    refine ⟨by simp; omega, h2, fun _ => ?_⟩
    show q.jd - (f p s).jd0 = q.jd - p.jd
    rw [h2]

theorem note_max (x : ℚ) (s : State) : s.max ≤ (note x s).max ∧ |x| ≤ (note x s).max ∧ ((note x s).max = s.max ∨ (note x s).max = |x|) := by
  unfold note
  split_ifs with h
  · exact ⟨h.le, le_refl _, Or.inr rfl⟩
  · exact ⟨le_refl _, not_lt.1 h, Or.inl rfl⟩

theorem look_max (p : Pos) (s : State) : s.max ≤ (look p s).max ∧ (∀ x ∈ [p.x, p.y, p.z], |x| ≤ (look p s).max) ∧
    ((look p s).max = s.max ∨ ∃ x ∈ [p.x, p.y, p.z], (look p s).max = |x|) := by
  obtain ⟨a1, a2, a3⟩ := note_max p.x (date p.jd s)
  obtain ⟨b1, b2, b3⟩ := note_max p.y (note p.x (date p.jd s))
  obtain ⟨c1, c2, c3⟩ := note_max p.z (note p.y (note p.x (date p.jd s)))
  rw [date_max] at a1 a3
  have e : (look p s).max = (note p.z (note p.y (note p.x (date p.jd s)))).max := rfl
  rw [e]
  refine ⟨by linarith, ?_, ?_⟩
  · intro x hx
    simp only [List.mem_cons, List.not_mem_nil, or_false] at hx
    rcases hx with rfl | rfl | rfl <;> linarith
  · rcases c3 with c | c
    · rcases b3 with b | b
      · rcases a3 with a | a
        · left; rw [c, b, a]
        · right; exact ⟨p.x, by simp, by rw [c, b, a]⟩
      · right; exact ⟨p.y, by simp, by rw [c, b]⟩
    · right; exact ⟨p.z, by simp, c⟩

theorem fold_max (ps : List Pos) (s : State) : s.max ≤ (ps.foldl (fun s p => look p s) s).max ∧
    (∀ x ∈ ordinates ps, |x| ≤ (ps.foldl (fun s p => look p s) s).max) ∧
    ((ps.foldl (fun s p => look p s) s).max = s.max ∨ ∃ x ∈ ordinates ps, (ps.foldl (fun s p => look p s) s).max = |x|) := by
  induction ps generalizing s with
  | nil => exact ⟨le_refl _, by simp [ordinates], Or.inl rfl⟩
  | cons p ps ih =>
    obtain ⟨h1, h2, h3⟩ := look_max p s
    obtain ⟨i1, i2, i3⟩ := ih (look p s)
    have e : ordinates (p :: ps) = [p.x, p.y, p.z] ++ ordinates ps := by simp [ordinates]
    rw [List.foldl_cons, e]
    refine ⟨h1.trans i1, ?_, ?_⟩
    · intro x hx
      rcases List.mem_append.1 hx with hx | hx
      · exact (h2 x hx).trans i1
      · exact i2 x hx
    · rcases i3 with i | ⟨x, hx, i⟩
      · rcases h3 with h | ⟨x, hx, h⟩
        · left; rw [i, h]
        · right; exact ⟨x, List.mem_append.2 (Or.inl hx), by rw [i, h]⟩
      · right; exact ⟨x, List.mem_append.2 (Or.inr hx), i⟩

theorem look_out (ps : List Pos) (s : State) : (ps.foldl (fun s p => look p s) s).out = s.out := by
  induction ps generalizing s with
  | nil => rfl
  | cons p ps ih =>
    rw [List.foldl_cons, ih]
    show (note p.z _).out = _
    rw [(note_keeps _ _).2.2.2, (note_keeps _ _).2.2.2, (note_keeps _ _).2.2.2, (date_n _ _).2]

theorem push_out (m : ℚ) (ps : List Pos) (s : State) :
    (ps.foldl (fun s p => push m p s) s).out = s.out ++ (ordinates ps).map (fun x => trunc (x * 1500000000 / m)) ∧
      (ps.foldl (fun s p => push m p s) s).max = s.max := by
  induction ps generalizing s with
  | nil => simp [ordinates]
  | cons p ps ih =>
    obtain ⟨i1, i2⟩ := ih (push m p s)
    rw [List.foldl_cons, i1, i2]
    refine ⟨?_, push_max m p s⟩
    show (date p.jd s).out ++ _ ++ _ = _
    rw [(date_n _ _).2]
    simp [ordinates]

theorem passes {ls : List (List Nat)} {ps : List Pos} (hT : Table ls ps) (h0 : ∀ l ∈ ls, 0 ∉ l) {m : ℚ} (hM : Largest m (ordinates ps))
    (hm : 0 < m) (junk : List Nat) :
    ∃ s t : State, rows false ls { n := 0, jd0 := 0, step := 0, max := 0, out := [], buf := junk } = .ok s ∧ rows true ls (again s) = .ok t ∧
      t.n = ps.length ∧ t.jd0 = (ps.head?.map Pos.jd).getD 0 ∧ t.step = stepOf ps ∧ t.max = m ∧
      t.out = (ordinates ps).map (fun x => trunc (x * 1500000000 / m)) := by
  obtain ⟨b, hb⟩ := pass_table hT false look (fun _ => True) look_with (fun _ _ _ => trivial) (fun _ _ _ => trivial)
    (fun p _ s b _ hx hy hz => look_row p s b hx hy hz) h0 { n := 0, jd0 := 0, step := 0, max := 0, out := [], buf := junk } trivial
  obtain ⟨f1, f2, f3⟩ := fold_max ps { n := 0, jd0 := 0, step := 0, max := 0, out := [], buf := junk }
  have hout := look_out ps { n := 0, jd0 := 0, step := 0, max := 0, out := [], buf := junk }
  have hdated := fun p qs (_ : ps = p :: qs) => dated_fold look_dated p qs { n := 0, jd0 := 0, step := 0, max := 0, out := [], buf := junk } rfl
  obtain ⟨⟨x, hx, hxm⟩, hall⟩ := hM
  cases ps with
  | nil => simp [ordinates] at hx
  | cons p qs =>
    obtain ⟨-, -, d3⟩ := hdated p qs rfl
    generalize List.foldl (fun s p => look p s) { n := 0, jd0 := 0, step := 0, max := 0, out := [], buf := junk } (p :: qs) = s at *
    have hmax : s.max = m := by
      apply le_antisymm
      · rcases f3 with f | ⟨y, hy, f⟩
        · rw [f]; exact hm.le
        · rw [f]; exact hall y hy
      · rw [← hxm]; exact f2 x hx
    have hord : ∀ q ∈ p :: qs, |q.x| ≤ m ∧ |q.y| ≤ m ∧ |q.z| ≤ m := by
      intro q hq
      refine ⟨hall _ ?_, hall _ ?_, hall _ ?_⟩ <;> exact List.mem_flatMap.2 ⟨q, hq, by simp⟩
    obtain ⟨c, hc⟩ := pass_table hT true (push m) (fun t => t.max = m) (push_with m) (fun p s h => (push_max m p s).trans h)
      (fun _ _ h => h) (fun q hq t b ht h1 h2 h3 => push_row hm q (hord q hq) t ht b h1 h2 h3) h0 (again (s.with b)) hmax
    refine ⟨_, _, hb, hc, ?_⟩
    obtain ⟨e1, e2, e3⟩ := dated_fold (push_dated m) p qs (again (s.with b)) rfl
    obtain ⟨o1, o2⟩ := push_out m (p :: qs) (again (s.with b))
    refine ⟨e1, e2, ?_, o2.trans hmax, ?_⟩
    · apply e3
      by_cases hq : qs = []
      · right
        exact d3 (Or.inr (by rw [hq]; rfl))
      · exact Or.inl hq
    · have : (again (s.with b)).out = [] := hout
      rw [this, List.nil_append] at o1
      exact o1

/-! ## The file -/

theorem int32_put {v : Int} (h : -2147483648 ≤ v ∧ v ≤ 2147483647) (rest : List Nat) : int32 (put32 v ++ rest) = v := by
  unfold int32 put32
  simp only [List.cons_append, List.getD_cons_zero, List.getD_cons_succ]
  have e : ∀ k : Int, (((k % 256).toNat : Nat) : Int) = k % 256 := fun k => Int.toNat_of_nonneg (Int.emod_nonneg _ (by decide))
  rw [e, e, e, e]
  split_ifs <;> omega

theorem put32_length (v : Int) : (put32 v).length = 4 := rfl

theorem ints_length (vs : List Int) : (vs.flatMap put32).length = 4 * vs.length := by
  induction vs with
  | nil => rfl
  | cons v vs ih => rw [List.flatMap_cons, List.length_append, ih, put32_length, List.length_cons]; omega

theorem ints_at {vs : List Int} {k : Nat} {v : Int} (h : vs[k]? = some v) (rest : List Nat) :
    ∃ r, (vs.flatMap put32 ++ rest).drop (4 * k) = put32 v ++ r := by
  induction vs generalizing k with
  | nil => simp at h
  | cons w vs ih =>
    cases k with
    | zero =>
      simp at h
      subst h
      exact ⟨vs.flatMap put32 ++ rest, by simp⟩
    | succ k =>
      obtain ⟨r, hr⟩ := ih (by simpa using h)
      refine ⟨r, ?_⟩
      rw [List.flatMap_cons, List.append_assoc, List.drop_append, List.drop_of_length_le (by rw [put32_length]; omega), List.nil_append, put32_length,
        show 4 * (k + 1) - 4 = 4 * k by omega, hr]

theorem header_length (t : List Nat) : (header t).length = 128 := by
  unfold header
  have : (t.take 127).length ≤ 127 := by simp
  simp only [List.length_append, List.length_replicate]
  omega

theorem trunc_scaled {m : ℚ} (hm : 0 < m) (x : ℚ) : Scaled m x (trunc (x * 1500000000 / m)) := by
  have hu : 0 < m / 1500000000 := by positivity
  have hy : x = x * 1500000000 / m * (m / 1500000000) := by field_simp
  generalize x * 1500000000 / m = y at hy
  subst hy
  unfold Scaled trunc
  generalize m / 1500000000 = u at hu ⊢
  rw [abs_mul, abs_mul, abs_of_pos hu]
  split_ifs with h
  · have h1 := Int.floor_le (-y)
    have h2 := Int.lt_floor_add_one (-y)
    have h3 : (0 : ℚ) ≤ ⌊-y⌋ := by exact_mod_cast Int.floor_nonneg.2 (by linarith)
    push_cast
    rw [abs_neg, abs_of_nonneg h3, abs_of_neg h]
    exact ⟨by nlinarith, by nlinarith, by nlinarith [mul_nonneg (mul_nonneg h3 (neg_nonneg.2 h.le)) hu.le]⟩
  · have h1 := Int.floor_le y
    have h2 := Int.lt_floor_add_one y
    have h3 : (0 : ℚ) ≤ ⌊y⌋ := by exact_mod_cast Int.floor_nonneg.2 (not_lt.1 h)
    rw [abs_of_nonneg h3, abs_of_nonneg (not_lt.1 h)]
    exact ⟨by nlinarith, by nlinarith, by nlinarith [mul_nonneg (mul_nonneg h3 (not_lt.1 h)) hu.le]⟩

/-- A text in a column of this width, at its right. -/
def atRight (w : Nat) (t : List Nat) : List Nat := List.replicate (w - t.length) 32 ++ t

/-- The text that the header should have. -/
def HeaderText (g : ℚ → List Nat) (id : Nat) (ps : List Pos) (m : ℚ) : List Nat :=
  bytes "128 " ++ dec id ++ bytes " " ++ atRight 10 (Time.fmtFixed 1 ((ps.head?.map Pos.jd).getD 0)) ++ bytes " " ++ Time.fmtFixed 6 (stepOf ps) ++ bytes " " ++
    dec ps.length ++ bytes " 6 " ++ g (m / 1500000000) ++ bytes " 32 0 "

/-- C109: the file has the header with the first date, the first step, the number of positions and the scale; then, four
    bytes each, the ordinates in units of the scale, rounded toward zero; then two lines of text. -/
theorem C109_file {ls : List (List Nat)} {ps : List Pos} (hT : Table ls ps) (h0 : ∀ l ∈ ls, 0 ∉ l) {m : ℚ} (hM : Largest m (ordinates ps))
    (hm : 0 < m) (g : ℚ → List Nat) (day now junk : List Nat) (id : Nat) :
    ∃ file : List Nat, make g day now junk id ls = .ok file ∧
      ((HeaderText g id ps m).length < 128 →
        file.take 128 = HeaderText g id ps m ++ List.replicate (128 - (HeaderText g id ps m).length) 0) ∧
      (∀ (k : Nat) (x : ℚ), (ordinates ps)[k]? = some x → Scaled m x (int32 (file.drop (128 + 4 * k)))) ∧
      file.drop (128 + 12 * ps.length) = bytes "Ephemeris from JPL Horizons output\nCreated using 'jpl2b32', version " ++ day ++
        bytes "\nEphemeris converted " ++ now := by
  obtain ⟨s, t, hs, ht, tn, tj, tst, tm, tout⟩ := passes hT h0 hM hm junk
  refine ⟨header (headText g id t) ++ t.out.flatMap put32 ++ trailer day now, ?_, ?_, ?_, ?_⟩
  · unfold make
    rw [hs]
    simp only [Run.bind]
    rw [ht]
  · intro hl
    have e : headText g id t = HeaderText g id ps m := by
      unfold headText HeaderText atRight tenOne
      rw [tn, tj, tst, tm]
      simp [show bytes " " = [32] from rfl]
    rw [List.append_assoc, List.take_left' (header_length _), e]
    unfold header
    rw [List.take_of_length_le (by omega)]
  · intro k x hk
    have hk' : t.out[k]? = some (trunc (x * 1500000000 / m)) := by rw [tout, List.getElem?_map, hk]; rfl
    obtain ⟨r, hr⟩ := ints_at hk' (trailer day now)
    rw [List.append_assoc, ← header_length (headText g id t), List.drop_append, List.drop_of_length_le (by omega), List.nil_append,
      Nat.add_sub_cancel_left, hr, int32_put]
    · exact trunc_scaled hm x
    · have := trunc_fits hm (hM.2 x (List.mem_of_getElem? hk))
      omega
  · have hlen : (ordinates ps).length = 3 * ps.length := by
      unfold ordinates
      clear hT hM tj tst tout hs ht tn
      induction ps with
      | nil => rfl
      | cons p ps ih => rw [List.flatMap_cons, List.length_append, ih]; simp; omega
    rw [List.drop_left' (by rw [List.length_append, header_length, ints_length, tout, List.length_map, hlen]; omega)]
    rfl

/-- Finding: of the dates only the first two matter.  Files with the same positions and these two dates give the same result,
    be the steps between the others what they may. -/
theorem C109_dates {ls ls' : List (List Nat)} {ps ps' : List Pos} (hT : Table ls ps) (hT' : Table ls' ps') (h0 : ∀ l ∈ ls, 0 ∉ l)
    (h0' : ∀ l ∈ ls', 0 ∉ l) (hp : ps.map (fun p => (p.x, p.y, p.z)) = ps'.map (fun p => (p.x, p.y, p.z)))
    (hd : (ps.take 2).map Pos.jd = (ps'.take 2).map Pos.jd) {m : ℚ} (hM : Largest m (ordinates ps)) (hm : 0 < m)
    (g : ℚ → List Nat) (day now junk junk' : List Nat) (id : Nat) :
    make g day now junk id ls = make g day now junk' id ls' := by
  have ho : ordinates ps = ordinates ps' := by
    have e : ∀ qs : List Pos, ordinates qs = (qs.map fun p => (p.x, p.y, p.z)).flatMap fun q => [q.1, q.2.1, q.2.2] := by
      intro qs; unfold ordinates; rw [List.flatMap_map]
    rw [e, e, hp]
  have hl : ps.length = ps'.length := by simpa using congrArg List.length hp
  have hj : (ps.head?.map Pos.jd).getD 0 = (ps'.head?.map Pos.jd).getD 0 ∧ stepOf ps = stepOf ps' := by
    rcases ps with _ | ⟨p, _ | ⟨q, ps⟩⟩ <;> rcases ps' with _ | ⟨p', _ | ⟨q', ps'⟩⟩ <;> simp [stepOf] at hl hd ⊢
    · exact hd
    · exact ⟨hd.1, by rw [hd.1, hd.2]⟩
  obtain ⟨s, t, hs, ht, tn, tj, tst, tm, tout⟩ := passes hT h0 hM hm junk
  obtain ⟨s', t', hs', ht', tn', tj', tst', tm', tout'⟩ := passes hT' h0' (ho ▸ hM) hm junk'
  unfold make
  rw [hs, hs']
  simp only [Run.bind]
  rw [ht, ht']
  simp only [headText, tn, tn', tj, tj', tst, tst', tm, tm', tout, tout', hl, hj.1, hj.2, ho]

theorem second_zero {ls : List (List Nat)} {ps : List Pos} (hT : Table ls ps) (hne : ps ≠ []) (h0 : ∀ l ∈ ls, 0 ∉ l) (s : State)
    (hs : s.max = 0) : rows true ls s = .ub := by
  induction hT generalizing s with
  | done => exact absurd rfl hne
  | other l ls ps h t ih =>
    have hl := other_is h (h0 l (by simp)) s.buf
    cases ls with
    | nil => cases t; exact absurd rfl hne
    | cons d ls =>
      rw [rows]
      simp only [hl]
      exact ih hne (fun l hl => h0 l (by simp [hl])) _ hs
  | row l d ls p ps h r t ih =>
    obtain ⟨hl, hn⟩ := head_is h (h0 l (by simp)) s.buf
    rw [rows]
    simp only [hl, if_true]
    have e : ∀ x t, t.max = 0 → ordinate true x t = .ub := by
      intro x t ht
      show emit x t = .ub
      unfold emit
      rw [if_pos ht]
    have hm : ((date (number (load s.buf l) 0) s).with (load (load s.buf l) d)).max = 0 := by
      rw [← hs, ← date_max (number (load s.buf l) 0) s]; rfl
    unfold row
    rw [e _ _ hm]
    rfl

/-- Finding: if all positions are at the origin, 0/0 is converted to an integer. -/
theorem C109_origin {ls : List (List Nat)} {ps : List Pos} (hT : Table ls ps) (hne : ps ≠ []) (h0 : ∀ l ∈ ls, 0 ∉ l)
    (hz : ∀ x ∈ ordinates ps, x = 0) (g : ℚ → List Nat) (day now junk : List Nat) (id : Nat) :
    make g day now junk id ls = .ub := by
  obtain ⟨b, hb⟩ := pass_table hT false look (fun _ => True) look_with (fun _ _ _ => trivial) (fun _ _ _ => trivial)
    (fun p _ s b _ hx hy hz => look_row p s b hx hy hz) h0 { n := 0, jd0 := 0, step := 0, max := 0, out := [], buf := junk } trivial
  obtain ⟨-, -, f3⟩ := fold_max ps { n := 0, jd0 := 0, step := 0, max := 0, out := [], buf := junk }
  unfold make
  rw [hb]
  simp only [Run.bind]
  rw [second_zero hT hne h0]
  rcases f3 with f | ⟨x, hx, f⟩
  · exact f
  · rw [hz x hx, abs_zero] at f
    exact f

theorem rows_end {ls : List (List Nat)} {ps : List Pos} (hT : Table ls ps) (h0 : ∀ l ∈ ls, 0 ∉ l) {l : List Nat} {jd : ℚ}
    (hl : HeadText l jd) (hl0 : 0 ∉ l) (s : State) : rows false (ls ++ [l]) s = .failed := by
  induction hT generalizing s with
  | done =>
    rw [List.nil_append, rows, if_pos (head_is hl hl0 s.buf).1]
  | other k ls ps h t ih =>
    have hk := other_is h (h0 k (by simp)) s.buf
    have := ih (fun l hl => h0 l (by simp [hl])) (s.with (load s.buf k))
    cases ls with
    | nil =>
      simp only [List.cons_append, List.nil_append, rows] at this ⊢
      simp only [hk]
      exact this
    | cons d ls =>
      simp only [List.cons_append] at this ⊢
      rw [rows]
      simp only [hk]
      exact this
  | row k d ls p ps h r t ih =>
    obtain ⟨hk, hn⟩ := head_is h (h0 k (by simp)) s.buf
    obtain ⟨hx, hy, hz⟩ := row_read r (h0 d (by simp)) (load s.buf k)
    simp only [List.cons_append]
    rw [rows]
    simp only [hk, if_true, hn]
    rw [look_row p s _ hx hy hz]
    exact ih (fun l hl => h0 l (by simp [hl])) _

/-- A date without a position at the end of the file: the program ends with the value -2. -/
theorem C109_end {ls : List (List Nat)} {ps : List Pos} (hT : Table ls ps) (h0 : ∀ l ∈ ls, 0 ∉ l) {l : List Nat} {jd : ℚ}
    (hl : HeadText l jd) (hl0 : 0 ∉ l) (g : ℚ → List Nat) (day now junk : List Nat) (id : Nat) :
    make g day now junk id (ls ++ [l]) = .failed := by
  unfold make
  rw [rows_end hT h0 hl hl0]
  rfl

/-- Finding: a position's line too short for the third ordinate is not noticed; what remains of the line before it is read
    there, which is zero. -/
theorem C109_short {l d : List Nat} {jd : ℚ} (hl : HeadText l jd) (hl0 : 0 ∉ l) (hd : d.length < 47) (b : List Nat) :
    number (load (load b l) d) 47 = 0 := by
  obtain ⟨ds, fs, mid, rest, -, -, -, h16, hmid, rfl, -, -, -⟩ := hl
  unfold number
  have e : (load (load b (ds ++ 46 :: fs ++ bytes " = A.D." ++ mid ++ bytes "00:00:00.0000 (CT)" ++ rest)) d).drop 47 =
      (load b (ds ++ 46 :: fs ++ bytes " = A.D." ++ mid ++ bytes "00:00:00.0000 (CT)" ++ rest)).drop 47 := by
    rw [show ∀ a c : List Nat, load a c = c ++ 0 :: a.drop (c.length + 1) from fun _ _ => rfl, List.drop_append, List.drop_of_length_le (by omega),
      List.nil_append, show 47 - d.length = (46 - d.length) + 1 by omega, List.drop_succ_cons, List.drop_drop]
    congr 1
    omega
  rw [e, cstr_load b hl0 (by simp [hmid, show (bytes " = A.D.").length = 7 from rfl, show (bytes "00:00:00.0000 (CT)").length = 18 from rfl]; omega)]
  have e2 : (ds ++ 46 :: fs ++ bytes " = A.D." ++ mid ++ bytes "00:00:00.0000 (CT)" ++ rest).drop 47 = bytes "000" ++ (bytes " (CT)" ++ rest) := by
    have : ds ++ 46 :: fs ++ bytes " = A.D." ++ mid ++ bytes "00:00:00.0000 (CT)" ++ rest =
        (ds ++ 46 :: fs ++ bytes " = A.D." ++ mid ++ bytes "00:00:00.0") ++ (bytes "000" ++ (bytes " (CT)" ++ rest)) := by
      rw [show bytes "00:00:00.0000 (CT)" = bytes "00:00:00.0" ++ (bytes "000" ++ bytes " (CT)") from rfl]
      simp
    rw [this, List.drop_left' (by simp [hmid, show (bytes " = A.D.").length = 7 from rfl, show (bytes "00:00:00.0").length = 10 from rfl]; omega)]
  rw [e2]
  unfold MpcLine.atof
  rw [Scan.strtold_digits (K := ℚ) (ds := bytes "000") (by intro c hc; simp [bytes] at hc; omega) (by decide)
    (by
      have e : at? (bytes " (CT)" ++ rest) 0 = 32 := rfl
      unfold Scan.Stops
      rw [e]
      decide)]
  simp [show value (bytes "000") = 0 from rfl]

/-! ## Examples -/

/-- Two positions with other lines before, between and after. -/
def aTable : List (List Nat) :=
  [bytes "$$SOE\n", bytes "2455927.500000000 = A.D. 2012-Jan-01 00:00:00.0000 (CT)\n",
   bytes "  1.000000000000000E-03 -2.000000000000000E-03  5.000000000000000E-04\n", bytes "  1.0E-05\n",
   bytes "2455929.500000000 = A.D. 2012-Jan-03 00:00:00.0000 (CT)\n",
   bytes "  1.500000000000000E-03 -1.000000000000000E-03  0.000000000000000E+00\n", bytes "$$EOE\n"]

def somePos : List Pos := [⟨4911855 / 2, 1 / 1000, -2 / 1000, 5 / 10000⟩, ⟨4911859 / 2, 15 / 10000, -1 / 1000, 0⟩]

theorem digits_of {s : List Nat} (h : s.all (fun c => decide (48 ≤ c ∧ c ≤ 57)) = true) : AllDigits s := by
  intro c hc
  simpa using List.all_eq_true.1 h c hc

theorem a_head : HeadText (aTable.getD 1 []) (4911855 / 2) :=
  ⟨bytes "2455927", bytes "500000000", bytes " 2012-Jan-01 ", bytes "\n", digits_of (by decide), by decide, digits_of (by decide),
      by decide, by decide, by decide, by decide +kernel, by norm_num, by norm_num⟩

theorem a_row : RowText (aTable.getD 2 []) (1 / 1000) (-2 / 1000) (5 / 10000) :=
  ⟨32, bytes " 1.000000000000000E-03", bytes "-2.000000000000000E-03", bytes " 5.000000000000000E-04", bytes "\n",
      ⟨false, true, bytes "1", bytes "000000000000000", bytes "03", digits_of (by decide), by decide, digits_of (by decide), digits_of (by decide),
        by decide, by decide, by decide +kernel⟩,
      ⟨true, true, bytes "2", bytes "000000000000000", bytes "03", digits_of (by decide), by decide, digits_of (by decide), digits_of (by decide),
        by decide, by decide, by decide +kernel⟩,
      ⟨false, true, bytes "5", bytes "000000000000000", bytes "04", digits_of (by decide), by decide, digits_of (by decide), digits_of (by decide),
        by decide, by decide, by decide +kernel⟩, by decide, by decide, by decide, by decide⟩

theorem a_table : Table aTable somePos := by
  refine .other _ _ _ (Or.inl (by decide)) (.row _ _ _ _ _ ?_ ?_ (.other _ _ _ (Or.inl (by decide)) (.row _ _ _ _ _ ?_ ?_
    (.other _ _ _ (Or.inl (by decide)) .done))))
  · exact a_head
  · exact a_row
  · exact ⟨bytes "2455929", bytes "500000000", bytes " 2012-Jan-03 ", bytes "\n", digits_of (by decide), by decide, digits_of (by decide),
      by decide, by decide, by decide, by decide +kernel, by norm_num, by norm_num⟩
  · refine ⟨32, bytes " 1.500000000000000E-03", bytes "-1.000000000000000E-03", bytes " 0.000000000000000E+00", bytes "\n",
      ⟨false, true, bytes "1", bytes "500000000000000", bytes "03", digits_of (by decide), by decide, digits_of (by decide), digits_of (by decide),
        by decide, by decide, by decide +kernel⟩,
      ⟨true, true, bytes "1", bytes "000000000000000", bytes "03", digits_of (by decide), by decide, digits_of (by decide), digits_of (by decide),
        by decide, by decide, by decide +kernel⟩,
      ⟨false, false, bytes "0", bytes "000000000000000", bytes "00", digits_of (by decide), by decide, digits_of (by decide), digits_of (by decide),
        by decide, by decide, by decide +kernel⟩, by decide, by decide, by decide, by decide⟩

theorem a_table_text : ∀ l ∈ aTable, 0 ∉ l := by decide

theorem a_table_largest : Largest (2 / 1000) (ordinates somePos) := by
  constructor
  · exact ⟨-2 / 1000, by simp [ordinates, somePos], by norm_num [abs_of_neg]⟩
  · intro x hx
    simp only [ordinates, somePos, List.flatMap_cons, List.flatMap_nil, List.append_nil, List.cons_append, List.nil_append, List.mem_cons,
      List.not_mem_nil, or_false] at hx
    rw [abs_le]
    rcases hx with rfl | rfl | rfl | rfl | rfl | rfl <;> norm_num

/-- The hypotheses of `C109_file` hold for this table; its second ordinate is -1500000000 in the file. -/
example (day now junk : List Nat) :
    ∃ file : List Nat, make (fun _ => bytes "1.33333e-12") day now junk 904 aTable = .ok file ∧
      (file.take 128 = bytes "128 904  2455927.5 2.000000 2 6 1.33333e-12 32 0 " ++ List.replicate 79 0) ∧
      Scaled (2 / 1000) (-2 / 1000) (int32 (file.drop 132)) := by
  obtain ⟨file, h, h1, h2, -⟩ := C109_file a_table a_table_text a_table_largest (by norm_num) (fun _ => bytes "1.33333e-12") day now junk 904
  have e : HeaderText (fun _ => bytes "1.33333e-12") 904 somePos (2 / 1000) = bytes "128 904  2455927.5 2.000000 2 6 1.33333e-12 32 0 " := by
    decide +kernel
  rw [e] at h1
  exact ⟨file, h, h1 (by decide), h2 1 _ rfl⟩

/-- `C109_dates`, `C109_end` and `C109_short` apply to lines of this table. -/
example : Table [aTable.getD 1 [], aTable.getD 2 []] (somePos.take 1) :=
  .row _ _ _ _ _ a_head a_row .done

/-- `C109_origin`: a table with one position, at the origin. -/
example : ∃ ls p, Table ls [p] ∧ (∀ l ∈ ls, 0 ∉ l) ∧ ∀ x ∈ ordinates [p], x = 0 := by
  refine ⟨[bytes "2455927.500000000 = A.D. 2012-Jan-01 00:00:00.0000 (CT)\n",
    bytes "  0.000000000000000E+00  0.000000000000000E+00  0.000000000000000E+00\n"], ⟨4911855 / 2, 0, 0, 0⟩, .row _ _ _ _ _ ?_ ?_ .done,
    by decide, by simp [ordinates]⟩
  · exact ⟨bytes "2455927", bytes "500000000", bytes " 2012-Jan-01 ", bytes "\n", digits_of (by decide), by decide, digits_of (by decide),
      by decide, by decide, by decide, by decide +kernel, by norm_num, by norm_num⟩
  · have z : SciText (bytes " 0.000000000000000E+00") 0 :=
      ⟨false, false, bytes "0", bytes "000000000000000", bytes "00", digits_of (by decide), by decide, digits_of (by decide), digits_of (by decide),
        by decide, by decide, by decide +kernel⟩
    exact ⟨32, _, _, _, bytes "\n", z, z, z, by decide, by decide, by decide, by decide⟩

end Verif.Props
