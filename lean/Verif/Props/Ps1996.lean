import Mathlib.Analysis.SpecialFunctions.Trigonometric.Deriv
import Mathlib.Tactic.FieldSimp
import Mathlib.Tactic.Ring
import Mathlib.Tactic.FinCases
import Mathlib.Tactic.SplitIfs
import Mathlib.Tactic.Linarith
import Verif.Model.Ps1996
import Verif.Spec.Poisson
import Verif.Props.GetBin

/-!
# Property theorems: planetary positions from PS-1996 (C103)
-/

namespace Verif.Props

open Verif Verif.GetBin Verif.Ps1996 Verif.Spec.Poisson

/-- The six numbers of a wave in the order of the file. -/
def sixOf (w : Wave) : List ℝ := [w.cosine 0, w.sine 0, w.cosine 1, w.sine 1, w.cosine 2, w.sine 2]

/-- The structure in memory is the block. -/
structure Represents (p : Series) (b : Block) : Prop where
  tzero : p.tzero = b.start
  dt : p.dt = b.days
  secular : p.secular = [b.poly 0 0, b.poly 0 1, b.poly 0 2, b.poly 0 3, b.poly 1 0, b.poly 1 1, b.poly 1 2, b.poly 1 3,
    b.poly 2 0, b.poly 2 1, b.poly 2 2, b.poly 2 3]
  constant : p.nf 0 = b.constant.length
  linear : p.nf 1 = b.linear.length
  square : p.nf 2 = b.square.length
  rows : p.rows = (b.constant ++ b.linear ++ b.square).map fun w => ⟨w.fq, sixOf w⟩

/-! ## Position and velocity -/

/-- The derivative of `waves`. -/
noncomputable def wavesRate (i : Fin 3) (τ : ℝ) (l : List Wave) : ℝ :=
  (l.map fun w => w.fq * (w.sine i * Real.cos (w.fq * τ) - w.cosine i * Real.sin (w.fq * τ))).sum

theorem waves_rate (i : Fin 3) (c jd : ℝ) (l : List Wave) : HasDerivAt (fun t => waves i (t - c) l) (wavesRate i (jd - c) l) jd := by
  induction l with
  | nil => simpa [waves, wavesRate] using hasDerivAt_const jd (0 : ℝ)
  | cons w l ih =>
    have a : HasDerivAt (fun t : ℝ => w.fq * (t - c)) w.fq jd := by
      simpa using ((hasDerivAt_id jd).sub_const c).const_mul w.fq
    have e := ((a.cos.const_mul (w.cosine i)).add (a.sin.const_mul (w.sine i))).add ih
    refine (e.congr_deriv ?_).congr_of_eventuallyEq (Filter.Eventually.of_forall fun t => ?_)
    · simp only [wavesRate, List.map_cons, List.sum_cons]
      ring
    · simp only [waves, List.map_cons, List.sum_cons, Pi.add_apply]

theorem six_cos (w : Wave) (i : Fin 3) : (sixOf w).getD (2 * i.1) 0 = w.cosine i := by fin_cases i <;> rfl
theorem six_sin (w : Wave) (i : Fin 3) : (sixOf w).getD (2 * i.1 + 1) 0 = w.sine i := by fin_cases i <;> rfl

theorem fold_waves (fx : ℝ) (i : Fin 3) (l : List Wave) (s : Nat → ℝ) :
    ((l.map fun w => (⟨w.fq, sixOf w⟩ : Row)).foldl (addRow fx) s) i.1 = s i.1 + waves i fx l ∧
    ((l.map fun w => (⟨w.fq, sixOf w⟩ : Row)).foldl (addRow fx) s) (i.1 + 3) = s (i.1 + 3) + wavesRate i fx l := by
  induction l generalizing s with
  | nil => simp [waves, wavesRate]
  | cons w l ih =>
    have h := i.2
    simp only [List.map_cons, List.foldl_cons]
    rw [(ih _).1, (ih _).2]
    unfold addRow
    simp only [h, if_true, show ¬ i.1 + 3 < 3 by omega, if_false, Nat.add_sub_cancel, six_cos, six_sin, waves, wavesRate,
      List.map_cons, List.sum_cons]
    constructor <;> ring

/-- The result of the three turns. -/
theorem position_of {p : Series} {b : Block} (hr : Represents p b) (hd : 0 < b.days) {jd : ℝ} (h0 : b.start ≤ jd) (h1 : jd ≤ b.start + b.days)
    (old : Nat → ℝ) (velocity : Bool) :
    ∃ v, position jd p old velocity = .ok (some v) ∧ (∀ i : Fin 3, v i = coordinate b i jd) ∧
      (∀ i : Fin 3, velocity = true → HasDerivAt (coordinate b i) (v (i.1 + 3)) jd) ∧ (∀ j, 3 ≤ j → (velocity = false ∨ 6 ≤ j) → v j = old j) := by
  obtain ⟨a1, a2, a3, a4, a5, a6, a7⟩ := hr
  have hd' : b.days ≠ 0 := ne_of_gt hd
  have B : ∀ {α β : Type} (a : α) (f : α → Outcome β), (Outcome.ok a).bind f = f a := fun _ _ => rfl
  have c1 : ((p.nf 0).toNat) = b.constant.length := by rw [a4]; rfl
  have c2 : ((p.nf 1).toNat) = b.linear.length := by rw [a5]; rfl
  have c3 : ((p.nf 2).toNat) = b.square.length := by rw [a6]; rfl
  have hx : 2 * (jd - p.tzero) / p.dt - 1 = (jd - (b.start + b.days / 2)) / (b.days / 2) := by rw [a1, a2]; field_simp; ring
  have hfx : (jd - (b.start + b.days / 2)) / (b.days / 2) * p.dt / 2 = jd - (b.start + b.days / 2) := by rw [a2]; field_simp
  unfold position
  simp only [hx, hfx]
  rw [if_neg (by rw [a1, a2]; push Not; exact ⟨h0, h1⟩)]
  set x := (jd - (b.start + b.days / 2)) / (b.days / 2) with xdef
  set τ := jd - (b.start + b.days / 2) with τdef
  have s1 : (p.rows.take b.constant.length) = b.constant.map fun w => (⟨w.fq, sixOf w⟩ : Row) := by
    rw [a7, ← List.map_take, List.append_assoc, List.take_left' rfl]
  have d1 : (p.rows.drop b.constant.length) = (b.linear ++ b.square).map fun w => (⟨w.fq, sixOf w⟩ : Row) := by
    rw [a7, ← List.map_drop, List.append_assoc, List.drop_left' rfl]
  rw [turn, if_neg (by rw [c1, a7, List.length_map, List.length_append, List.length_append]; omega), B]
  rw [turn, if_neg (by simp only [c1, c2, d1, List.length_map, List.length_append]; omega), B]
  rw [turn, if_neg (by simp only [c1, c2, c3, d1]; rw [← List.map_drop, List.drop_left' rfl, List.length_map]; omega), B]
  refine ⟨_, rfl, ?_, ?_, ?_⟩
  · intro i
    have hi := i.2
    simp only [hi, true_or, if_true, c1, c2, c3, d1, s1]
    rw [← List.map_drop, List.drop_left' rfl, ← List.map_take, List.take_left' rfl, ← List.map_take, List.take_of_length_le (le_refl _)]
    unfold newSums
    rw [(fold_waves τ i _ _).1, (fold_waves τ i _ _).1, (fold_waves τ i _ _).1]
    have k : secularPart p x i.1 = b.poly i 0 + b.poly i 1 * x + b.poly i 2 * x ^ 2 + b.poly i 3 * x ^ 3 := by
      unfold secularPart
      rw [if_pos hi, a3]
      fin_cases i <;> simp [secularLoop] <;> ring
    rw [k]
    unfold coordinate
    simp only [← τdef, ← xdef]
    norm_num
    ring
  · intro i hv
    have hi := i.2
    simp only [hv, show ¬ i.1 + 3 < 3 by omega, show i.1 + 3 < 6 by omega, true_and, or_true, if_true, if_false, c1, c2, c3, d1, s1, Nat.add_sub_cancel,
      one_ne_zero, OfNat.ofNat_ne_zero]
    rw [← List.map_drop, List.drop_left' rfl, ← List.map_take, List.take_left' rfl, ← List.map_take, List.take_of_length_le (le_refl _)]
    unfold newSums
    rw [(fold_waves τ i _ _).2, (fold_waves τ i _ _).2, (fold_waves τ i _ _).2, (fold_waves τ i _ _).1, (fold_waves τ i _ _).1]
    have k : secularPart p x (i.1 + 3) = (b.poly i 1 + 2 * b.poly i 2 * x + 3 * b.poly i 3 * x ^ 2) * (2 / b.days) := by
      unfold secularPart
      rw [if_neg (by omega), a3, a2, Nat.add_sub_cancel]
      congr 1
      have e : ∀ s : List ℝ, (secularLoop x s 4).2.1 = s.getD 1 0 + 2 * s.getD 2 0 * x + 3 * s.getD 3 0 * x ^ 2 := by
        intro s
        simp only [secularLoop, xpower, zero_add, one_ne_zero, if_true, if_false, OfNat.ofNat_ne_zero]
        push_cast
        ring
      rw [e]
      fin_cases i <;> rfl
    rw [k]
    have e1 : HasDerivAt (fun t => t - (b.start + b.days / 2)) 1 jd := (hasDerivAt_id jd).sub_const _
    have e2 : HasDerivAt (fun t => (t - (b.start + b.days / 2)) / (b.days / 2)) (1 / (b.days / 2)) jd := e1.div_const _
    have w0 := waves_rate i (b.start + b.days / 2) jd b.constant
    have w1 := e2.mul (waves_rate i (b.start + b.days / 2) jd b.linear)
    have w2 := (e2.pow 2).mul (waves_rate i (b.start + b.days / 2) jd b.square)
    have q := ((((((hasDerivAt_const jd (b.poly i 0)).add (e2.const_mul (b.poly i 1))).add ((e2.pow 2).const_mul (b.poly i 2))).add
      ((e2.pow 3).const_mul (b.poly i 3))).add w0).add w1).add w2 |>.div_const (10 ^ 10)
    refine (q.congr_deriv ?_).congr_of_eventuallyEq (Filter.Eventually.of_forall fun t => ?_)
    · rw [a2]
      simp only [← τdef, ← xdef, xpower, Pi.pow_apply]
      norm_num
      field_simp
      ring
    · simp only [coordinate, Pi.add_apply, Pi.mul_apply, Pi.pow_apply]
  · intro j hj hv
    have : ¬ (j < 3 ∨ velocity = true ∧ j < 6) := by
      rintro (h | ⟨h, h'⟩)
      · omega
      · rcases hv with e | e
        · rw [e] at h; cases h
        · omega
    simp only [this, if_false]

/-- **C103.** Anywhere in the block the position is that of the series.  What is in `state_vect` after the three coordinates stays
    if the velocity is not asked for. -/
theorem C103_position {p : Series} {b : Block} (hr : Represents p b) (hd : 0 < b.days) {jd : ℝ} (h0 : b.start ≤ jd) (h1 : jd ≤ b.start + b.days)
    (old : Nat → ℝ) (velocity : Bool) :
    ∃ v, position jd p old velocity = .ok (some v) ∧ (∀ i : Fin 3, v i = coordinate b i jd) ∧
      (∀ j, 3 ≤ j → (velocity = false ∨ 6 ≤ j) → v j = old j) := by
  obtain ⟨v, a, b, _, c⟩ := position_of hr hd h0 h1 old velocity
  exact ⟨v, a, b, c⟩

/-- **C103.** The velocity is the derivative of the position. -/
theorem C103_velocity {p : Series} {b : Block} (hr : Represents p b) (hd : 0 < b.days) {jd : ℝ} (h0 : b.start ≤ jd) (h1 : jd ≤ b.start + b.days)
    (old : Nat → ℝ) :
    ∃ v, position jd p old true = .ok (some v) ∧ ∀ i : Fin 3, HasDerivAt (coordinate b i) (v (i.1 + 3)) jd := by
  obtain ⟨v, a, _, c, _⟩ := position_of hr hd h0 h1 old true
  exact ⟨v, a, fun i => c i rfl⟩

/-- **C103.** Outside of the block there is no position. -/
theorem C103_not_covered {p : Series} {jd : ℝ} (h : jd < p.tzero ∨ jd > p.tzero + p.dt) (old : Nat → ℝ) (velocity : Bool) :
    position jd p old velocity = .ok none := by
  unfold position
  simp only
  rw [if_pos h]

/-! ## The file -/

/-- A number of a series as bytes of the file, by the two bits for it. -/
inductive Coded (real : List Nat → ℝ) : Nat → ℝ → List Nat → Prop
  | char (z : Int) (h0 : -128 ≤ z) (h1 : z < 128) : Coded real 0 z [(z % 256).toNat]
  | short (z : Int) (h0 : -32768 ≤ z) (h1 : z < 32768) {s : List Nat} (hs : s.length = 2) (h : LittleEndian 2 z (ptr s)) : Coded real 1 z s
  | long (z : Int) (h0 : -2147483648 ≤ z) (h1 : z < 2147483648) {s : List Nat} (hs : s.length = 4) (h : LittleEndian 4 z (ptr s)) : Coded real 2 z s
  | double {s : List Nat} (hs : s.length = 8) : Coded real 3 (real s) s

/-- Numbers one after another; the bits of the first are the lowest. -/
inductive CodedList (real : List Nat → ℝ) : Nat → List ℝ → List Nat → Prop
  | nil : CodedList real 0 [] []
  | cons {k f : Nat} {v : ℝ} {vs : List ℝ} {s t : List Nat} : Coded real k v s → CodedList real f vs t → CodedList real (4 * f + k) (v :: vs) (s ++ t)

/-- Six numbers with their bits before them. -/
def CodedSix (real : List Nat → ℝ) (vs : List ℝ) (s : List Nat) : Prop :=
  vs.length = 6 ∧ ∃ (f : Nat) (a t : List Nat), s = a ++ t ∧ a.length = 2 ∧ LittleEndian 2 f (ptr a) ∧ CodedList real f vs t

/-- Sixes one after another. -/
inductive CodedSixes (real : List Nat → ℝ) : List (List ℝ) → List Nat → Prop
  | nil : CodedSixes real [] []
  | cons {vs : List ℝ} {vss : List (List ℝ)} {s t : List Nat} : CodedSix real vs s → CodedSixes real vss t → CodedSixes real (vs :: vss) (s ++ t)

/-- Doubles one after another. -/
inductive Doubles (real : List Nat → ℝ) : List ℝ → List Nat → Prop
  | nil : Doubles real [] []
  | cons {vs : List ℝ} {s t : List Nat} : s.length = 8 → Doubles real vs t → Doubles real (real s :: vs) (s ++ t)

/-- Numbers of sixteen bits one after another. -/
inductive Shorts : List Nat → List Nat → Prop
  | nil : Shorts [] []
  | cons {n : Nat} {ns : List Nat} {s t : List Nat} : n < 32768 → s.length = 2 → LittleEndian 2 n (ptr s) → Shorts ns t → Shorts (n :: ns) (s ++ t)

/-- The polynomials of a block, then the numbers of its waves. -/
def StoredBlock (real : List Nat → ℝ) (b : Block) (t : List Nat) : Prop :=
  ∃ s u, t = s ++ u ∧
    Doubles real [b.poly 0 0, b.poly 0 1, b.poly 0 2, b.poly 0 3, b.poly 1 0, b.poly 1 1, b.poly 1 2, b.poly 1 3,
      b.poly 2 0, b.poly 2 1, b.poly 2 2, b.poly 2 3] s ∧
    CodedSixes real ((b.constant ++ b.linear ++ b.square).map sixOf) u

/-- The file has the blocks of planet `k + 1`, from the time `t0` on, each of `dt` days. -/
def StoredPlanet (real : List Nat → ℝ) (file : List Nat) (k : Nat) (t0 dt : ℝ) (blocks : List Block) : Prop :=
  ∃ (off n0 n1 n2 : Nat) (head fqs sizes rest : List Nat) (texts : List (List Nat)) (freqs : List ℝ),
    off < 2147483648 ∧ 4 * k + 4 ≤ file.length ∧ LittleEndian 4 off (ptr (file.drop (4 * k))) ∧
    file.drop off = head ++ (fqs ++ (sizes ++ (texts.flatten ++ rest))) ∧ head.length = 26 ∧
    real (head.take 8) = t0 ∧ real ((head.drop 8).take 8) = dt ∧
    LittleEndian 2 n0 (ptr (head.drop 16)) ∧ LittleEndian 2 n1 (ptr (head.drop 18)) ∧ LittleEndian 2 n2 (ptr (head.drop 20)) ∧
    LittleEndian 2 blocks.length (ptr (head.drop 22)) ∧ LittleEndian 2 freqs.length (ptr (head.drop 24)) ∧
    blocks.length < 32768 ∧ 0 < freqs.length ∧ freqs.length < 32768 ∧ n0 + n1 + n2 = freqs.length ∧
    Doubles real freqs fqs ∧ Shorts (texts.map List.length) sizes ∧ texts.length = blocks.length ∧
    ∀ (j : Nat) b t, blocks[j]? = some b → texts[j]? = some t →
      StoredBlock real b t ∧ b.start = t0 + (j : ℝ) * dt ∧ b.days = dt ∧ b.constant.length = n0 ∧ b.linear.length = n1 ∧
        b.square.length = n2 ∧ (b.constant ++ b.linear ++ b.square).map Wave.fq = freqs

theorem ptr_append {s : List Nat} (r : List Nat) {i : Nat} (h : i < s.length) : ptr (s ++ r) i = ptr s i := by
  unfold ptr
  rw [List.getD_eq_getElem?_getD, List.getD_eq_getElem?_getD, List.getElem?_append_left h]

theorem endian_append {n : Nat} {v : Int} {s : List Nat} (r : List Nat) (hs : n ≤ s.length) (h : LittleEndian n v (ptr s)) :
    LittleEndian n v (ptr (s ++ r)) := by
  intro i hi
  rw [ptr_append r (by omega)]
  exact h i hi

theorem coded_number {real : List Nat → ℝ} {k : Nat} {v : ℝ} {s : List Nat} (h : Coded real k v s) (r : List Nat) :
    k < 4 ∧ s.length = width k ∧ number real k (s ++ r) = v := by
  cases h with
  | char z h0 h1 =>
    refine ⟨by omega, rfl, ?_⟩
    have : schar (ptr ([(z % 256).toNat] ++ r) 0) = z := by
      have e : ptr ([(z % 256).toNat] ++ r) 0 = (z % 256).toNat := rfl
      rw [e]
      unfold schar
      omega
    show ((schar (ptr ([(z % 256).toNat] ++ r) 0) : Int) : ℝ) = z
    rw [this]
  | short z h0 h1 hs h =>
    refine ⟨by omega, hs, ?_⟩
    show ((get16sbits (ptr (s ++ r)) : Int) : ℝ) = z
    rw [get16s_lit z _ h0 h1 (endian_append r (by omega) h)]
  | long z h0 h1 hs h =>
    refine ⟨by omega, hs, ?_⟩
    show ((get32sbits (ptr (s ++ r)) : Int) : ℝ) = z
    rw [get32s_lit z _ h0 h1 (endian_append r (by omega) h)]
  | double hs =>
    refine ⟨by omega, hs, ?_⟩
    show real ((s ++ r).take 8) = real s
    rw [List.take_left' hs]

theorem unpack_coded {real : List Nat → ℝ} {f : Nat} {vs : List ℝ} {s : List Nat} (h : CodedList real f vs s) (r : List Nat) :
    f < 4 ^ vs.length ∧ unpack real vs.length f (s ++ r) = .ok (vs, r) := by
  induction h with
  | nil => exact ⟨by decide, rfl⟩
  | @cons k f v vs s t hc _ ih =>
    obtain ⟨hk, hl, hn⟩ := coded_number hc (t ++ r)
    refine ⟨?_, ?_⟩
    · rw [List.length_cons, Nat.pow_succ]
      omega
    · have e1 : (4 * f + k) % 4 = k := by omega
      have e2 : (4 * f + k) / 4 = f := by omega
      rw [List.length_cons, unpack, e1, e2, List.append_assoc, if_neg (by rw [List.length_append]; omega), List.drop_left' hl, ih.2, hn]
      rfl

theorem unpack_six {real : List Nat → ℝ} {vs : List ℝ} {s : List Nat} (h : CodedSix real vs s) (r : List Nat) :
    unpackSix real (s ++ r) = .ok (vs, r) := by
  obtain ⟨h6, f, a, t, rfl, ha, he, hc⟩ := h
  obtain ⟨hf, hu⟩ := unpack_coded hc r
  rw [h6] at hf hu
  have e : (get16bits (ptr (a ++ t ++ r)) : Int) = f := by
    rw [List.append_assoc]
    exact get16_lit f _ (by omega) (by norm_num at hf; omega) (endian_append (t ++ r) (by omega) he)
  have e' : get16bits (ptr (a ++ t ++ r)) = f := by exact_mod_cast e
  rw [unpackSix, if_neg (by simp only [List.length_append]; omega), e', List.append_assoc, List.drop_left' ha, hu]

/-- **C103.** Six numbers are read as they were stored, whatever sizes were chosen for them, and the next begin where they end. -/
theorem C103_six {real : List Nat → ℝ} {vs : List ℝ} {s : List Nat} (h : CodedSix real vs s) (r : List Nat) :
    unpackSix real (s ++ r) = .ok (vs, r) := unpack_six h r

theorem unpack_all {real : List Nat → ℝ} {vss : List (List ℝ)} {s : List Nat} (h : CodedSixes real vss s) (r : List Nat) :
    unpackAll real vss.length (s ++ r) = .ok vss := by
  induction h with
  | nil => rfl
  | cons hc _ ih =>
    rw [List.length_cons, unpackAll, List.append_assoc, unpack_six hc]
    show (unpackAll real _ _).bind _ = _
    rw [ih]
    rfl

theorem doubles_read {real : List Nat → ℝ} {vs : List ℝ} {s : List Nat} (h : Doubles real vs s) (r : List Nat) :
    s.length = 8 * vs.length ∧ doubles real vs.length (s ++ r) = vs := by
  induction h with
  | nil => exact ⟨rfl, rfl⟩
  | cons hs _ ih =>
    refine ⟨by rw [List.length_append, List.length_cons]; omega, ?_⟩
    rw [List.length_cons, doubles, List.append_assoc, List.take_left' hs, List.drop_left' hs, ih.2]

theorem shorts_read {ns : List Nat} {s : List Nat} (h : Shorts ns s) (r : List Nat) :
    s.length = 2 * ns.length ∧ shorts ns.length (s ++ r) = ns.map (Nat.cast : Nat → Int) := by
  induction h with
  | nil => exact ⟨rfl, rfl⟩
  | @cons n ns s t hn hs he _ ih =>
    refine ⟨by rw [List.length_append, List.length_cons]; omega, ?_⟩
    rw [List.length_cons, shorts, List.append_assoc, List.drop_left' hs, ih.2,
      get16s_lit n _ (by omega) (by omega) (endian_append _ (by omega) he), List.map_cons]

theorem flatten_drop (ts : List (List Nat)) (j : Nat) : ts.flatten.drop ((ts.map List.length).take j).sum = (ts.drop j).flatten := by
  induction ts generalizing j with
  | nil => simp
  | cons t ts ih =>
    cases j with
    | zero => simp
    | succ j =>
      rw [List.map_cons, List.take_succ_cons, List.sum_cons, List.flatten_cons, ← List.drop_drop, List.drop_left' rfl, ih, List.drop_succ_cons]

theorem sum_cast (l : List Nat) : (l.map (Nat.cast : Nat → Int)).sum = (l.sum : Nat) := by
  induction l with
  | nil => rfl
  | cons a l ih => rw [List.map_cons, List.sum_cons, ih, List.sum_cons, Nat.cast_add]

theorem zip_rows : ∀ ws : List Wave, List.zipWith Row.mk (ws.map Wave.fq) (ws.map sixOf) = ws.map fun w => (⟨w.fq, sixOf w⟩ : Row)
  | [] => rfl
  | w :: ws => by simp [zip_rows ws]

theorem long_read {n : Nat} {d : Nat → Nat} (hn : n < 2147483648) (h : LittleEndian 4 n d) : get32sbits d = n :=
  get32s_lit n _ (by omega) (by omega) h

theorem seek_there (stay off : Nat) : seek stay (off : Int) = off := by
  unfold seek
  rw [if_neg (by omega)]
  rfl

/-- What is found at the beginning of the data of a planet. -/
theorem header_read {real : List Nat → ℝ} {file : List Nat} {k : Nat} {t0 dt : ℝ} {blocks : List Block}
    (h : StoredPlanet real file k t0 dt blocks) (jd : ℝ) :
    ∃ (off n0 n1 n2 : Nat) (fqs sizes rest : List Nat) (texts : List (List Nat)) (freqs : List ℝ) (hd : Header),
      hd.tzero = t0 ∧ hd.dt = dt ∧ hd.nf 0 = n0 ∧ hd.nf 1 = n1 ∧ hd.nf 2 = n2 ∧ hd.nBlocks = blocks.length ∧ hd.totalFqs = freqs.length ∧
      0 < freqs.length ∧ file.drop (off + 26) = fqs ++ (sizes ++ (texts.flatten ++ rest)) ∧
      Doubles real freqs fqs ∧ Shorts (texts.map List.length) sizes ∧ texts.length = blocks.length ∧
      (∀ (j : Nat) b t, blocks[j]? = some b → texts[j]? = some t →
        StoredBlock real b t ∧ b.start = t0 + (j : ℝ) * dt ∧ b.days = dt ∧ b.constant.length = n0 ∧ b.linear.length = n1 ∧
          b.square.length = n2 ∧ (b.constant ++ b.linear ++ b.square).map Wave.fq = freqs) ∧
      load real file jd k =
        if dt = 0 ∨ ⌊(jd - t0) / dt⌋ < -2147483648 ∨ 2147483648 ≤ ⌊(jd - t0) / dt⌋ then .ub
        else if ⌊(jd - t0) / dt⌋ < 0 ∨ (blocks.length : Int) ≤ ⌊(jd - t0) / dt⌋ then .ok none
        else loadBlock real file (off + 26) hd ⌊(jd - t0) / dt⌋.toNat := by
  obtain ⟨off, n0, n1, n2, head, fqs, sizes, rest, texts, freqs, h1, h2, h3, h4, h5, h6, h7, h8, h9, h10, h11, h12, h13, h14, h15, h16, h17, h18, h19, h20⟩ := h
  have hoff : get32sbits (ptr (file.drop (4 * k))) = off := long_read h1 h3
  have hp : seek (4 * k + 4) (off : Int) = off := seek_there _ _
  have short : ∀ (n : Nat) (i : Nat), i + 2 ≤ 26 → n < 32768 → LittleEndian 2 n (ptr (head.drop i)) →
      ∀ r, get16sbits (ptr ((head ++ r).drop i)) = n := by
    intro n i hi hn he r
    rw [List.drop_append_of_le_length (by omega)]
    exact get16s_lit n _ (by omega) (by omega) (endian_append _ (by rw [List.length_drop]; omega) he)
  refine ⟨off, n0, n1, n2, fqs, sizes, rest, texts, freqs, header real (file.drop off), ?_, ?_, ?_, ?_, ?_, ?_, ?_, h14, ?_, h17, h18, h19, h20, ?_⟩
  · show real ((file.drop off).take 8) = t0
    rw [h4, List.take_append_of_le_length (by omega), h6]
  · show real (((file.drop off).drop 8).take 8) = dt
    rw [h4, List.drop_append_of_le_length (by omega), List.take_append_of_le_length (by rw [List.length_drop]; omega), h7]
  · show get16sbits (ptr ((file.drop off).drop 16)) = n0
    rw [h4]; exact short n0 16 (by omega) (by omega) h8 _
  · show get16sbits (ptr ((file.drop off).drop 18)) = n1
    rw [h4]; exact short n1 18 (by omega) (by omega) h9 _
  · show get16sbits (ptr ((file.drop off).drop 20)) = n2
    rw [h4]; exact short n2 20 (by omega) (by omega) h10 _
  · show get16sbits (ptr ((file.drop off).drop 22)) = blocks.length
    rw [h4]; exact short _ 22 (by omega) h13 h11 _
  · show get16sbits (ptr ((file.drop off).drop 24)) = freqs.length
    rw [h4]; exact short _ 24 (by omega) h15 h12 _
  · rw [← List.drop_drop, h4, List.drop_left' h5]
  · have a1 : (header real (file.drop off)).tzero = t0 := by
      show real ((file.drop off).take 8) = t0
      rw [h4, List.take_append_of_le_length (by omega), h6]
    have a2 : (header real (file.drop off)).dt = dt := by
      show real (((file.drop off).drop 8).take 8) = dt
      rw [h4, List.drop_append_of_le_length (by omega), List.take_append_of_le_length (by rw [List.length_drop]; omega), h7]
    have a3 : (header real (file.drop off)).nBlocks = blocks.length := by
      show get16sbits (ptr ((file.drop off).drop 22)) = blocks.length
      rw [h4]; exact short _ 22 (by omega) h13 h11 _
    unfold load
    simp only
    rw [if_neg (by rw [List.length_drop]; omega), hoff, hp, if_neg (by rw [h4, List.length_append]; omega), a1, a2, a3]

theorem floor_block {t0 dt jd : ℝ} {j : Nat} (hd : 0 < dt) (h0 : t0 + (j : ℝ) * dt ≤ jd) (h1 : jd < t0 + ((j : ℝ) + 1) * dt) :
    ⌊(jd - t0) / dt⌋ = (j : Int) := by
  rw [Int.floor_eq_iff]
  push_cast
  constructor
  · rw [le_div_iff₀ hd]; linarith
  · rw [div_lt_iff₀ hd]; linarith

/-- **C103.** The block for the time is loaded: that of the file, whose numbers are exactly those stored. -/
theorem C103_load {real : List Nat → ℝ} {file : List Nat} {k : Nat} {t0 dt : ℝ} {blocks : List Block}
    (h : StoredPlanet real file k t0 dt blocks) (hn : blocks.length ≤ 30) (hd : 0 < dt) {j : Nat} {b : Block} (hj : blocks[j]? = some b)
    {jd : ℝ} (h0 : t0 + (j : ℝ) * dt ≤ jd) (h1 : jd < t0 + ((j : ℝ) + 1) * dt) :
    ∃ p, load real file jd k = .ok (some p) ∧ Represents p b := by
  obtain ⟨off, n0, n1, n2, fqs, sizes, rest, texts, freqs, hdr, a1, a2, a3, a4, a5, a6, a7, hf, hs, hfq, hsz, htx, hb, hl⟩ := header_read h jd
  have hjl : j < blocks.length := (List.getElem?_eq_some_iff.mp hj).1
  obtain ⟨t, ht⟩ : ∃ t, texts[j]? = some t := ⟨texts[j], List.getElem?_eq_getElem (by omega)⟩
  obtain ⟨⟨s, u, rfl, hp, hc⟩, b1, b2, b3, b4, b5, b6⟩ := hb j b t hj ht
  rw [floor_block hd h0 h1, if_neg (by push Not; exact ⟨ne_of_gt hd, by omega, by omega⟩), if_neg (by omega)] at hl
  have ht' : (j : Int).toNat = j := rfl
  rw [hl, ht']
  obtain ⟨l1, q1⟩ := doubles_read hfq (sizes ++ (texts.flatten ++ rest))
  obtain ⟨l2, q2⟩ := shorts_read hsz (texts.flatten ++ rest)
  obtain ⟨l3, q3⟩ := doubles_read hp (u ++ [])
  have l3' : s.length = 96 := l3
  rw [List.length_map] at l2
  have hlen : (file.drop (off + 26)).length = fqs.length + (sizes.length + (texts.flatten.length + rest.length)) := by
    rw [hs]; simp only [List.length_append]
  have hw : (b.constant ++ b.linear ++ b.square).length = freqs.length := by rw [← b6, List.length_map]
  have hdrop : texts.drop j = (s ++ u) :: texts.drop (j + 1) := by
    rw [List.drop_eq_getElem_cons (by omega)]
    congr 1
    have := List.getElem?_eq_some_iff.mp ht
    exact this.2
  have hsum : ((shorts texts.length (sizes ++ (texts.flatten ++ rest))).take j).sum = (((texts.map List.length).take j).sum : Nat) := by
    rw [List.length_map] at q2
    rw [q2, ← List.map_take, sum_cast]
  have hsize : (shorts texts.length (sizes ++ (texts.flatten ++ rest))).getD j 0 = ((s ++ u).length : Int) := by
    rw [List.length_map] at q2
    rw [q2, List.getD_eq_getElem?_getD, List.getElem?_map, List.getElem?_map, ht]
    rfl
  have hpos : seek (off + 26 + 8 * freqs.length + 2 * blocks.length)
      (((off + 26 + 8 * freqs.length + 2 * blocks.length : Nat) : Int) + (((texts.map List.length).take j).sum : Nat)) =
      off + 26 + 8 * freqs.length + 2 * blocks.length + ((texts.map List.length).take j).sum := by
    unfold seek; rw [if_neg (by omega)]; omega
  have htb : file.drop (off + 26 + 8 * freqs.length + 2 * blocks.length + ((texts.map List.length).take j).sum) =
      (s ++ u) ++ ((texts.drop (j + 1)).flatten ++ rest) := by
    rw [← List.drop_drop, ← List.drop_drop, ← List.drop_drop, hs, List.drop_left' l1, List.drop_left' (by omega)]
    rw [List.drop_append_of_le_length, flatten_drop, hdrop, List.flatten_cons, List.append_assoc]
    have := congrArg List.length (flatten_drop texts j)
    rw [hdrop, List.flatten_cons, List.length_drop, List.length_append, List.length_append] at this
    omega
  have n1' : hdr.totalFqs.toNat = freqs.length := by rw [a7]; rfl
  have n2' : hdr.nBlocks.toNat = blocks.length := by rw [a6]; rfl
  refine ⟨{ tzero := hdr.tzero + (j : ℝ) * hdr.dt, dt := hdr.dt, secular := _, nf := hdr.nf, rows := (b.constant ++ b.linear ++ b.square).map fun w => ⟨w.fq, sixOf w⟩ },
    ?_, ⟨?_, ?_, rfl, ?_, ?_, ?_, rfl⟩⟩
  · unfold loadBlock
    simp only [n1', n2']
    rw [if_neg (by omega), if_neg (by omega), if_neg (by rw [hlen]; omega), if_neg (by rw [hlen]; omega)]
    have e1 : (file.drop (off + 26)).drop (8 * freqs.length) = sizes ++ (texts.flatten ++ rest) := by rw [hs, List.drop_left' l1]
    rw [e1, ← htx, hsum, hsize, htx, hpos, htb]
    have e2 : ((s ++ u).length : Int).toNat = (s ++ u).length := rfl
    rw [e2, if_neg (by rw [List.length_append]; omega), if_neg (by rw [List.length_append (as := s ++ u)]; omega), List.take_left' rfl,
      if_neg (by rw [List.length_append]; omega), List.drop_left' l3']
    have e3 : unpackAll real freqs.length u = .ok ((b.constant ++ b.linear ++ b.square).map sixOf) := by
      have := unpack_all hc []
      rw [List.append_nil, List.length_map, hw] at this
      exact this
    rw [e3]
    show Outcome.ok _ = _
    rw [List.append_nil] at q3
    have e4 : doubles real 12 (s ++ u) = _ := q3
    rw [e4, hs, q1, ← b6, zip_rows]
  · show hdr.tzero + (j : ℝ) * hdr.dt = b.start
    rw [a1, a2, b1]
  · show hdr.dt = b.days
    rw [a2, b2]
  · show hdr.nf 0 = _
    rw [a3, b3]
  · show hdr.nf 1 = _
    rw [a4, b4]
  · show hdr.nf 2 = _
    rw [a5, b5]

/-- **C103.** From the file to position and velocity at a time. -/
theorem C103_planet {real : List Nat → ℝ} {file : List Nat} {k : Nat} {t0 dt : ℝ} {blocks : List Block}
    (h : StoredPlanet real file k t0 dt blocks) (hn : blocks.length ≤ 30) (hd : 0 < dt) {j : Nat} {b : Block} (hj : blocks[j]? = some b)
    {jd : ℝ} (h0 : t0 + (j : ℝ) * dt ≤ jd) (h1 : jd < t0 + ((j : ℝ) + 1) * dt) (old : Nat → ℝ) :
    ∃ p v, load real file jd k = .ok (some p) ∧ position jd p old true = .ok (some v) ∧ (∀ i : Fin 3, v i = coordinate b i jd) ∧
      ∀ i : Fin 3, HasDerivAt (coordinate b i) (v (i.1 + 3)) jd := by
  obtain ⟨p, hp, hr⟩ := C103_load h hn hd hj h0 h1
  obtain ⟨off, n0, n1, n2, fqs, sizes, rest, texts, freqs, hdr, a1, a2, a3, a4, a5, a6, a7, hf, hs, hfq, hsz, htx, hb, hl⟩ := header_read h jd
  have hjl : j < blocks.length := (List.getElem?_eq_some_iff.mp hj).1
  obtain ⟨_, b1, b2, _⟩ := hb j b texts[j] hj (List.getElem?_eq_getElem (by omega))
  obtain ⟨v, e1, e2, e3, _⟩ := position_of hr (by rw [b2]; exact hd) (jd := jd) (by rw [b1]; exact h0) (by rw [b1, b2]; linarith) old true
  exact ⟨p, v, hp, e1, e2, fun i => e3 i rfl⟩

/-- **C103.** There is no series before the first block and from the end of the last one on. -/
theorem C103_outside {real : List Nat → ℝ} {file : List Nat} {k : Nat} {t0 dt : ℝ} {blocks : List Block}
    (h : StoredPlanet real file k t0 dt blocks) (hd : 0 < dt) {jd : ℝ} (h0 : jd < t0 ∨ t0 + (blocks.length : ℝ) * dt ≤ jd)
    (hr : |jd - t0| < 2147483648 * dt) : load real file jd k = .ok none := by
  obtain ⟨off, n0, n1, n2, fqs, sizes, rest, texts, freqs, hdr, a1, a2, a3, a4, a5, a6, a7, hf, hs, hfq, hsz, htx, hb, hl⟩ := header_read h jd
  have ⟨r1, r2⟩ := abs_lt.mp hr
  rw [hl, if_neg, if_pos]
  · rcases h0 with h0 | h0
    · left
      rw [Int.floor_lt, div_lt_iff₀ hd]
      push_cast
      linarith
    · right
      rw [Int.le_floor, le_div_iff₀ hd]
      push_cast
      linarith
  · push Not
    refine ⟨ne_of_gt hd, ?_, ?_⟩
    · rw [Int.le_floor, le_div_iff₀ hd]
      push_cast
      linarith
    · rw [Int.floor_lt, div_lt_iff₀ hd]
      push_cast
      linarith

/-- **C103 (finding).** The table of block sizes has thirty places: with more blocks the program writes past its end. -/
theorem C103_many_blocks {real : List Nat → ℝ} {file : List Nat} {k : Nat} {t0 dt : ℝ} {blocks : List Block}
    (h : StoredPlanet real file k t0 dt blocks) (hn : 30 < blocks.length) (hd : 0 < dt) {jd : ℝ} (h0 : t0 ≤ jd)
    (h1 : jd < t0 + (blocks.length : ℝ) * dt) : load real file jd k = .ub := by
  obtain ⟨off, n0, n1, n2, fqs, sizes, rest, texts, freqs, hdr, a1, a2, a3, a4, a5, a6, a7, hf, hs, hfq, hsz, htx, hb, hl⟩ := header_read h jd
  have c0 : 0 ≤ ⌊(jd - t0) / dt⌋ := by
    rw [Int.le_floor, le_div_iff₀ hd]
    push_cast
    linarith
  have c1 : ⌊(jd - t0) / dt⌋ < (blocks.length : Int) := by
    rw [Int.floor_lt, div_lt_iff₀ hd]
    push_cast
    linarith
  rw [hl]
  split_ifs with e1 e2
  · rfl
  · omega
  · obtain ⟨l1, _⟩ := doubles_read hfq []
    obtain ⟨l2, _⟩ := shorts_read hsz []
    rw [List.length_map] at l2
    have hlen : (file.drop (off + 26)).length = fqs.length + (sizes.length + (texts.flatten.length + rest.length)) := by
      rw [hs]; simp only [List.length_append]
    have n1' : hdr.totalFqs.toNat = freqs.length := by rw [a7]; rfl
    have n2' : hdr.nBlocks.toNat = blocks.length := by rw [a6]; rfl
    unfold loadBlock
    simp only [n1', n2']
    rw [if_neg (by omega), if_pos (by rw [hlen]; omega)]

/-! ## Examples -/

/-- For the examples eight bytes are the number that the first of them is. -/
noncomputable def firstByte (s : List Nat) : ℝ := (s.getD 0 0 : Nat)

/-- A wave with numbers that fit into a byte each. -/
noncomputable def exampleWave : Wave :=
  { fq := firstByte [2, 0, 0, 0, 0, 0, 0, 0], cosine := ![((1 : Int) : ℝ), ((3 : Int) : ℝ), ((300 : Int) : ℝ)], sine := ![((2 : Int) : ℝ), ((4 : Int) : ℝ), ((-2 : Int) : ℝ)] }

/-- A block of 32 days. -/
noncomputable def exampleBlock : Block :=
  { start := 0 + ((0 : Nat) : ℝ) * 32, days := 32, poly := fun _ _ => firstByte [7, 0, 0, 0, 0, 0, 0, 0], constant := [exampleWave], linear := [], square := [] }

/-- Its bytes: twelve doubles, the bits (the fifth number has two bytes), the six numbers. -/
def exampleText : List Nat :=
  [7, 0, 0, 0, 0, 0, 0, 0] ++ ([7, 0, 0, 0, 0, 0, 0, 0] ++ ([7, 0, 0, 0, 0, 0, 0, 0] ++ ([7, 0, 0, 0, 0, 0, 0, 0] ++
  ([7, 0, 0, 0, 0, 0, 0, 0] ++ ([7, 0, 0, 0, 0, 0, 0, 0] ++ ([7, 0, 0, 0, 0, 0, 0, 0] ++ ([7, 0, 0, 0, 0, 0, 0, 0] ++
  ([7, 0, 0, 0, 0, 0, 0, 0] ++ ([7, 0, 0, 0, 0, 0, 0, 0] ++ ([7, 0, 0, 0, 0, 0, 0, 0] ++ ([7, 0, 0, 0, 0, 0, 0, 0] ++ []))))))))))) ++
  [0, 1, 1, 2, 3, 4, 44, 1, 254]

/-- A file with this block for the first planet. -/
def exampleSeries : List Nat :=
  [4, 0, 0, 0] ++ ([0, 0, 0, 0, 0, 0, 0, 0] ++ [32, 0, 0, 0, 0, 0, 0, 0] ++ [1, 0, 0, 0, 0, 0, 1, 0, 1, 0] ++ ([2, 0, 0, 0, 0, 0, 0, 0] ++ ([105, 0] ++ (exampleText ++ []))))

theorem small_endian {n v : Nat} (h : n = 2 ∨ n = 4) (hv : v < 256) (s : List Nat) : LittleEndian n v (ptr (v :: List.replicate (n - 1) 0 ++ s)) := by
  intro i hi
  rcases h with rfl | rfl
  · rcases (by omega : i = 0 ∨ i = 1) with rfl | rfl
    · show (v : Int) = v / 1 % 256; omega
    · show (0 : Int) = v / 256 % 256; omega
  · rcases (by omega : i = 0 ∨ i = 1 ∨ i = 2 ∨ i = 3) with rfl | rfl | rfl | rfl
    · show (v : Int) = v / 1 % 256; omega
    · show (0 : Int) = v / 256 % 256; omega
    · show (0 : Int) = v / 65536 % 256; omega
    · show (0 : Int) = v / 16777216 % 256; omega

/-- The hypotheses of the theorems about files. -/
theorem example_stored : StoredPlanet firstByte exampleSeries 0 0 32 [exampleBlock] := by
  refine ⟨4, 1, 0, 0, [0, 0, 0, 0, 0, 0, 0, 0] ++ [32, 0, 0, 0, 0, 0, 0, 0] ++ [1, 0, 0, 0, 0, 0, 1, 0, 1, 0], [2, 0, 0, 0, 0, 0, 0, 0] ++ [],
    [105, 0] ++ [], [], [exampleText], [firstByte [2, 0, 0, 0, 0, 0, 0, 0]], by norm_num, ?_, small_endian (.inr rfl) (by omega) _, ?_, rfl,
    by simp [firstByte], by norm_num [firstByte], small_endian (.inl rfl) (by omega) _, small_endian (.inl rfl) (by omega) _, small_endian (.inl rfl) (by omega) _,
    small_endian (v := 1) (.inl rfl) (by omega) _, ?_, by simp, by simp, by simp, rfl,
    .cons rfl .nil, ?_, rfl, ?_⟩
  · unfold exampleSeries
    rw [List.length_append]
    have : [4, 0, 0, 0].length = 4 := rfl
    omega
  · unfold exampleSeries
    rw [List.drop_left' (show [4, 0, 0, 0].length = 4 from rfl), List.flatten_cons, List.flatten_nil, List.append_nil, List.append_nil, List.append_nil, List.append_nil]
  · intro i hi
    rcases (by omega : i = 0 ∨ i = 1) with rfl | rfl <;> rfl
  · have e : exampleText.length = 105 := rfl
    rw [List.map_cons, List.map_nil, e]
    exact Shorts.cons (by decide) rfl (small_endian (.inl rfl) (by omega) []) .nil
  · intro j b t hb ht
    cases j with
    | succ j => simp at hb
    | zero =>
      simp only [List.getElem?_cons_zero, Option.some.injEq] at hb ht
      subst hb ht
      refine ⟨⟨_, _, rfl, ?_, ?_⟩, rfl, rfl, rfl, rfl, rfl, rfl⟩
      · exact .cons rfl (.cons rfl (.cons rfl (.cons rfl (.cons rfl (.cons rfl (.cons rfl (.cons rfl (.cons rfl (.cons rfl (.cons rfl (.cons rfl .nil)))))))))))
      · refine CodedSixes.cons (s := [0, 1, 1, 2, 3, 4, 44, 1, 254]) ⟨rfl, 256, [0, 1], [1, 2, 3, 4, 44, 1, 254], rfl, rfl, ?_, ?_⟩ .nil
        · intro i hi
          rcases (by omega : i = 0 ∨ i = 1) with rfl | rfl <;> rfl
        · refine CodedList.cons (f := 64) (s := [1]) (.char 1 (by omega) (by omega)) (.cons (f := 16) (s := [2]) (.char 2 (by omega) (by omega))
            (.cons (f := 4) (s := [3]) (.char 3 (by omega) (by omega)) (.cons (f := 1) (s := [4]) (.char 4 (by omega) (by omega))
            (.cons (f := 0) (s := [44, 1]) (.short 300 (by omega) (by omega) rfl ?_) (.cons (f := 0) (s := [254]) (.char (-2) (by omega) (by omega)) .nil)))))
          intro i hi
          rcases (by omega : i = 0 ∨ i = 1) with rfl | rfl <;> rfl

/-- A position from this file, and one that is not in it. -/
example (old : Nat → ℝ) : (∃ p v, load firstByte exampleSeries 10 0 = .ok (some p) ∧ position 10 p old true = .ok (some v) ∧ v 0 = coordinate exampleBlock 0 10) ∧
    load firstByte exampleSeries 32 0 = .ok none := by
  obtain ⟨p, v, h1, h2, h3, _⟩ := C103_planet example_stored (by decide) (by norm_num) (j := 0) rfl (jd := 10) (by norm_num) (by norm_num) old
  refine ⟨⟨p, v, h1, h2, h3 0⟩, C103_outside example_stored (by norm_num) (.inr (by norm_num)) (by norm_num [abs_lt])⟩

end Verif.Props
