import Verif.Model.AddOff
import Verif.Spec.AddOff
import Verif.Props.AdesRead
import Verif.Props.CtimeCount

/-!
# Property theorems: the line with the position of a spacecraft (C96)
-/

namespace Verif.Props

open Verif Verif.Spec Verif.AddOff

/-! ## Bytes stored in a line -/

theorem put_keeps {b s : List Nat} {i : Nat} (h : i + s.length ≤ b.length) : (put b i s).length = b.length := by
  unfold put
  simp
  omega

theorem at_put {b s : List Nat} {i : Nat} (h : i + s.length ≤ b.length) (j : Nat) :
    at? (put b i s) j = if i ≤ j ∧ j < i + s.length then at? s (j - i) else at? b j := by
  have hl : (b.take i).length = i := by rw [List.length_take]; omega
  unfold put at?
  simp only [List.getD_eq_getElem?_getD]
  by_cases h1 : j < i
  · rw [if_neg (by omega), List.append_assoc, List.getElem?_append_left (by omega), List.getElem?_take_of_lt h1]
  · by_cases h2 : j < i + s.length
    · rw [if_pos (by omega), List.append_assoc, List.getElem?_append_right (by omega), hl, List.getElem?_append_left (by omega)]
    · rw [if_neg (by omega), List.getElem?_append_right (by simp; omega), List.getElem?_drop]
      congr 2
      simp
      omega

/-- A store within the line, in terms of the columns. -/
theorem put_spec {b s : List Nat} {i : Nat} (h : i + s.length ≤ b.length) :
    ∃ b', put b i s = b' ∧ b'.length = b.length ∧ ∀ j, at? b' j = if i ≤ j ∧ j < i + s.length then at? s (j - i) else at? b j :=
  ⟨_, rfl, put_keeps h, at_put h⟩

theorem slice_eq {out t : List Nat} {i : Nat} (hl : i + t.length ≤ out.length) (h : ∀ j, j < t.length → at? out (i + j) = at? t j) :
    (out.drop i).take t.length = t := by
  apply List.ext_getElem
  · simp; omega
  · intro j h1 h2
    have := h j h2
    unfold at? at this
    simp only [List.getD_eq_getElem?_getD] at this
    rw [List.getElem?_eq_getElem (by omega), List.getElem?_eq_getElem h2] at this
    simpa using this

/-- The columns of the line, for coordinates whose texts have eleven bytes. -/
theorem line_columns {line : List Nat} (hl : 80 < line.length) (p : Triple)
    (h0 : (field (scaled (inAu p) |p.x|).1 (scaled (inAu p) |p.x|).2).length = 11)
    (h1 : (field (scaled (inAu p) |p.y|).1 (scaled (inAu p) |p.y|).2).length = 11)
    (h2 : (field (scaled (inAu p) |p.z|).1 (scaled (inAu p) |p.z|).2).length = 11) :
    ∃ out, setOffsetLine line p = .ok out ∧ out.length = line.length ∧
      (∀ i, i < 14 ∨ (15 ≤ i ∧ i < 32) ∨ 72 ≤ i → at? out i = at? line i) ∧ at? out 14 = 115 ∧
      at? out 32 = (if inAu p then 50 else 49) ∧ (∀ i, i = 33 ∨ i = 70 ∨ i = 71 → at? out i = 32) ∧
      ∀ i v, (i, v) ∈ [(34, p.x), (46, p.y), (58, p.z)] →
        (out.drop i).take 12 = (if v > 0 then 43 else 45) :: field (scaled (inAu p) |v|).1 (scaled (inAu p) |v|).2 := by
  unfold setOffsetLine putCoord
  have e0 : ∀ v f, (if v > (0 : ℚ) then 43 else 45) :: f = (if v > (0 : ℚ) then 43 else 45) :: field (scaled (inAu p) |v|).1 (scaled (inAu p) |v|).2 →
      f = field (scaled (inAu p) |v|).1 (scaled (inAu p) |v|).2 := fun v f h => by simpa using h
  simp only [Outcome.bind]
  have hc : ∀ i v, (i, v) ∈ [(34, p.x), (46, p.y), (58, p.z)] ↔ (i = 34 ∧ v = p.x) ∨ (i = 46 ∧ v = p.y) ∨ (i = 58 ∧ v = p.z) := by
    intro i v
    simp
  simp only [hc]
  clear hc e0
  have hx : ∀ f : List Nat, f = field (scaled (inAu p) |p.x|).1 (scaled (inAu p) |p.x|).2 → f.length = 11 := fun f h => h ▸ h0
  have hy : ∀ f : List Nat, f = field (scaled (inAu p) |p.y|).1 (scaled (inAu p) |p.y|).2 → f.length = 11 := fun f h => h ▸ h1
  have hz : ∀ f : List Nat, f = field (scaled (inAu p) |p.z|).1 (scaled (inAu p) |p.z|).2 → f.length = 11 := fun f h => h ▸ h2
  obtain ⟨f0, hf0⟩ : ∃ f, f = field (scaled (inAu p) |p.x|).1 (scaled (inAu p) |p.x|).2 := ⟨_, rfl⟩
  obtain ⟨f1, hf1⟩ : ∃ f, f = field (scaled (inAu p) |p.y|).1 (scaled (inAu p) |p.y|).2 := ⟨_, rfl⟩
  obtain ⟨f2, hf2⟩ : ∃ f, f = field (scaled (inAu p) |p.z|).1 (scaled (inAu p) |p.z|).2 := ⟨_, rfl⟩
  have l0 := hx f0 hf0
  have l1 := hy f1 hf1
  have l2 := hz f2 hf2
  rw [← hf0, ← hf1, ← hf2]
  clear hx hy hz
  obtain ⟨a, ea, la, ha⟩ := put_spec (b := line) (i := 33) (s := List.replicate 39 32) (by simp; omega)
  rw [ea]
  obtain ⟨b, eb, lb, hb⟩ := put_spec (b := a) (i := 32) (s := [if inAu p then 50 else 49]) (by simp; omega)
  rw [eb]
  obtain ⟨c, ec, lc, hc⟩ := put_spec (b := b) (i := 33) (s := [32]) (by simp; omega)
  rw [ec]
  obtain ⟨d, ed, ld, hd⟩ := put_spec (b := c) (i := 34 + 0 * 12) (s := [if p.x > 0 then 43 else 45]) (by simp; omega)
  rw [ed, if_neg (by omega)]
  obtain ⟨g, eg, lg, hg⟩ := put_spec (b := d) (i := 35 + 0 * 12) (s := f0 ++ [0]) (by simp; omega)
  rw [eg]
  obtain ⟨k, ek, lk, hk⟩ := put_spec (b := g) (i := 34 + 1 * 12) (s := [if p.y > 0 then 43 else 45]) (by simp; omega)
  simp only [ek]
  rw [if_neg (by omega)]
  obtain ⟨m, em, lm, hm⟩ := put_spec (b := k) (i := 35 + 1 * 12) (s := f1 ++ [0]) (by simp; omega)
  rw [em]
  obtain ⟨n, en, ln, hn⟩ := put_spec (b := m) (i := 34 + 2 * 12) (s := [if p.z > 0 then 43 else 45]) (by simp; omega)
  simp only [en]
  rw [if_neg (by omega)]
  obtain ⟨q, eq, lq, hq⟩ := put_spec (b := n) (i := 35 + 2 * 12) (s := f2 ++ [0]) (by simp; omega)
  rw [eq]
  obtain ⟨r, er, lr, hr⟩ := put_spec (b := q) (i := 14) (s := [115]) (by simp; omega)
  simp only [er]
  obtain ⟨t, et, lt, ht⟩ := put_spec (b := r) (i := 70) (s := [32]) (by simp; omega)
  rw [et]
  clear ea eb ec ed eg ek em en eq er et
  simp only [List.length_append, List.length_singleton, List.length_replicate, l0, l1, l2] at ha hb hc hd hg hk hm hn hq hr ht
  have all : ∀ j, at? t j = if 70 ≤ j ∧ j < 70 + 1 then 32 else if 14 ≤ j ∧ j < 14 + 1 then 115 else if 59 ≤ j ∧ j < 71 then at? (f2 ++ [0]) (j - 59) else
      if 58 ≤ j ∧ j < 59 then (if p.z > 0 then 43 else 45) else if 47 ≤ j ∧ j < 59 then at? (f1 ++ [0]) (j - 47) else
      if 46 ≤ j ∧ j < 47 then (if p.y > 0 then 43 else 45) else if 35 ≤ j ∧ j < 47 then at? (f0 ++ [0]) (j - 35) else
      if 34 ≤ j ∧ j < 35 then (if p.x > 0 then 43 else 45) else if 33 ≤ j ∧ j < 34 then 32 else
      if 32 ≤ j ∧ j < 33 then (if inAu p then 50 else 49) else if 33 ≤ j ∧ j < 72 then 32 else at? line j := by
    have one : ∀ (i : Nat) (c : Nat) {j : Nat}, i ≤ j ∧ j < i + 1 → at? [c] (j - i) = c := by
      intro i c j h
      rw [show j - i = 0 by omega]
      rfl
    have many : ∀ {j : Nat}, 33 ≤ j ∧ j < 72 → at? (List.replicate 39 32) (j - 33) = 32 := by
      intro j h
      unfold at?
      rw [List.getD_eq_getElem _ _ (by rw [List.length_replicate]; omega), List.getElem_replicate]
    intro j
    rw [ht, hr, hq, hn, hm, hk, hg, hd, hc, hb, ha]
    repeat' (refine ite_congr rfl (fun h => ?_) (fun _ => ?_))
    all_goals first | rfl | exact one _ _ h | exact many h
  clear ha hb hc hd hg hk hm hn hq hr ht
  have ends : ∀ {f : List Nat} {j : Nat}, f.length = 11 → j < 11 → at? (f ++ [0]) j = at? f j := by
    intro f j hf hj
    unfold at?
    rw [List.getD_append _ _ _ _ (by omega)]
  refine ⟨t, rfl, by omega, ?_, ?_, ?_, ?_, ?_⟩
  · intro i hi
    rw [all]
    repeat rw [if_neg (by omega)]
  · rw [all]
    simp
  · rw [all]
    simp
  · intro i hi
    rw [all]
    rcases hi with rfl | rfl | rfl <;> simp
  · rintro i v (⟨rfl, rfl⟩ | ⟨rfl, rfl⟩ | ⟨rfl, rfl⟩)
    · rw [← hf0]
      have := slice_eq (out := t) (i := 34) (t := (if p.x > 0 then 43 else 45) :: f0) (by simp; omega) (by
        intro j hj
        simp only [List.length_cons, l0] at hj
        rw [all]
        rcases j with _ | j
        · rfl
        · repeat rw [if_neg (by omega)]
          rw [if_pos (by omega), show 34 + (j + 1) - 35 = j by omega, ends l0 (by omega)]
          rfl)
      simpa only [List.length_cons, l0] using this
    · rw [← hf1]
      have := slice_eq (out := t) (i := 46) (t := (if p.y > 0 then 43 else 45) :: f1) (by simp; omega) (by
        intro j hj
        simp only [List.length_cons, l1] at hj
        rw [all]
        rcases j with _ | j
        · rfl
        · repeat rw [if_neg (by omega)]
          rw [if_pos (by omega), show 46 + (j + 1) - 47 = j by omega, ends l1 (by omega)]
          rfl)
      simpa only [List.length_cons, l1] using this
    · rw [← hf2]
      have := slice_eq (out := t) (i := 58) (t := (if p.z > 0 then 43 else 45) :: f2) (by simp; omega) (by
        intro j hj
        simp only [List.length_cons, l2] at hj
        rw [all]
        rcases j with _ | j
        · rfl
        · repeat rw [if_neg (by omega)]
          rw [if_pos (by omega), show 58 + (j + 1) - 59 = j by omega, ends l2 (by omega)]
          rfl)
      simpa only [List.length_cons, l2] using this

/-! ## The numbers -/

theorem roundEven_ge {x : ℚ} {n : Int} (hn : n % 2 = 0) (h : (n : ℚ) - 1 / 2 ≤ x) : n ≤ Time.roundEven x := by
  have a := Int.floor_le x
  have b := Int.lt_floor_add_one x
  have c : n - 1 ≤ ⌊x⌋ := Int.le_floor.2 (by push_cast; linarith)
  unfold Time.roundEven
  by_cases d : n ≤ ⌊x⌋
  · split_ifs <;> omega
  · have e : ⌊x⌋ = n - 1 := by omega
    have e' : (⌊x⌋ : ℚ) = n - 1 := by exact_mod_cast e
    rw [if_neg (by rw [e']; linarith)]
    split_ifs <;> omega

/-- The number of units printed. -/
def units (p : Nat) (x : ℚ) : Nat := (Time.roundEven (x * 10 ^ p)).toNat

theorem units_near (p : Nat) {x : ℚ} (hx : 0 ≤ x) : |(units p x : ℚ) - x * 10 ^ p| ≤ 1 / 2 := by
  obtain ⟨N, hN, -, hd⟩ := fmtFixed_written (K := ℚ) p x
  rw [abs_of_nonneg hx] at hN hd
  rw [show units p x = N from hN.symm]
  exact hd

theorem fixed_text {p : Nat} (hp : 1 ≤ p) {x : ℚ} (hx : 0 ≤ x) :
    Time.fmtFixed p x = dec (units p x / 10 ^ p) ++ 46 :: pad p (units p x % 10 ^ p) := by
  unfold Time.fmtFixed units
  rw [abs_of_nonneg hx]
  simp only [not_lt.2 hx, if_false, List.nil_append, if_neg (show p ≠ 0 by omega)]

theorem field_text {p : Nat} (hp : 1 ≤ p) (hp8 : p ≤ 8) {x : ℚ} (hx : 0 ≤ x) (h : units p x < 10 ^ 9) :
    (field p x).length = 11 ∧ ∃ k ds fs, field p x = List.replicate k 32 ++ (ds ++ 46 :: fs) ++ [32] ∧ AllDigits ds ∧ ds ≠ [] ∧ AllDigits fs ∧
      fs.length = p ∧ value ds * 10 ^ p + value fs = units p x := by
  have hd := numeral_dec (units p x / 10 ^ p)
  have hm : units p x % 10 ^ p < 10 ^ p := Nat.mod_lt _ (by positivity)
  have hf := padded_pad hm (by omega)
  have hq : units p x / 10 ^ p < 10 ^ (8 - p + 1) := by
    apply Nat.div_lt_of_lt_mul
    rw [← pow_add, show p + (8 - p + 1) = 9 by omega]
    exact h
  have hl := dec_length_le hq
  have e := fixed_text hp hx
  have len : (Time.fmtFixed p x).length ≤ 10 := by
    rw [e, List.length_append, List.length_cons, hf.width]
    omega
  constructor
  · unfold field
    simp only [List.length_append, List.length_replicate, List.length_singleton]
    omega
  · refine ⟨10 - (Time.fmtFixed p x).length, dec (units p x / 10 ^ p), pad p (units p x % 10 ^ p), ?_, hd.digits, hd.nonempty, hf.digits, hf.width, ?_⟩
    · unfold field
      simp only [e]
    · rw [hd.value, hf.value, Nat.mul_comm, Nat.div_add_mod]

theorem field_wide {p : Nat} (hp : 1 ≤ p) (hp8 : p ≤ 8) {x : ℚ} (hx : 0 ≤ x) (h : 10 ^ 9 ≤ units p x) : 12 ≤ (field p x).length := by
  have hd := numeral_dec (units p x / 10 ^ p)
  have hm : units p x % 10 ^ p < 10 ^ p := Nat.mod_lt _ (by positivity)
  have hf := padded_pad hm (by omega)
  have hq : 10 ^ (9 - p) ≤ units p x / 10 ^ p := by
    rw [Nat.le_div_iff_mul_le (by positivity), ← pow_add, show 9 - p + p = 9 by omega]
    exact h
  have hl : 9 - p < (dec (units p x / 10 ^ p)).length := by
    have := value_cons_lt hd.digits
    rw [hd.value] at this
    exact (Nat.pow_lt_pow_iff_right (by norm_num : 1 < 10)).1 (lt_of_le_of_lt hq this)
  unfold field
  simp only [List.length_append, List.length_replicate, List.length_singleton]
  rw [fixed_text hp hx, List.length_append, List.length_cons, hf.width]
  omega

/-- Whether astronomical units are used. -/
theorem inAu_eq (p : Triple) : inAu p = decide (9999999 < |p.x| ∨ 9999999 < |p.y| ∨ 9999999 < |p.z|) := by
  have one : ∀ v : ℚ, (v > 9999999 ∨ v < -9999999) ↔ 9999999 < |v| := by
    intro v
    rw [lt_abs]
    constructor <;> rintro (h | h)
    exacts [Or.inl h, Or.inr (by linarith), Or.inl h, Or.inr (by linarith)]
  unfold inAu Triple.list
  simp only [List.any_cons, List.any_nil, Bool.or_false, one]
  rw [Bool.decide_or, Bool.decide_or]

theorem au_eq : auKm = kmPerAu := by unfold auKm kmPerAu; norm_num

theorem scaled_eq (au : Bool) (d : ℚ) : scaled au d = (OffsetPlaces au d, d / offsetUnit au) := by
  have pos : (0 : ℚ) < kmPerAu := by unfold kmPerAu; norm_num
  unfold scaled OffsetPlaces offsetUnit
  cases au
  · simp only [Bool.false_eq_true, if_false, div_one, Prod.mk.injEq, and_true]
    by_cases h1 : d ≤ 99999
    · rw [if_neg (by linarith), if_neg (by linarith), if_pos h1]
    · rw [if_neg h1]
      by_cases h2 : d ≤ 999999
      · rw [if_neg (by linarith), if_pos (by linarith), if_pos h2]
      · rw [if_pos (by linarith), if_neg h2]
  · simp only [if_true, au_eq, Prod.mk.injEq, and_true]
    by_cases h : d ≤ 99 / 10 * kmPerAu
    · rw [if_pos h, if_neg (by rw [gt_iff_lt, not_lt, div_le_iff₀ pos]; exact h)]
    · rw [if_neg h, if_pos (by rw [gt_iff_lt, lt_div_iff₀ pos]; linarith)]

theorem places_range (au : Bool) (d : ℚ) : 1 ≤ OffsetPlaces au d ∧ OffsetPlaces au d ≤ 8 := by
  unfold OffsetPlaces
  split_ifs <;> omega

theorem unit_pos (au : Bool) : 0 < offsetUnit au := by
  unfold offsetUnit kmPerAu
  cases au <;> norm_num

/-- The farthest distance there is room for. -/
def farthest : ℚ := (100 - 1 / 20000000) * kmPerAu

theorem units_fit {au : Bool} {v : ℚ} (h : |v| < farthest) (hk : au = false → |v| ≤ 9999999) :
    units (OffsetPlaces au |v|) (|v| / offsetUnit au) < 10 ^ 9 := by
  have near := units_near (OffsetPlaces au |v|) (div_nonneg (abs_nonneg v) (unit_pos au).le)
  have up := (abs_le.1 near).2
  have key : |v| / offsetUnit au * 10 ^ OffsetPlaces au |v| < 10 ^ 9 - 1 / 2 := by
    have pos : (0 : ℚ) < kmPerAu := by unfold kmPerAu; norm_num
    unfold OffsetPlaces offsetUnit
    cases au
    · have := hk rfl
      simp only [Bool.false_eq_true, if_false, div_one]
      split_ifs with h1 h2 <;> norm_num <;> linarith
    · simp only [if_true]
      have : |v| / kmPerAu < 100 - 1 / 20000000 := by
        rw [div_lt_iff₀ pos]
        exact h
      split_ifs with h1
      · have : |v| / kmPerAu ≤ 99 / 10 := by rw [div_le_iff₀ pos]; exact h1
        norm_num
        linarith
      · norm_num
        linarith
  have : (units (OffsetPlaces au |v|) (|v| / offsetUnit au) : ℚ) < ((10 ^ 9 : Nat) : ℚ) := by
    push_cast
    linarith
  exact_mod_cast this

/-- The program writes the line of the position, in astronomical units if some coordinate is more than 9999999 km. -/
theorem C96_line {line : List Nat} (hl : 80 < line.length) (p : Triple) (hx : |p.x| < farthest) (hy : |p.y| < farthest) (hz : |p.z| < farthest) :
    ∃ out, setOffsetLine line p = .ok out ∧
      PositionLine line p.x p.y p.z (decide (9999999 < |p.x| ∨ 9999999 < |p.y| ∨ 9999999 < |p.z|)) out := by
  have hau := inAu_eq p
  rw [← hau]
  have small : inAu p = false → |p.x| ≤ 9999999 ∧ |p.y| ≤ 9999999 ∧ |p.z| ≤ 9999999 := by
    intro h
    rw [hau, decide_eq_false_iff_not] at h
    push Not at h
    exact h
  have fits : ∀ v, (v = p.x ∨ v = p.y ∨ v = p.z) → units (OffsetPlaces (inAu p) |v|) (|v| / offsetUnit (inAu p)) < 10 ^ 9 := by
    rintro v (rfl | rfl | rfl)
    exacts [units_fit hx fun h => (small h).1, units_fit hy fun h => (small h).2.1, units_fit hz fun h => (small h).2.2]
  have text := fun v (hv : v = p.x ∨ v = p.y ∨ v = p.z) =>
    field_text (places_range (inAu p) |v|).1 (places_range (inAu p) |v|).2 (div_nonneg (abs_nonneg v) (unit_pos (inAu p)).le) (fits v hv)
  obtain ⟨out, ho, len, kept, mark, unit, blank, coords⟩ := line_columns hl p
    (by rw [scaled_eq]; exact (text p.x (Or.inl rfl)).1) (by rw [scaled_eq]; exact (text p.y (Or.inr (Or.inl rfl))).1)
    (by rw [scaled_eq]; exact (text p.z (Or.inr (Or.inr rfl))).1)
  refine ⟨out, ho, len, kept, mark, unit, blank, fun i v hv => ?_⟩
  have c := coords i v hv
  have hv' : v = p.x ∨ v = p.y ∨ v = p.z := by
    simp at hv
    tauto
  obtain ⟨l11, k, ds, fs, e, hd, hne, hf, hfl, hval⟩ := text v hv'
  rw [scaled_eq] at c
  refine ⟨units (OffsetPlaces (inAu p) |v|) (|v| / offsetUnit (inAu p)), ⟨k, ds, fs, ?_, ?_, hd, hne, hf, hfl, hval⟩, ?_⟩
  · unfold twelve
    rw [c, e]
    by_cases h : v ≤ 0
    · rw [if_neg (by linarith)]
      simp [h]
    · rw [if_pos (by linarith)]
      simp [h]
  · unfold twelve
    rw [c, List.length_cons, l11]
  · have near := units_near (OffsetPlaces (inAu p) |v|) (div_nonneg (abs_nonneg v) (unit_pos (inAu p)).le)
    have pos := unit_pos (inAu p)
    generalize offsetUnit (inAu p) = U at *
    generalize OffsetPlaces (inAu p) |v| = q at *
    have ten : (0 : ℚ) < 10 ^ q := by positivity
    rw [show (units q (|v| / U) : ℚ) / 10 ^ q * U - |v| = (units q (|v| / U) - |v| / U * 10 ^ q) * (U / 10 ^ q) by field_simp, abs_mul,
      abs_of_pos (div_pos pos ten), show U / 2 / 10 ^ q = 1 / 2 * (U / 10 ^ q) by field_simp]
    exact mul_le_mul_of_nonneg_right near (div_pos pos ten).le

/-- Beyond a hundred astronomical units there is no room: the program stops. -/
theorem C96_too_far (line : List Nat) (p : Triple) (h : farthest ≤ |p.x| ∨ farthest ≤ |p.y| ∨ farthest ≤ |p.z|) :
    setOffsetLine line p = .abort := by
  have far : ∀ v : ℚ, farthest ≤ |v| → 9999999 < |v| ∧ 12 ≤ (field (scaled true |v|).1 (scaled true |v|).2).length := by
    intro v hv
    have pos : (0 : ℚ) < kmPerAu := by unfold kmPerAu; norm_num
    have big : 99 / 10 * kmPerAu < |v| := by
      unfold farthest at hv
      nlinarith
    refine ⟨lt_trans (by unfold kmPerAu; norm_num) big, ?_⟩
    rw [scaled_eq]
    have e : OffsetPlaces true |v| = 7 := by
      unfold OffsetPlaces
      rw [if_pos rfl, if_neg (by linarith)]
    have u : offsetUnit true = kmPerAu := rfl
    rw [e, u]
    have nn : 0 ≤ |v| / kmPerAu := div_nonneg (abs_nonneg v) pos.le
    apply field_wide (by norm_num) (by norm_num) nn
    have r : (10 ^ 9 : Int) ≤ Time.roundEven (|v| / kmPerAu * 10 ^ 7) := by
      apply roundEven_ge (by norm_num)
      have : 100 - 1 / 20000000 ≤ |v| / kmPerAu := by
        rw [le_div_iff₀ pos]
        exact hv
      push_cast
      linarith
    unfold units
    simp only
    omega
  have au : inAu p = true := by
    rw [inAu_eq, decide_eq_true_iff]
    rcases h with h | h | h
    exacts [Or.inl (far _ h).1, Or.inr (Or.inl (far _ h).1), Or.inr (Or.inr (far _ h).1)]
  unfold setOffsetLine
  simp only [au]
  have stop : ∀ b i v, farthest ≤ |v| → putCoord true b i v = .abort := by
    intro b i v hv
    unfold putCoord
    simp only
    rw [if_pos (far v hv).2]
  have two : ∀ b i v, putCoord true b i v = .abort ∨ ∃ c, putCoord true b i v = .ok c := by
    intro b i v
    unfold putCoord
    simp only
    by_cases h : (field (scaled true |v|).1 (scaled true |v|).2).length ≥ 12
    · rw [if_pos h]
      exact Or.inl rfl
    · rw [if_neg h]
      exact Or.inr ⟨_, rfl⟩
  generalize put (put (put line 33 (List.replicate 39 32)) 32 [if True then 50 else 49]) 33 [32] = b0
  rcases two b0 0 p.x with e0 | ⟨b1, e0⟩
  · rw [e0]; rfl
  rw [e0, Outcome.bind]
  rcases two b1 1 p.y with e1 | ⟨b2, e1⟩
  · rw [e1]; rfl
  rw [e1, Outcome.bind]
  rcases h with h | h | h
  · rw [stop _ _ _ h] at e0; simp at e0
  · rw [stop _ _ _ h] at e1; simp at e1
  · rw [stop _ _ _ h]; rfl

/-- A coordinate of such a line as the program reads it. -/
theorem field_read {out : List Nat} {i q n : Nat} {neg : Bool} (h : OffsetField q neg n (twelve i out)) :
    at? out i = (if neg then 45 else 43) ∧ MpcLine.atof (out.drop (i + 1)) = (n : ℚ) / 10 ^ q := by
  obtain ⟨k, ds, fs, e, len, hd, hne, hf, hfl, hval⟩ := h
  unfold twelve at e
  have split : out.drop i = (if neg then 45 else 43) :: ((List.replicate k 32 ++ (ds ++ 46 :: fs)) ++ (32 :: out.drop (i + 12))) := by
    conv_lhs => rw [← List.take_append_drop 12 (out.drop i), e, List.drop_drop]
    simp
  constructor
  · have : at? (out.drop i) 0 = at? out i := by simp [at?]
    rw [← this, split]
    rfl
  · have tail : out.drop (i + 1) = List.replicate k 32 ++ (ds ++ 46 :: fs) ++ (32 :: out.drop (i + 12)) := by
      rw [show out.drop (i + 1) = (out.drop i).drop 1 by rw [List.drop_drop], split]
      rfl
    have blanks : ∀ (k : Nat) (t : List Nat), (Scan.strtold (K := ℚ) (List.replicate k 32 ++ t)).1 = (Scan.strtold (K := ℚ) t).1 := by
      intro k t
      have hs : Scan.skipSpace (List.replicate k 32 ++ t) = Scan.skipSpace t := by
        induction k with
        | zero => rfl
        | succ k ih => rw [List.replicate_succ, List.cons_append, Scan.skipSpace, if_pos (by rfl), ih]
      unfold Scan.strtold
      rw [hs]
      simp only
      split
      · rfl
      · split <;> rfl
    unfold MpcLine.atof
    rw [tail, List.append_assoc, blanks, Scan.strtold_decimal hd hne hf ⟨rfl, by simp [at?], by simp [at?], by simp [at?]⟩, ← hval, hfl]
    push_cast
    field_simp

/-- Half a unit in the last place, in kilometres. -/
def halfUnit (au : Bool) (v : ℚ) : ℚ := offsetUnit au / 2 / 10 ^ OffsetPlaces au |v|

/-- What the program reads from a line with a position is that position, to half a unit in the last place. -/
theorem C96_read {line out : List Nat} {x y z : ℚ} {au : Bool} (h : PositionLine line x y z au out) :
    |(readOffset out).x - x| ≤ halfUnit au x ∧ |(readOffset out).y - y| ≤ halfUnit au y ∧ |(readOffset out).z - z| ≤ halfUnit au z := by
  have one : ∀ j v, (34 + j * 12, v) ∈ [(34, x), (46, y), (58, z)] → |readCoord out j - v| ≤ halfUnit au v := by
    intro j v hv
    obtain ⟨n, hn, near⟩ := h.coords _ v hv
    obtain ⟨h1, h2⟩ := field_read hn
    have hu : (if at? out 32 = 50 then auKm else 1) = offsetUnit au := by
      rw [show at? out 32 = _ from h.unit]
      unfold offsetUnit
      cases au <;> simp [au_eq]
    unfold readCoord
    rw [show 35 + j * 12 = 34 + j * 12 + 1 by omega, h1, h2]
    simp only
    rw [show ∀ w : ℚ, (if at? out 32 = 50 then w * auKm else w) = w * (if at? out 32 = 50 then auKm else 1) by intro w; split_ifs <;> ring, hu]
    unfold halfUnit
    refine le_trans (le_of_eq ?_) near
    by_cases hv0 : v ≤ 0
    · simp only [hv0, decide_true, if_true, abs_of_nonpos hv0]
      rw [← abs_neg]
      congr 1
      ring
    · simp only [hv0, decide_false, Bool.false_eq_true, if_false, abs_of_pos (not_le.1 hv0)]
      rw [if_neg (by norm_num)]
  exact ⟨one 0 x (by simp), one 1 y (by simp), one 2 z (by simp)⟩

/-- So a position that was written is read again to half a unit in the last place. -/
theorem C96_round_trip {line : List Nat} (hl : 80 < line.length) (p : Triple) (hx : |p.x| < farthest) (hy : |p.y| < farthest)
    (hz : |p.z| < farthest) : ∃ out, setOffsetLine line p = .ok out ∧
      |(readOffset out).x - p.x| ≤ halfUnit (inAu p) p.x ∧ |(readOffset out).y - p.y| ≤ halfUnit (inAu p) p.y ∧
      |(readOffset out).z - p.z| ≤ halfUnit (inAu p) p.z := by
  obtain ⟨out, ho, hp⟩ := C96_line hl p hx hy hz
  rw [← inAu_eq] at hp
  exact ⟨out, ho, C96_read hp⟩

/-- The error is never more than five metres for distances below ten million kilometres, nor more than 7.5 km beyond. -/
theorem C96_error (au : Bool) (v : ℚ) : halfUnit au v ≤ if au then 15 / 2 else 1 / 200 := by
  unfold halfUnit OffsetPlaces offsetUnit kmPerAu
  cases au <;> simp only [Bool.false_eq_true, if_false, if_true] <;> split_ifs <;> norm_num

/-- Finding: a coordinate of zero has a minus sign. -/
theorem C96_zero_sign {line : List Nat} (hl : 80 < line.length) : ∃ out, setOffsetLine line ⟨0, 0, 0⟩ = .ok out ∧ at? out 34 = 45 ∧ at? out 46 = 45 := by
  have pos : (0 : ℚ) < farthest := by unfold farthest kmPerAu; norm_num
  obtain ⟨out, ho, h⟩ := C96_line hl ⟨0, 0, 0⟩ (by simpa using pos) (by simpa using pos) (by simpa using pos)
  refine ⟨out, ho, ?_, ?_⟩
  · obtain ⟨n, hn, -⟩ := h.coords 34 0 (by simp)
    rw [(field_read hn).1]
    simp
  · obtain ⟨n, hn, -⟩ := h.coords 46 0 (by simp)
    rw [(field_read hn).1]
    simp

/-- The example of TESS in the comment: the hypotheses hold. -/
example : ∃ out, setOffsetLine (List.replicate 81 32) ⟨108342820 / 10000, 393453279 / 1000, -358248090 / 10000⟩ = .ok out ∧
    |(readOffset out).x - 108342820 / 10000| ≤ 1 / 20000 := by
  have f : ∀ v : ℚ, |v| ≤ 9999999 → |v| < farthest := fun v h => lt_of_le_of_lt h (by unfold farthest kmPerAu; norm_num)
  obtain ⟨out, ho, h, -, -⟩ := C96_round_trip (line := List.replicate 81 32) (by simp) ⟨108342820 / 10000, 393453279 / 1000, -358248090 / 10000⟩
    (f _ (by norm_num [abs_le])) (f _ (by norm_num [abs_le])) (f _ (by norm_num [abs_le]))
  refine ⟨out, ho, le_trans h ?_⟩
  rw [inAu_eq, decide_eq_false (by norm_num [abs_lt, lt_abs])]
  unfold halfUnit OffsetPlaces offsetUnit
  norm_num [abs_le]

end Verif.Props
