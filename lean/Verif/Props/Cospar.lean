import Mathlib.Tactic.Ring
import Mathlib.Tactic.Linarith
import Mathlib.Tactic.FieldSimp
import Mathlib.Tactic.Positivity
import Verif.Model.Cospar
import Verif.Spec.Orientation
import Verif.Lemmas.Scan
import Verif.Props.Eop

/-!
# C107: orientations of planets and satellites
-/

namespace Verif.Props

open Verif Verif.Spec Verif.Cospar
open Verif.GetTime (Run)
open Verif.Spec.Orientation (Kind Term MultipleText KindText NumberText signByte TermText TermsText ConstantText SumText AngleText total)

/-! ## Numbers -/

theorem byte_nat (s : List Nat) (i : Nat) : Cospar.byte s i = at? s i := rfl

theorem number_mantissa {t : List Nat} {x : ℝ} (h : NumberText t x) {r : List Nat} (hr : Scan.Stops r) :
    ∃ v p e, ∃ m : List Nat, Scan.mantissa (t ++ r) = some (v, p, m) ∧
      ((Scan.exponent m = none ∧ m = r ∧ e = 0) ∨ Scan.exponent m = some (e, r)) ∧ ∀ neg, Scan.real (K := ℝ) neg v p e = if neg then -x else x := by
  obtain ⟨h1, h2, h3, h4⟩ := hr
  cases h with
  | whole hd hne =>
    refine ⟨_, _, 0, _, Scan.mantissa_digits hd hne h1 h2, Or.inl ⟨Scan.exponent_none h3 h4, rfl, rfl⟩, fun neg => ?_⟩
    rw [Scan.real_zero]; simp
  | @decimal ds fs hd hf hne =>
    refine ⟨_, _, 0, _, Scan.mantissa_decimal hd hf hne h1, Or.inl ⟨Scan.exponent_none h3 h4, rfl, rfl⟩, fun neg => ?_⟩
    rw [Scan.real_zero]
    have : (((value ds * 10 ^ fs.length + value fs : Nat) : ℝ)) / 10 ^ fs.length = value ds + value fs / 10 ^ fs.length := by
      push_cast; field_simp
    rw [this]
  | @small ds fs es hd hf hne he hene =>
    have e1 : ds ++ 46 :: fs ++ 101 :: 45 :: es ++ r = ds ++ 46 :: fs ++ (101 :: 45 :: (es ++ r)) := by simp
    obtain ⟨c1, c2⟩ := Scan.digits_span he h1 0
    refine ⟨_, _, -(value es : Int), _, by rw [e1]; exact Scan.mantissa_decimal hd hf hne (by rfl), Or.inr ?_, fun neg => ?_⟩
    · unfold Scan.exponent
      have hl : es.length ≠ 0 := by simpa using hene
      simp [at?, Scan.sign, c1, c2, hene, readDigits_eq _ he]
    · have : (((value ds * 10 ^ fs.length + value fs : Nat) : ℝ)) / 10 ^ fs.length = value ds + value fs / 10 ^ fs.length := by
        push_cast; field_simp
      unfold Scan.real
      simp only [this]
      have e2 : ((value ds : ℝ) + value fs / 10 ^ fs.length) * 10 ^ (-(value es : Int)) = (value ds + value fs / 10 ^ fs.length) / 10 ^ value es := by
        rw [zpow_neg, zpow_natCast]; rfl
      rw [e2]

theorem number_first {t : List Nat} {x : ℝ} (h : NumberText t x) : ∃ c s, t = c :: s ∧ (c = 46 ∨ (48 ≤ c ∧ c ≤ 57)) := by
  cases h with
  | whole hd hne =>
    cases t with
    | nil => exact absurd rfl hne
    | cons c s => exact ⟨c, s, rfl, Or.inr (hd c (by simp))⟩
  | @decimal ds fs hd hf hne =>
    cases ds with
    | nil => exact ⟨46, fs, rfl, Or.inl rfl⟩
    | cons c s => exact ⟨c, _, rfl, Or.inr (hd c (by simp))⟩
  | @small ds fs es hd hf hne he hene =>
    cases ds with
    | nil => exact ⟨46, _, rfl, Or.inl rfl⟩
    | cons c s => exact ⟨c, _, rfl, Or.inr (hd c (by simp))⟩

theorem number_read {t : List Nat} {x : ℝ} (h : NumberText t x) {r : List Nat} (hr : Scan.Stops r) :
    Scan.strtold (K := ℝ) (t ++ r) = (x, r) := by
  obtain ⟨c, s, rfl, hc⟩ := number_first h
  obtain ⟨v, p, e, m, e1, e2, e3⟩ := number_mantissa h hr
  have hsp : Scan.skipSpace (c :: s ++ r) = c :: s ++ r := Scan.skipSpace_of (by simp [at?, isSpace]; omega)
  have hsg : Scan.sign (c :: s ++ r) = (false, c :: s ++ r) := Scan.sign_of (by simp [at?]; omega) (by simp [at?]; omega)
  unfold Scan.strtold
  rw [hsp, hsg]
  simp only [e1]
  have := e3 false
  rcases e2 with ⟨e2, rfl, rfl⟩ | e2
  · simp only [e2, this]; rfl
  · simp only [e2, this]; rfl

theorem number_signed {t : List Nat} {x : ℝ} (h : NumberText t x) {r : List Nat} (hr : Scan.Stops r) (b : Bool) :
    Scan.strtold (K := ℝ) (signByte b :: (t ++ r)) = (if b then -x else x, r) := by
  obtain ⟨v, p, e, m, e1, e2, e3⟩ := number_mantissa h hr
  have hsp : Scan.skipSpace (signByte b :: (t ++ r)) = signByte b :: (t ++ r) := Scan.skipSpace_of (by cases b <;> simp [at?, isSpace, signByte])
  have hsg : Scan.sign (signByte b :: (t ++ r)) = (b, t ++ r) := by cases b <;> simp [signByte, Scan.sign]
  unfold Scan.strtold
  rw [hsp, hsg]
  simp only [e1]
  rcases e2 with ⟨e2, rfl, rfl⟩ | e2
  · simp only [e2, e3 b]
  · simp only [e2, e3 b]

/-- What may follow a sum: nothing or a sign. -/
def Onward (s : List Nat) : Prop := s = [] ∨ ∃ b s', s = signByte b :: s'

theorem onward_stops {s : List Nat} (h : Onward s) : Scan.Stops s := by
  rcases h with rfl | ⟨b, s', rfl⟩
  · simp [Scan.Stops, at?, isDigit]
  · cases b <;> simp [Scan.Stops, at?, isDigit, signByte]

theorem terms_onward {p : Nat} {ts : List Term} {u : List Nat} (h : TermsText p ts u) : Onward u := by
  cases h with
  | nil => exact Or.inl rfl
  | cons h hs => cases h with | mk ht hk => exact Or.inr ⟨_, _, rfl⟩

theorem constant_read {c : ℝ} {t r : List Nat} (h : ConstantText c t) (hr : Onward r) : Scan.strtold (K := ℝ) (t ++ r) = (c, r) := by
  cases h with
  | plus h _ => exact number_read h (onward_stops hr)
  | @minus x t h _ => exact number_signed h (onward_stops hr) true

theorem after_equals : ∀ (name : List Nat) (s : List Nat), 61 ∉ name → afterEquals (name ++ 61 :: s) = some s
  | [], s, _ => by simp [afterEquals]
  | c :: name, s, h => by
    have hc : c ≠ 61 := fun e => h (by simp [e])
    simp only [List.cons_append, afterEquals, if_neg hc]
    exact after_equals name s (fun e => h (by simp [e]))

/-- An angle of the planet. -/
theorem C107_angle (q : Ask) {a : ℝ} {l : List Nat} (h : AngleText q.d a l) : angleOf q l = .ok a := by
  cases h with
  | @days c x b name t u more hn hc hx =>
    unfold angleOf
    rw [after_equals _ _ hn]
    simp only [constant_read hc (Or.inr ⟨_, _, rfl⟩), number_signed hx (r := 100 :: more) (by simp [Scan.Stops, at?, isDigit]), Cospar.byte]
    simp
  | @centuries c x b name t u more hn hc hx =>
    unfold angleOf
    rw [after_equals _ _ hn]
    simp only [constant_read hc (Or.inr ⟨_, _, rfl⟩), number_signed hx (r := 84 :: more) (by simp [Scan.Stops, at?, isDigit]), Cospar.byte]
    simp [Ask.t]

/-! ## Sums -/

/-- The lines give the angles that the terms need, and none of them is zero. -/
def Angled (d : ℝ) (lines : List (List Nat)) (angular : Nat) (angle : Nat → ℝ) (ts : List Term) : Prop :=
  ∀ t ∈ ts, ∀ n, t.Needs n → angular ≠ 0 ∧ angle n ≠ 0 ∧ ∃ l, lines[angular + n]? = some l ∧ AngleText d (angle n) l

theorem kind_first {p : Nat} {k : Kind} {u : List Nat} (h : KindText p k u) : ∃ c s, u = c :: s ∧ (c = 100 ∨ c = 84 ∨ c = 115 ∨ c = 99) := by
  cases h <;> simp

theorem kind_plain {p : Nat} (hp : 65 ≤ p) {k : Kind} {u : List Nat} (h : KindText p k u) : ∀ c ∈ u, c ≠ 43 ∧ c ≠ 45 := by
  have hdig : ∀ ds : List Nat, AllDigits ds → ∀ c ∈ ds, c ≠ 43 ∧ c ≠ 45 := fun ds h c hc => by have := h c hc; omega
  have hmul : ∀ m ms, MultipleText m ms → ∀ c ∈ ms, c ≠ 43 ∧ c ≠ 45 := by
    rintro m ms (_ | ⟨_, _, _⟩) <;> simp
    omega
  intro c hc
  cases h with
  | days => simp at hc; omega
  | days2 => simp at hc; omega
  | centuries => simp at hc; omega
  | centuries2 => simp at hc; omega
  | @sine m ms ds hm hd hne =>
    simp only [List.mem_append, List.mem_cons, List.not_mem_nil, or_false] at hc
    rcases hc with (h | h) | h | h
    · omega
    · exact hmul _ _ hm c h
    · omega
    · exact hdig _ hd c h
  | @cosine m ms ds hm hd hne =>
    simp only [List.mem_append, List.mem_cons, List.not_mem_nil, or_false] at hc
    rcases hc with (h | h) | h | h
    · omega
    · exact hmul _ _ hm c h
    · omega
    · exact hdig _ hd c h

theorem terms_skip (q : Ask) (lines : List (List Nat)) (p k : Nat) (o : Bool) (r : List Nat) (g : Value) :
    ∀ u : List Nat, (∀ c ∈ u, c ≠ 43 ∧ c ≠ 45) → terms q lines p k o (u ++ r) g = terms q lines p k o r g
  | [], _ => rfl
  | c :: u, h => by
    rw [List.cons_append, terms, if_pos (h c (by simp))]
    exact terms_skip q lines p k o r g u (fun d hd => h d (by simp [hd]))

theorem onward_first {r : List Nat} (h : Onward r) : at? r 0 ≠ 50 ∧ isDigit (at? r 0) = false := by
  rcases h with rfl | ⟨b, s', rfl⟩
  · simp [at?, isDigit]
  · cases b <;> simp [at?, isDigit, signByte]

theorem periodic_read (q : Ask) (lines : List (List Nat)) {p k : Nat} (hp : 65 ≤ p) (c : ℝ) (g : Value) {m : Nat} {ms ds r : List Nat} {a b₀ : Nat} {w : Nat}
    (hm : MultipleText m ms) (hd : AllDigits ds) (hne : ds ≠ []) (hr : Onward r) (hk : k ≠ 0) {x : ℝ} (hx : x ≠ 0)
    {l : List Nat} (hl : lines[k + value ds]? = some l) (ha : AngleText q.d x l) (hw : w = 115 ∨ w = 99) :
    periodic q lines p k c ([w, a, b₀] ++ ms ++ p :: ds ++ r) g =
      .ok { g with value := g.value + c * (if w = 115 then Real.sin (m * x * (Real.pi / 180)) else Real.cos (m * x * (Real.pi / 180))) } := by
  have hlen : 1 ≤ ds.length := by cases ds with | nil => exact absurd rfl hne | cons => simp
  have hat := atoi_field hd hne (onward_first hr).2
  have hidx : ¬ ((k : Int) + (value ds : Int) < 0) := by omega
  have hnat : ((k : Int) + (value ds : Int)).toNat = k + value ds := by omega
  have hpi := Real.pi_pos
  cases hm with
  | one =>
    unfold periodic
    have e3 : Cospar.byte ([w, a, b₀] ++ [] ++ p :: ds ++ r) 3 = p := by simp [Cospar.byte]
    have e0 : Cospar.byte ([w, a, b₀] ++ [] ++ p :: ds ++ r) 0 = w := by simp [Cospar.byte]
    have ed : ([w, a, b₀] ++ [] ++ p :: ds ++ r).drop 4 = ds ++ r := by simp
    have el : ¬ ([w, a, b₀] ++ [] ++ p :: ds ++ r).length < 4 := by simp
    rw [if_neg el, e3, e0, ed]
    simp only [ne_eq, not_true_eq_false, false_and, if_false, if_true, hat, if_neg hk, if_neg hidx, hnat, hl, C107_angle q ha, Run.bind]
    have hz : x * (((1 : Int) : ℝ) * Real.pi / 180) ≠ 0 := by
      push_cast
      exact mul_ne_zero hx (by positivity)
    have e1 : x * (((1 : Int) : ℝ) * Real.pi / 180) = ((1 : Nat) : ℝ) * x * (Real.pi / 180) := by push_cast; ring
    rw [if_neg (by decide), if_neg hz, e1]
    rcases hw with rfl | rfl <;> simp
  | digit _ h h' =>
    unfold periodic
    have e3 : Cospar.byte ([w, a, b₀] ++ [48 + m] ++ p :: ds ++ r) 3 = 48 + m := by simp [Cospar.byte]
    have e4 : Cospar.byte ([w, a, b₀] ++ [48 + m] ++ p :: ds ++ r) 4 = p := by simp [Cospar.byte]
    have e0 : Cospar.byte ([w, a, b₀] ++ [48 + m] ++ p :: ds ++ r) 0 = w := by simp [Cospar.byte]
    have ed : ([w, a, b₀] ++ [48 + m] ++ p :: ds ++ r).drop 5 = ds ++ r := by simp
    have ed3 : ([w, a, b₀] ++ [48 + m] ++ p :: ds ++ r).drop 3 = [48 + m] ++ (p :: ds ++ r) := by simp
    have el : ¬ ([w, a, b₀] ++ [48 + m] ++ p :: ds ++ r).length < 4 := by simp
    have el5 : ¬ ([w, a, b₀] ++ [48 + m] ++ p :: ds ++ r).length < 5 := by simp
    have hmm : atoi ([48 + m] ++ (p :: ds ++ r)) = (m : Int) := by
      rw [atoi_field (ds := [48 + m]) (by intro c hc; simp at hc; omega) (by simp) (by simp [at?, isDigit]; omega)]
      simp [value]
    have hne3 : ¬ (48 + m = p) := by omega
    rw [if_neg el, e3, e0, ed, e4, ed3]
    simp only [ne_eq, not_true_eq_false, and_false, el5, if_false, if_neg hne3, hat, hmm, if_neg hk, if_neg hidx, hnat, hl, C107_angle q ha, Run.bind]
    have hz : x * (((m : Int) : ℝ) * Real.pi / 180) ≠ 0 := by
      have : (0 : ℝ) < ((m : Int) : ℝ) := by
        have : (0 : Int) < (m : Int) := by omega
        exact_mod_cast this
      exact mul_ne_zero hx (by positivity)
    have e1 : x * (((m : Int) : ℝ) * Real.pi / 180) = (m : ℝ) * x * (Real.pi / 180) := by push_cast; ring
    rw [if_neg (by omega), if_neg hz, e1]
    rcases hw with rfl | rfl <;> simp

/-- Some term says that the angle goes down. -/
noncomputable def goesDown (ts : List Term) : Bool := by classical exact decide (∃ t ∈ ts, t.Falls)

theorem goesDown_cons (t : Term) (ts : List Term) : goesDown (t :: ts) = (goesDown [t] || goesDown ts) := by
  classical
  unfold goesDown
  simp [List.mem_cons, Bool.decide_or]

theorem goesDown_nil : goesDown [] = false := by
  classical
  unfold goesDown
  simp

theorem term_value (q : Ask) (lines : List (List Nat)) {p k : Nat} (hp : 65 ≤ p) (o : Bool) (hq : (o && !q.pole) = false) (g : Value)
    {b : Bool} {x : ℝ} {kd : Kind} {u r : List Nat} {angle : Nat → ℝ} (hu : KindText p kd u) (hr : Onward r)
    (ha : Angled q.d lines k angle [⟨b, x, kd⟩]) :
    term q lines p k o (if b then -x else x) (u ++ r) g =
      .ok (.inl { g with value := g.value + (⟨b, x, kd⟩ : Term).value q.d angle, retro := g.retro || (o && goesDown [⟨b, x, kd⟩]) }) := by
  classical
  have hf := onward_first hr
  unfold term
  cases hu with
  | days =>
    have e1 : Cospar.byte ([100] ++ r) 1 ≠ 50 := by simpa [Cospar.byte, at?] using hf.1
    have e2 : Cospar.byte (100 :: r) 1 ≠ 50 := e1
    rw [if_pos (show Cospar.byte ([100] ++ r) 0 = 100 from rfl), if_neg (by rw [hq]; simp)]
    simp only [if_neg e1]
    have : goesDown [(⟨b, x, .days⟩ : Term)] = decide ((if b then -x else x) < 0) := by
      simp [goesDown, Term.Falls, Term.coefficient]
    rw [this]
    simp [Term.value, Term.coefficient, e2, Bool.and_comm]
  | days2 =>
    rw [if_pos (show Cospar.byte ([100, 50] ++ r) 0 = 100 from rfl), if_neg (by rw [hq]; simp)]
    have e1 : Cospar.byte (100 :: 50 :: r) 1 = 50 := rfl
    have : goesDown [(⟨b, x, .days2⟩ : Term)] = false := by simp [goesDown, Term.Falls]
    rw [this]
    simp [Term.value, Term.coefficient, e1]
    ring_nf
  | centuries =>
    have e1 : Cospar.byte ([84] ++ r) 1 ≠ 50 := by simpa [Cospar.byte, at?] using hf.1
    have e2 : Cospar.byte (84 :: r) 1 ≠ 50 := e1
    rw [if_neg (by simp [Cospar.byte]), if_pos (show Cospar.byte ([84] ++ r) 0 = 84 from rfl)]
    simp only [if_neg e1]
    have : goesDown [(⟨b, x, .centuries⟩ : Term)] = decide ((if b then -x else x) < 0) := by
      simp [goesDown, Term.Falls, Term.coefficient]
    rw [this]
    simp [Term.value, Term.coefficient, e2, Bool.and_comm, Ask.t]
  | centuries2 =>
    rw [if_neg (by simp [Cospar.byte]), if_pos (show Cospar.byte ([84, 50] ++ r) 0 = 84 from rfl)]
    have e1 : Cospar.byte (84 :: 50 :: r) 1 = 50 := rfl
    have : goesDown [(⟨b, x, .centuries2⟩ : Term)] = false := by simp [goesDown, Term.Falls]
    rw [this]
    simp [Term.value, Term.coefficient, e1, Ask.t]
    ring_nf
  | @sine m ms ds hm hd hne =>
    obtain ⟨h1, h2, l, h3, h4⟩ := ha _ (List.mem_singleton.2 rfl) (value ds) ⟨m, Or.inl rfl⟩
    have hfl : goesDown [(⟨b, x, .sine m (value ds)⟩ : Term)] = false := by simp [goesDown, Term.Falls]
    rw [if_neg (by simp [Cospar.byte]), if_neg (by simp [Cospar.byte])]
    rw [periodic_read q lines hp _ g hm hd hne hr h1 h2 h3 h4 (Or.inl rfl), hfl]
    simp [Run.bind, Term.value, Term.coefficient]
  | @cosine m ms ds hm hd hne =>
    obtain ⟨h1, h2, l, h3, h4⟩ := ha _ (List.mem_singleton.2 rfl) (value ds) ⟨m, Or.inr rfl⟩
    have hfl : goesDown [(⟨b, x, .cosine m (value ds)⟩ : Term)] = false := by simp [goesDown, Term.Falls]
    rw [if_neg (by simp [Cospar.byte]), if_neg (by simp [Cospar.byte])]
    rw [periodic_read q lines hp _ g hm hd hne hr h1 h2 h3 h4 (Or.inr rfl), hfl]
    simp [Run.bind, Term.value, Term.coefficient]

theorem kind_stops {p : Nat} {k : Kind} {u r : List Nat} (h : KindText p k u) : Scan.Stops (u ++ r) := by
  obtain ⟨c, s, rfl, hc⟩ := kind_first h
  simp only [Scan.Stops, at?, isDigit, List.cons_append, List.getD_cons_zero]
  simp; omega

theorem terms_read (q : Ask) (lines : List (List Nat)) {p k : Nat} (hp : 65 ≤ p) (o : Bool) (hq : (o && !q.pole) = false) {angle : Nat → ℝ} :
    ∀ {ts : List Term} {u : List Nat}, TermsText p ts u → Angled q.d lines k angle ts → ∀ g : Value,
      terms q lines p k o u g =
        .ok (.inl { g with value := g.value + (ts.map (Term.value q.d angle)).sum, retro := g.retro || (o && goesDown ts) }) := by
  intro ts u h
  induction h with
  | nil => intro _ g; rw [terms]; simp [goesDown_nil]
  | @cons t ts u us h hs ih =>
    intro ha g
    cases h with
    | @mk b x kd t u ht hk =>
      have hon := terms_onward hs
      have e : signByte b :: (t ++ u) ++ us = signByte b :: (t ++ (u ++ us)) := by simp
      rw [e, terms, if_neg (by cases b <;> simp [signByte])]
      have e2 := number_signed ht (kind_stops (r := us) hk) b
      simp only [e2]
      rw [term_value q lines hp o hq g hk hon (fun t' ht' => ha t' (by simp at ht'; simp [ht']))]
      simp only [Run.bind]
      rw [dif_pos (by simp), terms_skip _ _ _ _ _ _ _ _ (kind_plain hp hk), ih (fun t' ht' => ha t' (by simp [ht']))]
      rw [goesDown_cons ⟨b, x, kd⟩ ts]
      simp [add_assoc, Bool.or_assoc, Bool.and_or_distrib_left]

theorem constant_plain {c : ℝ} {t : List Nat} (r : List Nat) (h : ConstantText c t) :
    ∃ t', (∀ d ∈ t', d ≠ 43 ∧ d ≠ 45) ∧ (if Cospar.byte (t ++ r) 0 = 45 then (t ++ r).drop 1 else t ++ r) = t' ++ r := by
  have h43 : ∀ {t : List Nat} {x : ℝ}, NumberText t x → (∀ c ∈ t, c ≠ 45) → ∀ d ∈ t, d ≠ 43 ∧ d ≠ 45 := by
    intro t x h h' d hd
    refine ⟨?_, h' d hd⟩
    cases h with
    | whole h1 _ => have := h1 d hd; omega
    | decimal h1 h2 _ =>
      simp only [List.mem_append, List.mem_cons] at hd
      rcases hd with h | h | h
      · have := h1 d h; omega
      · omega
      · have := h2 d h; omega
    | small h1 h2 _ h3 _ => exact absurd rfl (h' 45 (by simp))
  cases h with
  | plus h h' =>
    obtain ⟨a, s, rfl, ha⟩ := number_first h
    refine ⟨a :: s, h43 h h', if_neg (by simp [Cospar.byte]; omega)⟩
  | @minus x t h h' => exact ⟨t, h43 h h', by simp [Cospar.byte]⟩

/-- A line with a sum gives its value, and whether the rotation is backwards. -/
theorem C107_sum (q : Ask) (lines : List (List Nat)) {p k : Nat} (hp : 65 ≤ p) (o retro : Bool) (hq : (o && !q.pole) = false) {angle : Nat → ℝ}
    {c : ℝ} {ts : List Term} {l : List Nat} (h : SumText p c ts l) (ha : Angled q.d lines k angle ts) :
    expression q lines p k o retro l = .ok (.inl ⟨total q.d angle c ts, retro || (o && goesDown ts), 0⟩) := by
  cases h with
  | @mk name t u hn hc ht =>
    unfold expression
    rw [after_equals _ _ hn]
    obtain ⟨t', h1, h2⟩ := constant_plain u hc
    simp only [h2, constant_read hc (terms_onward ht)]
    rw [terms_skip _ _ _ _ _ _ _ _ h1, terms_read q lines hp o hq ht ha]
    rfl

end Verif.Props
