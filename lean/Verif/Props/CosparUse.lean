import Mathlib.Data.Matrix.Reflection
import Mathlib.LinearAlgebra.Matrix.Determinant.Basic
import Verif.Props.CosparFind
import Verif.Props.Rotation

/-!
# C107: orientation, rate of rotation, radii
-/

namespace Verif.Props

open Verif Verif.Spec Verif.Cospar
open Verif.GetTime (Run)
open Verif.Spec.Orientation (Kind Term NumberText signByte TermText TermsText ConstantText SumText AngleText total KindText)
open scoped Matrix

/-! ## The matrix -/

/-- In degrees. -/
noncomputable def deg (x : ℝ) : ℝ := x * (Real.pi / 180)

/-- The north pole, the ascending node of its equator (90 degrees east of the pole), and what is 90 degrees after it. -/
noncomputable def poleAt (ra dec : ℝ) : Fin 3 → ℝ := ![Real.cos (deg ra) * Real.cos (deg dec), Real.sin (deg ra) * Real.cos (deg dec), Real.sin (deg dec)]
noncomputable def nodeAt (ra : ℝ) : Fin 3 → ℝ := ![-Real.sin (deg ra), Real.cos (deg ra), 0]
noncomputable def afterNode (ra dec : ℝ) : Fin 3 → ℝ := ![-(Real.cos (deg ra) * Real.sin (deg dec)), -(Real.sin (deg ra) * Real.sin (deg dec)), Real.cos (deg dec)]

/-- The direction on the equator at an angle from the node. -/
noncomputable def onEquator (ra dec w : ℝ) : Fin 3 → ℝ := fun i => Real.cos (deg w) * nodeAt ra i + Real.sin (deg w) * afterNode ra dec i

theorem orient_rows (ra dec w : ℝ) (b : Bool) (i : Fin 3) :
    orient ra dec w b i = onEquator ra dec w i ∧
    orient ra dec w b (3 + i) = (if b then 1 else -1) * (-Real.sin (deg w) * nodeAt ra i + Real.cos (deg w) * afterNode ra dec i) ∧
    orient ra dec w b (6 + i) = poleAt ra dec i := by
  have ew : w * Real.pi / 180 + Real.pi = deg w + Real.pi := by unfold deg; ring
  have c1 : Real.cos (deg ra - Real.pi / 2) = Real.sin (deg ra) := Real.cos_sub_pi_div_two _
  have c2 : Real.sin (deg ra - Real.pi / 2) = -Real.cos (deg ra) := Real.sin_sub_pi_div_two _
  have c3 : Real.cos (deg ra - Real.pi) = -Real.cos (deg ra) := Real.cos_sub_pi _
  have c4 : Real.sin (deg ra - Real.pi) = -Real.sin (deg ra) := Real.sin_sub_pi _
  have c5 : Real.cos (Real.pi / 2 - deg dec) = Real.sin (deg dec) := Real.cos_pi_div_two_sub _
  have c6 : Real.sin (Real.pi / 2 - deg dec) = Real.cos (deg dec) := Real.sin_pi_div_two_sub _
  unfold orient
  simp only [ew, show ra * (Real.pi / 180) = deg ra from rfl, show dec * (Real.pi / 180) = deg dec from rfl, Real.cos_add_pi, Real.sin_add_pi]
  fin_cases i <;> cases b <;>
    simp [Rot.spinMatrix, Rot.spinLoop, Rot.store, polar3, c1, c2, c3, c4, c5, c6, onEquator, nodeAt, afterNode, poleAt] <;> ring_nf <;> simp

/-- The rows of the matrix: the prime meridian on the equator at the angle of the sum from the node; 90 degrees before it if the planet goes
    forwards, after it if backwards; the pole. -/
theorem C107_rows (ra dec w : ℝ) (b : Bool) (i : Fin 3) :
    orient ra dec w b i = onEquator ra dec w i ∧
    orient ra dec w b (3 + i) = onEquator ra dec (if b then w + 90 else w - 90) i ∧
    orient ra dec w b (6 + i) = poleAt ra dec i := by
  obtain ⟨h1, h2, h3⟩ := orient_rows ra dec w b i
  refine ⟨h1, h2.trans ?_, h3⟩
  have e1 : deg (w + 90) = deg w + Real.pi / 2 := by unfold deg; ring
  have e2 : deg (w - 90) = deg w - Real.pi / 2 := by unfold deg; ring
  cases b
  · simp only [onEquator, e2, Bool.false_eq_true, if_false, Real.cos_sub_pi_div_two, Real.sin_sub_pi_div_two]; ring
  · simp only [onEquator, e1, if_true, Real.cos_add_pi_div_two, Real.sin_add_pi_div_two]; ring

theorem orient_matrix (ra dec w : ℝ) (b : Bool) :
    toMat (orient ra dec w b) = Matrix.of ![onEquator ra dec w, fun i => (if b then 1 else -1) * (-Real.sin (deg w) * nodeAt ra i + Real.cos (deg w) * afterNode ra dec i), poleAt ra dec] := by
  ext i j
  obtain ⟨h1, h2, h3⟩ := orient_rows ra dec w b j
  fin_cases i
  · simpa [toMat] using h1
  · simpa [toMat] using h2
  · simpa [toMat] using h3

theorem frame_orthonormal (n a p : Fin 3 → ℝ) (c s e : ℝ) (nn : n 0 ^ 2 + n 1 ^ 2 + n 2 ^ 2 = 1) (aa : a 0 ^ 2 + a 1 ^ 2 + a 2 ^ 2 = 1)
    (pp : p 0 ^ 2 + p 1 ^ 2 + p 2 ^ 2 = 1) (na : n 0 * a 0 + n 1 * a 1 + n 2 * a 2 = 0) (np : n 0 * p 0 + n 1 * p 1 + n 2 * p 2 = 0)
    (ap : a 0 * p 0 + a 1 * p 1 + a 2 * p 2 = 0) (he : e ^ 2 = 1) (h : s ^ 2 + c ^ 2 = 1) :
    Orthonormal (Matrix.of ![fun i => c * n i + s * a i, fun i => e * (-s * n i + c * a i), p]) := by
  unfold Orthonormal
  ext i j
  fin_cases i <;> fin_cases j <;> simp [Matrix.mul_apply, Fin.sum_univ_three]
  · linear_combination c ^ 2 * nn + 2 * c * s * na + s ^ 2 * aa + h
  · linear_combination -e * c * s * nn + e * (c ^ 2 - s ^ 2) * na + e * c * s * aa
  · linear_combination c * np + s * ap
  · linear_combination -e * c * s * nn + e * (c ^ 2 - s ^ 2) * na + e * c * s * aa
  · linear_combination e ^ 2 * (s ^ 2 * nn - 2 * c * s * na + c ^ 2 * aa) + e ^ 2 * h + he
  · linear_combination -e * s * np + e * c * ap
  · linear_combination c * np + s * ap
  · linear_combination -e * s * np + e * c * ap
  · linear_combination pp

/-- The rows are of length 1 and at right angles. -/
theorem C107_orthonormal (ra dec w : ℝ) (b : Bool) : Orthonormal (toMat (orient ra dec w b)) := by
  have ha := Real.sin_sq_add_cos_sq (deg ra)
  have hd := Real.sin_sq_add_cos_sq (deg dec)
  rw [orient_matrix]
  refine frame_orthonormal _ _ _ _ _ _ ?_ ?_ ?_ ?_ ?_ ?_ (by cases b <;> simp) (Real.sin_sq_add_cos_sq (deg w)) <;> simp [nodeAt, afterNode, poleAt]
  · linear_combination Real.sin (deg dec) ^ 2 * ha + hd
  · linear_combination Real.cos (deg dec) ^ 2 * ha + hd
  · ring
  · ring
  · linear_combination -(Real.sin (deg dec) * Real.cos (deg dec)) * ha

/-- The rows are right-handed if and only if the planet goes backwards. -/
theorem C107_handed (ra dec w : ℝ) (b : Bool) : (toMat (orient ra dec w b)).det = if b then 1 else -1 := by
  have ha := Real.sin_sq_add_cos_sq (deg ra)
  have hd := Real.sin_sq_add_cos_sq (deg dec)
  have hw := Real.sin_sq_add_cos_sq (deg w)
  have key : ∀ (n a p : Fin 3 → ℝ) (c s e : ℝ), s ^ 2 + c ^ 2 = 1 →
      (Matrix.of ![fun i => c * n i + s * a i, fun i => e * (-s * n i + c * a i), p]).det =
        e * (n 0 * (a 1 * p 2 - a 2 * p 1) - n 1 * (a 0 * p 2 - a 2 * p 0) + n 2 * (a 0 * p 1 - a 1 * p 0)) := by
    intro n a p c s e h
    rw [Matrix.det_fin_three]
    simp
    linear_combination e * (n 0 * (a 1 * p 2 - a 2 * p 1) - n 1 * (a 0 * p 2 - a 2 * p 0) + n 2 * (a 0 * p 1 - a 1 * p 0)) * h
  rw [orient_matrix]
  unfold onEquator
  rw [key _ _ _ _ _ _ hw]
  have e1 : nodeAt ra 0 * (afterNode ra dec 1 * poleAt ra dec 2 - afterNode ra dec 2 * poleAt ra dec 1) -
      nodeAt ra 1 * (afterNode ra dec 0 * poleAt ra dec 2 - afterNode ra dec 2 * poleAt ra dec 0) +
      nodeAt ra 2 * (afterNode ra dec 0 * poleAt ra dec 1 - afterNode ra dec 1 * poleAt ra dec 0) = 1 := by
    simp [nodeAt, afterNode, poleAt]
    linear_combination (Real.sin (deg dec) ^ 2 + Real.cos (deg dec) ^ 2) * ha + hd
  rw [e1, mul_one]

/-! ## What others call -/

/-- The orientation of an object of the file. -/
theorem C107_orientation (tdt : ℝ → ℝ) (earth : ℝ → Nat → ℝ) (file : Text) (m : Memory) {n₀ n system : Int} {jd : ℝ} (h3 : n₀ ≠ 3) (h0 : n₀ ≠ noObject)
    (hm : ¬ (n₀ = m.planet ∧ system = m.system ∧ jd = m.jd)) {p : Nat} {first : Option Nat} {lines body after : List (List Nat)} {al dl wl : List Nat}
    (h : ObjectAt n₀ n p first lines body after) (hf : OthersAfter after) (hb : ObjectLines ⟨true, true, false, system, tdt jd - 2451545⟩ p body al dl wl)
    {angle : Nat → ℝ} {ca cd cw : ℝ} {ta td tw : List Term} (ha : SumText p ca ta al) (hd : SumText p cd td dl) (hw : SumText p cw tw wl)
    (aa : AngledAt (tdt jd - 2451545) lines first angle ta) (ad : AngledAt (tdt jd - 2451545) lines first angle td)
    (aw : AngledAt (tdt jd - 2451545) lines first angle tw) :
    ∃ x, x = orient (total (tdt jd - 2451545) angle ca ta) (total (tdt jd - 2451545) angle cd td) (total (tdt jd - 2451545) angle cw tw) (goesDown tw) ∧
      planetOrientation tdt earth file (some lines) m n₀ system jd = .ok (0, x, ⟨n₀, system, jd, 0, x⟩, some lines) := by
  refine ⟨_, rfl, ?_⟩
  unfold planetOrientation getData
  rw [if_neg hm, if_neg h3]
  simp only [if_neg h0]
  rw [C107_found rfl rfl rfl h hf hb ha hd hw aa ad aw]
  rfl

/-- Asked again for the same, it gives the same without reading. -/
theorem C107_again (tdt : ℝ → ℝ) (earth : ℝ → Nat → ℝ) (file text text' file' : Text) (m : Memory) {n system : Int} {jd : ℝ} {c : Int} {x : Nat → ℝ} {m' : Memory} {t : Text}
    (h : planetOrientation tdt earth file text m n system jd = .ok (c, x, m', t)) :
    planetOrientation tdt earth file' text' m' n system jd = .ok (c, x, m', text') := by
  have key : m'.planet = n ∧ m'.system = system ∧ m'.jd = jd ∧ m'.code = c ∧ m'.matrix = x := by
    unfold planetOrientation at h
    by_cases h1 : n = m.planet ∧ system = m.system ∧ jd = m.jd
    · rw [if_pos h1] at h
      obtain ⟨rfl, rfl, rfl⟩ := h1
      cases h
      exact ⟨rfl, rfl, rfl, rfl, rfl⟩
    · rw [if_neg h1] at h
      by_cases h2 : n = 3
      · rw [if_pos h2] at h
        cases h
        exact ⟨rfl, rfl, rfl, rfl, rfl⟩
      · rw [if_neg h2] at h
        cases hg : getData file text n { pole := true, omega := true, radii := false, system := system, d := tdt jd - 2451545 } with
        | ok a =>
          simp only [hg, Run.bind] at h
          split at h
          · cases h
            exact ⟨rfl, rfl, rfl, rfl, rfl⟩
          · exact absurd h (by simp)
        | abort => simp only [hg, Run.bind] at h; exact absurd h (by simp)
        | ub => simp only [hg, Run.bind] at h; exact absurd h (by simp)
        | hang => simp only [hg, Run.bind] at h; exact absurd h (by simp)
  obtain ⟨rfl, rfl, rfl, rfl, rfl⟩ := key
  unfold planetOrientation
  rw [if_pos ⟨rfl, rfl, rfl⟩]

/-- Without the file the matrix is made of numbers that were never set. -/
theorem C107_no_file (tdt : ℝ → ℝ) (earth : ℝ → Nat → ℝ) (m : Memory) {n system : Int} {jd : ℝ} (h3 : n ≠ 3)
    (hm : ¬ (n = m.planet ∧ system = m.system ∧ jd = m.jd)) : planetOrientation tdt earth none none m n system jd = .ub := by
  unfold planetOrientation getData
  rw [if_neg hm, if_neg h3]
  by_cases h : n = noObject
  · simp [h, Run.bind]
  · simp [h, Run.bind]

/-- The first question about radii loads the file and says that all is well, but sets nothing. -/
theorem C107_first_radii (f : List (List Nat)) {n : Int} (h : n ≠ noObject) :
    planetRadii (some f) none n = .ok (⟨0, none, none, none, none, none⟩, some (load f)) := by
  unfold planetRadii getData
  simp [h]

/-! ## Radii -/

theorem number_scan {t : List Nat} {x : ℝ} (h : NumberText t x) {r : List Nat} (hr : Scan.Stops r) : Scan.scanReal (K := ℝ) (t ++ r) = some (x, r) := by
  obtain ⟨c, s, rfl, hc⟩ := number_first h
  obtain ⟨v, p, e, m, e1, e2, e3⟩ := number_mantissa h hr
  have hsp : Scan.skipSpace (c :: s ++ r) = c :: s ++ r := Scan.skipSpace_of (by simp [at?, isSpace]; omega)
  have hsg : Scan.sign (c :: s ++ r) = (false, c :: s ++ r) := Scan.sign_of (by simp [at?]; omega) (by simp [at?]; omega)
  unfold Scan.scanReal
  rw [hsp, hsg]
  simp only [e1]
  have := e3 false
  rcases e2 with ⟨e2, rfl, rfl⟩ | e2
  · simp only [e2, this, if_neg (show ¬ (at? m 0 = 101 ∨ at? m 0 = 69) from fun h => h.elim hr.2.2.1 hr.2.2.2)]; rfl
  · simp only [e2, this]; rfl

/-- One, two or three radii. -/
inductive RadiiText : ℝ × ℝ × ℝ → List Nat → Prop
  | one {x : ℝ} {t : List Nat} (h : NumberText t x) : RadiiText (x, 0, 0) ([114, 61] ++ t)
  | two {x y : ℝ} {t u : List Nat} (h : NumberText t x) (h' : NumberText u y) : RadiiText (x, y, 0) ([114, 61] ++ (t ++ 44 :: u))
  | three {x y z : ℝ} {t u v : List Nat} (h : NumberText t x) (h' : NumberText u y) (h'' : NumberText v z) :
      RadiiText (x, y, z) ([114, 61] ++ (t ++ 44 :: (u ++ 44 :: v)))

theorem radii_read {x : ℝ × ℝ × ℝ} {l : List Nat} (h : RadiiText x l) : scanRadii (l.drop 2) (0, 0, 0) = x ∧ 2 ≤ l.length ∧ Cospar.byte l 0 = 114 := by
  have s0 : Scan.Stops [] := by simp [Scan.Stops, at?, isDigit]
  have s1 : ∀ r, Scan.Stops (44 :: r) := by simp [Scan.Stops, at?, isDigit]
  cases h with
  | @one x t h =>
    have e := number_scan h s0
    rw [List.append_nil] at e
    simp [scanRadii, e, Cospar.byte]
  | @two x y t u h h' =>
    have e := number_scan h (s1 u)
    have e' := number_scan h' s0
    rw [List.append_nil] at e'
    simp [scanRadii, e, e', Cospar.byte]
  | @three x y z t u v h h' h'' =>
    have e := number_scan h (s1 (u ++ 44 :: v))
    have e' := number_scan h' (s1 v)
    have e'' := number_scan h'' s0
    rw [List.append_nil] at e''
    simp [scanRadii, e, e', e'', Cospar.byte]

/-- The pole's and the meridian's lines say nothing about radii. -/
theorem no_radii (q : Ask) (hp : q.pole = false) (ho : q.omega = false) (lines : List (List Nat)) {n : Int} (hn : Modern n) (hs : n ≠ planetSelected) {p k : Nat}
    (R : List (List Nat)) :
    ∀ (A : List (List Nat)) (g : State), (∀ l ∈ A, Cospar.byte l 0 = 97 ∨ Cospar.byte l 0 = 100 ∨ Cospar.byte l 0 = 87) → Inside n p k g →
      ∃ m b, steps q lines (A ++ R) g = steps q lines R { g with line := m, gotOmega := b }
  | [], g, _, _ => ⟨g.line, g.gotOmega, rfl⟩
  | l :: A, g, hA, hg => by
    have hl := hA l (by simp)
    have ho' : Own l := by unfold Own IsPlanet IsObject; omega
    have e : ∃ b, own q lines l g = .ok (.inl { g with gotOmega := b }) := by
      unfold own
      rcases hl with h | h | h
      · exact ⟨g.gotOmega, by rw [if_neg (by omega), if_pos h, hp]; simp⟩
      · exact ⟨g.gotOmega, by rw [if_neg (by omega), if_neg (by omega), if_pos h, hp]; simp⟩
      · rw [if_neg (by omega), if_neg (by omega), if_neg (by omega)]
        by_cases h2 : g.gotOmega = false ∧ Cospar.byte l 0 = 87 ∧ ((Cospar.byte l 1 : Int) = (q.system + 48) % 256 ∨ Cospar.byte l 1 = 61)
        · exact ⟨true, by rw [if_pos h2, ho]; simp⟩
        · exact ⟨g.gotOmega, by rw [if_neg h2]⟩
    obtain ⟨b, e⟩ := e
    rw [List.cons_append, own_step q lines hn hs ho' hg e]
    obtain ⟨m, b', e2⟩ := no_radii q hp ho lines hn hs R A { g with line := g.line + 1, gotOmega := b } (fun x hx => hA x (by simp [hx]))
      ⟨hg.object, hg.curr, hg.planet, hg.angular, hg.finished, hg.err⟩
    exact ⟨m, b', e2⟩

/-- The radii of an object, once the file has been loaded. -/
theorem C107_radii (file : Text) {n₀ n : Int} (h0 : n₀ ≠ noObject) {p : Nat} {first : Option Nat} {lines others after : List (List Nat)} {rl : List Nat}
    (h : ObjectAt n₀ n p first lines (rl :: others) after) (hf : OthersAfter after) {x : ℝ × ℝ × ℝ} (hr : RadiiText x rl)
    (ho : ∀ l ∈ others, Cospar.byte l 0 = 97 ∨ Cospar.byte l 0 = 100 ∨ Cospar.byte l 0 = 87) :
    planetRadii file (some lines) n₀ = .ok (⟨0, none, none, none, some x, some false⟩, some lines) := by
  obtain ⟨k, g, s, hg, -, g1, g2, g3, g4, g5, g6⟩ := reach ⟨false, false, true, 0, 0⟩ h
  obtain ⟨N, R, rfl, hN⟩ := hf
  obtain ⟨r1, r2, r3⟩ := radii_read hr
  have hn := h.modern
  have hs := h.number.1
  have s1 := own_step ⟨false, false, true, 0, 0⟩ lines hn hs (l := rl) (by unfold Own IsPlanet IsObject; omega) (g := g) (g' := { g with radii := x }) hg (by
    unfold own
    rw [if_pos r3, if_pos rfl, if_neg (by omega), g5, r1]) (others ++ N :: R)
  obtain ⟨m, b, s2⟩ := no_radii ⟨false, false, true, 0, 0⟩ rfl rfl lines hn hs (p := p) (k := k) (N :: R) others { g with radii := x, line := g.line + 1 } ho
    ⟨hg.object, hg.curr, hg.planet, hg.angular, hg.finished, hg.err⟩
  obtain ⟨g', s3, e1, e2, e3, e4, e5, e6, e7⟩ := own_end ⟨false, false, true, 0, 0⟩ lines hn hN (p := p) (k := k)
    (g := { g with radii := x, line := m, gotOmega := b }) ⟨hg.object, hg.curr, hg.planet, hg.angular, hg.finished, hg.err⟩ R
  have hall : steps ⟨false, false, true, 0, 0⟩ lines lines (begin_ n₀) = .ok (.inl g') := by
    rw [s, List.cons_append, s1, s2, s3]
  unfold planetRadii getData search
  simp only [if_neg h0, hall, Run.bind, e1, e2, e3, e4, e5, e6, e7, g2, g3, g4, g6]
  simp

/-! ## Rates -/

/-- A meridian with a term in days first. -/
theorem rate_read (q : Ask) (hq : q.pole = false) (lines : List (List Nat)) {p k : Nat} (retro : Bool) {c : ℝ} {b : Bool} {x : ℝ} {ts : List Term} {l : List Nat}
    (h : SumText p c (⟨b, x, .days⟩ :: ts) l) :
    ∃ y, expression q lines p k true retro l = .ok (.inr ⟨if b then -x else x, y, 0⟩) := by
  cases h with
  | @mk name t u hn hc ht =>
    unfold expression
    rw [after_equals _ _ hn]
    obtain ⟨t', h1, h2⟩ := constant_plain u hc
    simp only [h2, constant_read hc (terms_onward ht)]
    rw [terms_skip _ _ _ _ _ _ _ _ h1]
    cases ht with
    | @cons _ _ w us hw hs =>
      cases hw with
      | @mk _ _ _ t v hx hk =>
        cases hk with
        | days =>
          have hon := onward_first (terms_onward hs)
          have e : signByte b :: (t ++ [100]) ++ us = signByte b :: (t ++ (100 :: us)) := by simp
          rw [e, terms, if_neg (by cases b <;> simp [signByte])]
          have e2 := number_signed hx (r := 100 :: us) (by simp [Scan.Stops, at?, isDigit]) b
          simp only [e2]
          unfold term
          have h0 : Cospar.byte (100 :: us) 0 = 100 := rfl
          have h1 : ¬ Cospar.byte (100 :: us) 1 = 50 := by simpa [Cospar.byte, at?] using hon.1
          simp only [if_pos h0, if_neg h1, hq]
          exact ⟨_, rfl⟩

/-- The rate of rotation in degrees a day, of an object whose meridian has a term in days first. -/
theorem C107_rate (file : Text) (m : RateMemory) {n₀ n system : Int} (h0 : n₀ ≠ noObject) (hm : ¬ (n₀ = m.planet ∧ system = m.system)) {p : Nat} {first : Option Nat}
    {lines body after : List (List Nat)} {al dl wl : List Nat} (h : ObjectAt n₀ n p first lines body after)
    (hb : ObjectLines ⟨false, true, false, system, 0⟩ p body al dl wl) {cw : ℝ} {t : Term} {tw : List Term} (hk : t.kind = .days) (hw : SumText p cw (t :: tw) wl) :
    rotationRate file (some lines) m n₀ system = .ok (t.coefficient, ⟨n₀, system, t.coefficient⟩, some lines) := by
  obtain ⟨b, x, kd⟩ := t
  obtain rfl : kd = .days := hk
  obtain ⟨k, g, s, hg, -, g1, g2, g3, g4, g5, g6⟩ := reach ⟨false, true, false, system, 0⟩ h
  obtain ⟨rs, ws, more, rfl, hrs, hws, hmore⟩ := hb.ex
  have hn := h.modern
  have hs := h.number.1
  obtain ⟨m1, s1⟩ := own_silent ⟨false, true, false, system, 0⟩ lines hn hs (al :: dl :: (ws ++ wl :: more) ++ after) rs g (got := false)
    (fun l hl => Or.inl ⟨hrs l hl, rfl⟩) hg g1
  have s2 := own_step ⟨false, true, false, system, 0⟩ lines hn hs (l := al) (by unfold Own IsPlanet IsObject; rw [hb.a]; decide) (g := { g with line := m1 }) (g' := { g with line := m1 })
    ⟨hg.object, hg.curr, hg.planet, hg.angular, hg.finished, hg.err⟩ (by unfold own; rw [if_neg (by rw [hb.a]; decide), if_pos hb.a]; simp) (dl :: (ws ++ wl :: more) ++ after)
  have s3 := own_step ⟨false, true, false, system, 0⟩ lines hn hs (l := dl) (by unfold Own IsPlanet IsObject; rw [hb.d]; decide) (g := { g with line := m1 + 1 }) (g' := { g with line := m1 + 1 })
    ⟨hg.object, hg.curr, hg.planet, hg.angular, hg.finished, hg.err⟩ (by unfold own; rw [if_neg (by rw [hb.d]; decide), if_neg (by rw [hb.d]; decide), if_pos hb.d]; simp) ((ws ++ wl :: more) ++ after)
  obtain ⟨m4, s4⟩ := own_silent ⟨false, true, false, system, 0⟩ lines hn hs (wl :: more ++ after) ws { g with line := m1 + 1 + 1 } (got := false)
    (fun l hl => Or.inr ⟨(hws l hl).1, Or.inr (hws l hl).2⟩) ⟨hg.object, hg.curr, hg.planet, hg.angular, hg.finished, hg.err⟩ g1
  obtain ⟨y, er⟩ := rate_read ⟨false, true, false, system, 0⟩ rfl lines (k := k) false hw
  have s5 : steps ⟨false, true, false, system, 0⟩ lines (wl :: (more ++ after)) { g with line := m4 } =
      .ok (.inr { g with line := m4, omega := some (if b then -x else x), retro := y, gotOmega := true }) := by
    have hw1 := hb.w.1
    rw [steps, if_neg (by simp [hg.finished, hg.err])]
    unfold step
    rw [step_remap hn (show ({ g with line := m4 } : State).object = n from hg.object)]
    rw [if_neg (by omega), if_neg (by omega), if_neg (by rintro ⟨_, a, _⟩; exact hs (hg.curr.symm.trans a)), if_pos (hg.curr.trans hg.object.symm)]
    unfold own
    rw [if_neg (by omega), if_neg (by omega), if_neg (by omega), if_pos ⟨g1, hb.w⟩, if_pos rfl]
    simp only [hg.planet, hg.angular, g6, er, Run.bind]
  have hall : steps ⟨false, true, false, system, 0⟩ lines lines (begin_ n₀) =
      .ok (.inr { g with line := m4, omega := some (if b then -x else x), retro := y, gotOmega := true }) := by
    rw [s, List.append_assoc, s1]
    simp only [List.cons_append, List.append_assoc] at s2 s3 s4 s5 ⊢
    rw [s2, s3, s4, s5]
  unfold rotationRate getData search
  rw [if_pos (by by_contra hc; exact hm ⟨not_not.1 fun h => hc (Or.inl h), not_not.1 fun h => hc (Or.inr h)⟩)]
  simp only [if_neg h0, hall, Run.bind]
  simp [Term.coefficient]

/-- An object without a meridian has the rate of the one that was asked about before. -/
theorem C107_no_meridian (file : Text) (m : RateMemory) {n₀ n system : Int} (h0 : n₀ ≠ noObject) (hm : ¬ (n₀ = m.planet ∧ system = m.system)) {p : Nat} {first : Option Nat}
    {lines rs after : List (List Nat)} (h : ObjectAt n₀ n p first lines rs after) (hf : OthersAfter after) (hrs : ∀ l ∈ rs, Cospar.byte l 0 = 114) :
    rotationRate file (some lines) m n₀ system = .ok (m.omega, ⟨n₀, system, m.omega⟩, some lines) := by
  obtain ⟨k, g, s, hg, -, g1, g2, g3, g4, g5, g6⟩ := reach ⟨false, true, false, system, 0⟩ h
  obtain ⟨N, R, rfl, hN⟩ := hf
  obtain ⟨m1, s1⟩ := own_silent ⟨false, true, false, system, 0⟩ lines h.modern h.number.1 (N :: R) rs g (got := false) (fun l hl => Or.inl ⟨hrs l hl, rfl⟩) hg g1
  obtain ⟨g', s3, e1, e2, e3, e4, e5, e6, e7⟩ := own_end ⟨false, true, false, system, 0⟩ lines h.modern hN (p := p) (k := k) (g := { g with line := m1 })
    ⟨hg.object, hg.curr, hg.planet, hg.angular, hg.finished, hg.err⟩ R
  unfold rotationRate getData search
  rw [if_pos (by by_contra hc; exact hm ⟨not_not.1 fun h => hc (Or.inl h), not_not.1 fun h => hc (Or.inr h)⟩)]
  have hall := s.trans (s1.trans s3)
  simp only [if_neg h0, hall, Run.bind, e1, e2, e5, g4]
  simp

/-! ## Texts that are misread -/

/-- A line ends at the first byte above 127: Mars' right ascension is written with such a minus. -/
theorem C107_cut {t s : List Nat} {c : Nat} (ht : ∀ x ∈ t, 32 ≤ x ∧ x < 128 ∧ x ≠ 35) (hc : 128 ≤ c) : kept (t ++ c :: s) = kept t := by
  have e1 : ∀ u : List Nat, (∀ x ∈ u, 32 ≤ x ∧ x < 128 ∧ x ≠ 35) → shown (u ++ c :: s) = u ∧ shown u = u := by
    intro u hu
    induction u with
    | nil =>
      refine ⟨?_, rfl⟩
      unfold shown
      rw [List.nil_append, List.takeWhile_cons, if_neg (by simp; omega)]
    | cons x u ih =>
      obtain ⟨i1, i2⟩ := ih (fun y hy => hu y (by simp [hy]))
      have hx := hu x (by simp)
      unfold shown at *
      constructor
      · rw [List.cons_append, List.takeWhile_cons, if_pos (by simpa using hx), i1]
      · rw [List.takeWhile_cons, if_pos (by simpa using hx), i2]
  unfold kept
  rw [(e1 t ht).1, (e1 t ht).2]

/-- What is kept of a line without blanks and comment is the line. -/
theorem C107_kept {t : List Nat} (ht : ∀ x ∈ t, 32 < x ∧ x < 128 ∧ x ≠ 35) (hne : t ≠ []) : kept (t ++ [10]) = some t := by
  have e : shown (t ++ [10]) = t := by
    clear hne
    induction t with
    | nil => rfl
    | cons x u ih =>
      have hx := ht x (by simp)
      unfold shown at *
      rw [List.cons_append, List.takeWhile_cons, if_pos (by simp; omega), ih (fun y hy => ht y (by simp [hy]))]
  unfold kept
  simp only [e, if_neg hne]
  have ef : t.filter (fun c => decide (c ≠ 32)) = t := List.filter_eq_self.2 (fun x hx => by have := ht x hx; simp; omega)
  rw [ef]
  split <;> rfl

/-- A sine without coefficient is read for ever. -/
theorem C107_endless (q : Ask) (lines : List (List Nat)) {p k : Nat} (hp : p ≠ 110) (hk : k ≠ 0) (retro o : Bool) {c x : ℝ} {name t ds l : List Nat}
    (hn : 61 ∉ name) (hc : ConstantText c t) (hd : AllDigits ds) (hne : ds ≠ []) (hl : lines[k + value ds]? = some l) (ha : AngleText q.d x l) :
    expression q lines p k o retro (name ++ 61 :: (t ++ ([43, 115, 105, 110] ++ p :: ds))) = .hang := by
  unfold expression
  rw [after_equals _ _ hn]
  obtain ⟨t', h1, h2⟩ := constant_plain ([43, 115, 105, 110] ++ p :: ds) hc
  simp only [h2]
  rw [terms_skip _ _ _ _ _ _ _ _ h1]
  have e0 : Scan.strtold (K := ℝ) (43 :: 115 :: 105 :: 110 :: p :: ds) = (0, 43 :: 115 :: 105 :: 110 :: p :: ds) := by
    unfold Scan.strtold
    have : Scan.sign (Scan.skipSpace (43 :: 115 :: 105 :: 110 :: p :: ds)) = (false, 115 :: 105 :: 110 :: p :: ds) := rfl
    rw [this]
    rfl
  have hat := atoi_field (r := []) hd hne (by rfl)
  rw [List.append_nil] at hat
  have hlen : 1 ≤ ds.length := by cases ds with | nil => exact absurd rfl hne | cons => simp
  have hidx : ¬ ((k : Int) + (value ds : Int) < 0) := by omega
  have hnat : ((k : Int) + (value ds : Int)).toNat = k + value ds := by omega
  have hm : atoi (110 :: p :: ds) = 0 := by simp [atoi, isSpace, readDigits, isDigit]
  show terms q lines p k o (43 :: 115 :: 105 :: 110 :: p :: ds) _ = _
  rw [terms, if_neg (by simp)]
  simp only [e0]
  unfold term
  rw [if_neg (by simp [Cospar.byte]), if_neg (by simp [Cospar.byte])]
  unfold periodic
  have b3 : Cospar.byte (43 :: 115 :: 105 :: 110 :: p :: ds) 3 = 110 := rfl
  have b4 : Cospar.byte (43 :: 115 :: 105 :: 110 :: p :: ds) 4 = p := rfl
  rw [if_neg (by simp), b3, b4, if_neg (by simp)]
  have hp' : ¬ (110 = p) := fun h => hp h.symm
  simp only [if_neg hp', List.drop_succ_cons, List.drop_zero, hm, hat, if_neg hk, if_neg hidx, hnat, hl, C107_angle q ha, Run.bind, if_true]
  simp

/-! ## Examples -/

def asText (s : String) : List Nat := s.toList.map Char.toNat

/-- Venus, and what is around it. -/
def someLines : List (List Nat) :=
  ["Remap: 3001 10  4001 28", "Planet:p", "Obj:0", "r=695700", "a0=286.13", "d0=63.87", "W=84.176+14.1844d", "Obj:2", "r=6051.8", "a0=272.76", "d0=67.16",
   "W2=160.20-85.7142857d", "W=160.20-1.4813688d", "Planet:N", "N1=357.85+52.316T", "Obj:8", "r=24764,24341", "a0=299.36+0.70sinN1", "d0=43.46-0.51cosN1",
   "W=249.978+541.1397757d-0.48sinN1", "Obj:8001"].map asText

theorem venus_placed : ObjectAt 2 2 112 none someLines (["r=6051.8", "a0=272.76", "d0=67.16", "W2=160.20-85.7142857d", "W=160.20-1.4813688d"].map asText)
    (someLines.drop 13) :=
  ⟨⟨someLines.take 1, [], asText "Planet:p", [], (someLines.drop 2).take 5, asText "Obj:2", by decide +kernel, by unfold IsRemap; decide +kernel, by decide +kernel,
    by simp, by unfold IsPlanet; decide +kernel, by decide +kernel, Or.inl ⟨rfl, rfl⟩, by unfold Passive IsPlanet IsFirst Other IsObject; decide +kernel,
    by unfold IsObject; decide +kernel, by decide +kernel⟩, by decide, by unfold Modern; decide, by decide⟩

theorem neptune_placed : ObjectAt 8 8 78 (some 13) someLines (["r=24764,24341", "a0=299.36+0.70sinN1", "d0=43.46-0.51cosN1", "W=249.978+541.1397757d-0.48sinN1"].map asText)
    [asText "Obj:8001"] :=
  ⟨⟨someLines.take 1, (someLines.drop 1).take 12, asText "Planet:N", [asText "N1=357.85+52.316T"], [], asText "Obj:8", by decide +kernel, by unfold IsRemap; decide +kernel,
    by decide +kernel, by unfold Other IsObject; decide +kernel, by unfold IsPlanet; decide +kernel, by decide +kernel,
    Or.inr ⟨_, rfl, by unfold IsFirst; decide +kernel, by decide +kernel⟩, by simp,
    by unfold IsObject; decide +kernel, by decide +kernel⟩, by decide, by unfold Modern; decide, by decide⟩

/-- The satellite with the old number 10 is now 3001. -/
example : remapped 10 (someLines.take 1) = 3001 := by decide +kernel

/-- Venus' meridian for the second system comes before the usual one. -/
example (d : ℝ) : ObjectLines ⟨true, true, false, 1, d⟩ 112 (["r=6051.8", "a0=272.76", "d0=67.16", "W2=160.20-85.7142857d", "W=160.20-1.4813688d"].map asText)
    (asText "a0=272.76") (asText "d0=67.16") (asText "W=160.20-1.4813688d") :=
  ⟨⟨[asText "r=6051.8"], [asText "W2=160.20-85.7142857d"], [], by decide +kernel, by decide +kernel, by dsimp only; decide +kernel, by simp⟩, by decide +kernel, by decide +kernel, by dsimp only; decide +kernel⟩

example (d : ℝ) : ObjectLines ⟨true, true, false, 2, d⟩ 112 (["r=6051.8", "a0=272.76", "d0=67.16", "W2=160.20-85.7142857d", "W=160.20-1.4813688d"].map asText)
    (asText "a0=272.76") (asText "d0=67.16") (asText "W2=160.20-85.7142857d") :=
  ⟨⟨[asText "r=6051.8"], [], [asText "W=160.20-1.4813688d"], by decide +kernel, by decide +kernel, by simp, by decide +kernel⟩, by decide +kernel, by decide +kernel, by dsimp only; decide +kernel⟩

theorem number_text (a b : String) (ha : AllDigits (asText a)) (hb : AllDigits (asText b)) (hne : asText a ≠ []) {t : List Nat} {x : ℝ}
    (ht : t = asText a ++ 46 :: asText b) (hx : x = (value (asText a) : ℝ) + value (asText b) / 10 ^ (asText b).length) : NumberText t x := by
  rw [ht, hx]
  exact .decimal ha hb (Or.inl hne)

/-- `W=160.20-1.4813688d`: 160.2 degrees, going down. -/
theorem venus_meridian : SumText 112 160.2 [⟨true, 1.4813688, .days⟩] (asText "W=160.20-1.4813688d") := by
  have h := SumText.mk (letter := 112) (name := asText "W") (c := 160.2) (t := asText "160.20") (by decide +kernel)
    (.plus (number_text "160" "20" (by unfold AllDigits; decide +kernel) (by unfold AllDigits; decide +kernel) (by decide +kernel) (by decide +kernel)
      (by have h1 : value (asText "160") = 160 := by decide +kernel
          have h2 : value (asText "20") = 20 := by decide +kernel
          have h3 : (asText "20").length = 2 := by decide +kernel
          rw [h1, h2, h3]; norm_num)) (by decide +kernel))
    (.cons (.mk (minus := true) (t := asText "1.4813688") (number_text "1" "4813688" (by unfold AllDigits; decide +kernel) (by unfold AllDigits; decide +kernel) (by decide +kernel) (by decide +kernel)
      (x := 1.4813688) (by
          have h1 : value (asText "1") = 1 := by decide +kernel
          have h2 : value (asText "4813688") = 4813688 := by decide +kernel
          have h3 : (asText "4813688").length = 7 := by decide +kernel
          rw [h1, h2, h3]; norm_num)) .days) .nil)
  have e : asText "W=160.20-1.4813688d" = asText "W" ++ 61 :: (asText "160.20" ++ (signByte true :: (asText "1.4813688" ++ [100]) ++ [])) := by decide +kernel
  rw [e]
  exact h

/-- Venus goes backwards, by 1.48 degrees a day. -/
example : rotationRate none (some someLines) RateMemory.start 2 1 = .ok (-1.4813688, ⟨2, 1, -1.4813688⟩, some someLines) := by
  have hb : ObjectLines ⟨false, true, false, 1, 0⟩ 112 (["r=6051.8", "a0=272.76", "d0=67.16", "W2=160.20-85.7142857d", "W=160.20-1.4813688d"].map asText)
      (asText "a0=272.76") (asText "d0=67.16") (asText "W=160.20-1.4813688d") :=
    ⟨⟨[asText "r=6051.8"], [asText "W2=160.20-85.7142857d"], [], by decide +kernel, by decide +kernel, by decide +kernel, by simp⟩, by decide +kernel, by decide +kernel, by decide +kernel⟩
  have h := C107_rate none RateMemory.start (system := 1) (by decide) (by simp [RateMemory.start]) venus_placed hb (t := ⟨true, 1.4813688, .days⟩) rfl venus_meridian
  simpa [Term.coefficient] using h

/-- `sinN1` is found and read. -/
example : KindText 78 (.sine 1 (value (asText "1"))) (asText "sinN1") := .sine (ms := []) .one (by unfold AllDigits; decide +kernel) (by decide +kernel)

end Verif.Props
