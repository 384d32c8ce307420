import Mathlib.Tactic.NormNum
import Verif.Model.Xxx2Rov
import Verif.Spec.Rover
import Verif.Props.CtimeCount
import Verif.Props.Place
import Verif.Props.Themis

/-!
# Property theorems: observers without a station code as roving observers (C115)
-/

namespace Verif.Props

open Verif Verif.Spec Verif.Spec.Rover Verif.Xxx2Rov
open Verif.Place (Site getXxxLocationInfo)
open Verif.AddOff (put)

/-! ## Columns -/

theorem wide_len {w : Nat} {t : List Nat} (h : t.length ≤ w) : (wide w t).length = w := by
  unfold wide
  rw [List.length_append, List.length_replicate]
  omega

theorem wide_ge (w : Nat) (t : List Nat) : w ≤ (wide w t).length := by
  unfold wide
  rw [List.length_append, List.length_replicate]
  omega

theorem frac_spec {p v : Nat} {f : List Nat} (h : Decimals p v f) : if p = 0 then f = [] else ∃ ds, Padded p v ds ∧ f = 46 :: ds := by
  rcases h with ⟨rfl, _, rfl⟩ | ⟨hp, ds, hd, rfl⟩
  · simp
  · rw [if_neg (by omega)]
    exact ⟨ds, hd, rfl⟩

/-- The length of a number. -/
theorem fixed_len {p k : Nat} {x : ℚ} (h : |x| ≤ 10 ^ (k + 1) - 1) :
    (Time.fmtFixed p x).length ≤ (if x < 0 then 1 else 0) + (k + 1) + (if p = 0 then 0 else p + 1) := by
  obtain ⟨N, -, hw, hn⟩ := fmtFixed_written p x
  obtain ⟨w, f, hw, hf, e⟩ := hw
  have hN : N < 10 ^ (k + 1) * 10 ^ p := by
    have h1 := (abs_le.1 hn).2
    have h10 : (1 : ℚ) ≤ 10 ^ p := one_le_pow₀ (by norm_num)
    have : (N : ℚ) < 10 ^ (k + 1) * 10 ^ p := by nlinarith
    exact_mod_cast this
  have h1 : N / 10 ^ p < 10 ^ (k + 1) := Nat.div_lt_of_lt_mul (by rw [Nat.mul_comm]; exact hN)
  have h2 := dec_length_le h1
  rw [← hw.eq_dec] at h2
  have h3 := decimals_length_eq hf
  rw [e, List.length_append, List.length_append, h3]
  by_cases hx : x < 0
  · simp only [decide_eq_true hx, if_pos hx, if_true, List.length_singleton]
    omega
  · simp only [decide_eq_false hx, if_neg hx, Bool.false_eq_true, if_false, List.length_nil]
    omega

theorem column_plain {w p : Nat} {x : ℚ} (h : (Time.fmtFixed p x).length ≤ w) : Column w p false x (wide w (Time.fmtFixed p x)) := by
  obtain ⟨N, -, ⟨a, f, ha, hf, e⟩, hn⟩ := fmtFixed_written p x
  refine ⟨w - (Time.fmtFixed p x).length, N, a, f, ?_, wide_len h, ha, frac_spec hf, hn⟩
  unfold wide
  congr 1
  rw [e]
  by_cases hx : x < 0 <;> simp [hx]

theorem plus_len (x : ℚ) : (plus x).length = (Time.fmtFixed 5 x).length + if x < 0 then 0 else 1 := by
  unfold plus
  split_ifs <;> simp

theorem column_plus {w : Nat} {x : ℚ} (h : (plus x).length ≤ w) : Column w 5 true x (wide w (plus x)) := by
  obtain ⟨N, -, ⟨a, f, ha, hf, e⟩, hn⟩ := fmtFixed_written 5 x
  refine ⟨w - (plus x).length, N, a, f, ?_, wide_len h, ha, frac_spec hf, hn⟩
  unfold wide
  congr 1
  unfold plus
  rw [e]
  by_cases hx : x < 0 <;> simp [hx]

theorem fixed_nul (p : Nat) (x : ℚ) : 0 ∉ Time.fmtFixed p x := by
  obtain ⟨N, -, ⟨a, f, ha, hf, e⟩, -⟩ := fmtFixed_written p x
  have h1 : 0 ∉ a := fun h => by have := ha.digits 0 h; omega
  have h2 : 0 ∉ f := by
    rcases hf with ⟨rfl, _, rfl⟩ | ⟨hp, ds, hd, rfl⟩
    · simp
    · intro h
      rcases List.mem_cons.1 h with h | h
      · omega
      · have := hd.digits 0 h; omega
  rw [e]
  simp only [List.mem_append, not_or]
  refine ⟨⟨?_, h1⟩, h2⟩
  split_ifs <;> simp

theorem fields_nul (s : Site) : 0 ∉ fields s := by
  have hw : ∀ w t, 0 ∉ t → 0 ∉ wide w t := by
    intro w t h
    unfold wide
    simp [h]
  have hp : 0 ∉ plus s.lat := by
    unfold plus
    split_ifs
    · exact fixed_nul _ _
    · simp [fixed_nul]
  unfold fields
  simp only [List.mem_append, not_or]
  exact ⟨⟨⟨⟨⟨by decide, hw _ _ (fixed_nul _ _)⟩, by decide⟩, hw _ _ hp⟩, by decide⟩, hw _ _ (fixed_nul _ _)⟩

theorem place_parts {s : Site} (h : Fits s.lat s.lon s.alt) :
    (Time.fmtFixed 5 s.lon).length ≤ 9 ∧ (plus s.lat).length ≤ 9 ∧ (Time.fmtFixed 0 s.alt).length ≤ 4 := by
  obtain ⟨h1, h2, h3, h4, h5⟩ := h
  refine ⟨?_, ?_, ?_⟩
  · have := fixed_len (p := 5) (k := 2) (x := s.lon) (by rw [abs_of_nonneg h1]; norm_num; exact h2)
    rw [if_neg (not_lt.2 h1)] at this
    simpa using this
  · have := fixed_len (p := 5) (k := 1) (x := s.lat) (by norm_num; linarith)
    rw [plus_len]
    split_ifs at this ⊢ <;> simp at this ⊢ <;> omega
  · by_cases hx : s.alt < 0
    · have := fixed_len (p := 0) (k := 2) (x := s.alt) (by rw [abs_of_neg hx]; norm_num; linarith)
      rw [if_pos hx] at this
      simpa using this
    · have := fixed_len (p := 0) (k := 3) (x := s.alt) (by rw [abs_of_nonneg (not_lt.1 hx)]; norm_num; linarith)
      rw [if_neg hx] at this
      simpa using this

/-- C115: the columns 33 to 61 have the longitude, latitude and altitude of the place. -/
theorem C115_columns {s : Site} (h : Fits s.lat s.lon s.alt) : Columns s.lat s.lon s.alt (fields s) ∧ (fields s).length = 29 := by
  obtain ⟨h1, h2, h3⟩ := place_parts h
  refine ⟨⟨_, _, _, rfl, column_plain h1, column_plus h2, column_plain h3⟩, ?_⟩
  unfold fields
  simp only [List.length_append, wide_len h1, wide_len h2, wide_len h3]
  decide

/-! ## Lines -/

theorem put_mid {p q t r : List Nat} (h : q.length = t.length) : put (p ++ (q ++ r)) p.length t = p ++ (t ++ r) := by
  unfold put
  rw [List.take_left, ← h, ← List.length_append, ← List.append_assoc p q r, List.drop_left, List.append_assoc]

theorem first_text {o : Obs} (h : o.Ok) : first (o.text o.note o.c o.x "XXX") = o.text 86 o.c o.x "247" ++ [0] := by
  have e1 : put (o.text o.note o.c o.x "XXX" ++ [0]) 77 (bytes "247") = o.text o.note o.c o.x "247" ++ [0] := by
    have := put_mid (p := o.a ++ o.note :: (o.b ++ (o.c ++ o.x :: o.d))) (q := bytes "XXX") (t := bytes "247") (r := o.e ++ [0]) rfl
    rw [show (o.a ++ o.note :: (o.b ++ (o.c ++ o.x :: o.d))).length = 77 by simp [h.a, h.b, h.c, h.d]] at this
    simpa [Obs.text] using this
  unfold first
  rw [e1]
  have := put_mid (p := o.a) (q := [o.note]) (t := [86]) (r := o.b ++ (o.c ++ o.x :: (o.d ++ (bytes "247" ++ (o.e ++ [0]))))) rfl
  rw [h.a] at this
  simpa [Obs.text] using this

/-- The second line in memory, up to what the fields overwrite. -/
theorem second_start {o : Obs} (h : o.Ok) (t : List Nat) :
    put (put (first (o.text o.note o.c o.x "XXX")) 14 [118]) 32 (t ++ [0]) =
      o.a ++ 118 :: (o.b ++ (t ++ 0 :: (o.c ++ o.x :: (o.d ++ (bytes "247" ++ (o.e ++ [0])))).drop (t.length + 1))) := by
  have e1 : put (o.text 86 o.c o.x "247" ++ [0]) 14 [118] = o.text 118 o.c o.x "247" ++ [0] := by
    have := put_mid (p := o.a) (q := [86]) (t := [118]) (r := o.b ++ (o.c ++ o.x :: (o.d ++ (bytes "247" ++ (o.e ++ [0]))))) rfl
    rw [h.a] at this
    simpa [Obs.text] using this
  rw [first_text h, e1]
  unfold put Obs.text
  have e2 : o.a ++ 118 :: (o.b ++ (o.c ++ o.x :: (o.d ++ (bytes "247" ++ o.e)))) ++ [0] =
      (o.a ++ 118 :: o.b) ++ (o.c ++ o.x :: (o.d ++ (bytes "247" ++ (o.e ++ [0])))) := by simp
  have e3 : (o.a ++ 118 :: o.b).length = 32 := by simp [h.a, h.b]
  rw [e2, ← e3, List.take_left, ← List.drop_drop, List.drop_left]
  simp

theorem text_nul {o : Obs} (h : o.Ok) : 0 ∉ o.a ∧ 0 ∉ o.b ∧ 0 ∉ o.c ∧ 0 ≠ o.x ∧ 0 ∉ o.d ∧ 0 ∉ o.e := by
  have := h.nul
  unfold Obs.text at this
  simp only [List.mem_append, List.mem_cons, not_or] at this
  exact ⟨this.1, this.2.2.1, this.2.2.2.1, this.2.2.2.2.1, this.2.2.2.2.2.1, this.2.2.2.2.2.2.2⟩

theorem second_text {o : Obs} (h : o.Ok) {s : Site} (hf : (fields s).length = 29) :
    second s (o.text o.note o.c o.x "XXX") = o.text 118 (fields s) 32 "247" ++ [0] := by
  unfold second
  rw [second_start h, hf]
  have e1 : (o.c ++ o.x :: (o.d ++ (bytes "247" ++ (o.e ++ [0])))).drop (29 + 1) = o.d ++ (bytes "247" ++ (o.e ++ [0])) := by
    rw [← h.c, ← List.drop_drop, List.drop_left]
    rfl
  rw [e1]
  have := put_mid (p := o.a ++ 118 :: (o.b ++ fields s)) (q := [0]) (t := [32]) (r := o.d ++ (bytes "247" ++ (o.e ++ [0]))) rfl
  rw [show (o.a ++ 118 :: (o.b ++ fields s)).length = 61 by simp [h.a, h.b, hf]] at this
  simpa [Obs.text] using this

theorem is_xxx {o : Obs} (h : o.Ok) : isXxx (o.text o.note o.c o.x "XXX") = true := by
  obtain ⟨z, r, he, hz⟩ := h.e
  have hl : (o.a ++ o.note :: (o.b ++ (o.c ++ o.x :: o.d))).length = 77 := by simp [h.a, h.b, h.c, h.d]
  have e : o.text o.note o.c o.x "XXX" = (o.a ++ o.note :: (o.b ++ (o.c ++ o.x :: o.d))) ++ (bytes "XXX" ++ z :: r) := by
    simp [Obs.text, he]
  unfold isXxx at?
  rw [e]
  generalize o.a ++ o.note :: (o.b ++ (o.c ++ o.x :: o.d)) = p at *
  have e1 : (p ++ (bytes "XXX" ++ z :: r)).drop 77 = bytes "XXX" ++ z :: r := by rw [← hl, List.drop_left]
  have e2 : (p ++ (bytes "XXX" ++ z :: r)).getD 80 0 = z := by
    rw [List.getD_eq_getElem?_getD, List.getElem?_append_right (by omega), hl]
    rfl
  rw [e1, e2]
  have e3 : (bytes "XXX" ++ z :: r).take 3 = bytes "XXX" := rfl
  have e4 : 80 < (p ++ (bytes "XXX" ++ z :: r)).length := by
    rw [List.length_append, hl, List.length_append, List.length_cons, show (bytes "XXX").length = 3 from rfl]
    omega
  rw [e3, decide_eq_true e4, decide_eq_true rfl]
  simpa using hz

theorem not_xxx {l : List Nat} (h : NoObs l) : isXxx l = false := by
  unfold isXxx at?
  rcases h with h | h | ⟨z, hz, h1, h2⟩
  · simp [h]
  · simp [not_lt.2 h]
  · rw [List.getD_eq_getElem?_getD, hz, Option.getD_some, decide_eq_false (not_lt.2 h1), decide_eq_false (not_le.2 h2)]
    simp

theorem take_of_prefix {p l : List Nat} : p <+: l ↔ l.take p.length = p := by
  rw [List.prefix_iff_eq_take]
  exact eq_comm

theorem not_com {l : List Nat} (h : ¬bytes "COM Long." <+: l) : getXxxLocationInfo l = .ok (-1, none) := by
  have e : l.take 9 ≠ bytes "COM Long." := fun e => h (take_of_prefix.2 e)
  unfold getXxxLocationInfo
  rw [if_pos e]

/-- A prefix not longer than the first part. -/
theorem prefix_part {p a r : List Nat} (h : p.length ≤ a.length) : p <+: a ++ r ↔ p <+: a := by
  rw [take_of_prefix, take_of_prefix, List.take_append_of_le_length h]

/-- C115: an observation without a code becomes two lines: the first with code 247 and note V, the second with note v and the place. -/
theorem C115_observation {o : Obs} (h : o.Ok) {s : Site} (hs : Fits s.lat s.lon s.alt) :
    ∃ t, Columns s.lat s.lon s.alt t ∧ t.length = 29 ∧
      line (some s) (o.text o.note o.c o.x "XXX") = .ok (some s, o.text 86 o.c o.x "247" ++ o.text 118 t 32 "247") := by
  obtain ⟨c1, c2⟩ := C115_columns hs
  refine ⟨fields s, c1, c2, ?_⟩
  have hc : ¬bytes "COM Long." <+: o.text o.note o.c o.x "XXX" := by
    unfold Obs.text
    rw [prefix_part (by rw [h.a]; decide)]
    exact h.com
  have hd : ¬bytes "COD XXX" <+: o.text o.note o.c o.x "XXX" := by
    unfold Obs.text
    rw [prefix_part (by rw [h.a]; decide)]
    exact h.cod
  obtain ⟨n1, n2, n3, n4, n5, n6⟩ := text_nul h
  have hn : ∀ t : List Nat, 0 ∉ t → ∀ k x, k ≠ 0 → x ≠ 0 → 0 ∉ o.text k t x "247" := by
    intro t ht k x hk hx
    unfold Obs.text
    simp only [List.mem_append, List.mem_cons, not_or]
    exact ⟨n1, hk.symm, n2, ht, hx.symm, n5, by decide, n6⟩
  have hfn : 0 ∉ fields s := fields_nul s
  unfold line
  rw [not_com hc]
  simp only [Outcome.bind]
  have e7 : ¬(o.text o.note o.c o.x "XXX").take 7 = bytes "COD XXX" := fun e => hd (take_of_prefix.2 e)
  rw [if_neg (show ¬(-1 : Int) = -2 by decide), if_neg (show ¬(-1 : Int) = 0 by decide), if_neg e7, is_xxx h, if_pos rfl]
  unfold observation
  simp only
  rw [if_neg (by rw [c2]; decide), first_text h, second_text h c2, cstr_line (hn _ n3 _ _ (by decide) n4.symm), cstr_line (hn _ hfn _ _ (by decide) (by decide))]

/-- C115: the header of a station's observations. -/
theorem C115_code (s : Option Site) (r : List Nat) : line s (bytes "COD XXX" ++ r) = .ok (s, bytes "COD 247" ++ r) := by
  have e1 : (bytes "COD XXX" ++ r).take 7 = bytes "COD XXX" := rfl
  have e2 : put (bytes "COD XXX" ++ r) 4 (bytes "247") = bytes "COD 247" ++ r := rfl
  unfold line
  rw [not_com (by rw [take_of_prefix]; intro e; have := congrArg (List.take 3) e; revert this; show ¬bytes "COD" = bytes "COM"; decide)]
  simp only [Outcome.bind]
  rw [if_neg (show ¬(-1 : Int) = -2 by decide), if_neg (show ¬(-1 : Int) = 0 by decide), if_pos e1, e2]

/-- C115: any other line is copied. -/
theorem C115_other (s : Option Site) {l : List Nat} (h : Other l) : line s l = .ok (s, l) := by
  obtain ⟨h1, h2, h3⟩ := h
  have e7 : ¬l.take 7 = bytes "COD XXX" := fun e => h2 (take_of_prefix.2 e)
  unfold line
  rw [not_com h1]
  simp only [Outcome.bind]
  rw [if_neg (show ¬(-1 : Int) = -2 by decide), if_neg (show ¬(-1 : Int) = 0 by decide), if_neg e7, not_xxx h3, if_neg (by decide)]

/-- C115: a line with a place is copied, and sets the place. -/
theorem C115_place (s : Option Site) {l : List Nat} {p : Site} (h : getXxxLocationInfo l = .ok (0, some p)) (h3 : NoObs l) : line s l = .ok (some p, l) := by
  have hc : bytes "COM Long." <+: l := by
    by_contra hc
    rw [not_com hc] at h
    cases h
  have e7 : ¬l.take 7 = bytes "COD XXX" := by
    intro e
    have h9 : l.take 9 = bytes "COM Long." := take_of_prefix.1 hc
    have h3 : l.take 3 = bytes "COM" := by
      have := congrArg (List.take 3) h9
      rwa [List.take_take] at this
    have h4 := congrArg (List.take 3) e
    rw [List.take_take] at h4
    exact absurd (h4.symm.trans h3) (by decide)
  unfold line
  rw [h]
  simp only [Outcome.bind]
  rw [if_neg (show ¬(0 : Int) = -2 by decide), if_neg e7, not_xxx h3, if_neg (by decide), if_pos trivial]

/-- The place that a line gives, by C75. -/
def Located (l : List Nat) (p : ℚ × ℚ × ℚ) : Prop :=
  ∃ t1 t2 t3 r1 r2 r3 c1 c2 n1 n2 j1 j2 neg1 neg2 w x1 x2, Angle t1 x1 n1 ∧ Compass c1 false neg1 ∧ Angle t2 x2 n2 ∧ Compass c2 true neg2 ∧
    Spec.Figure t3 p.2.2 w ∧ Scan.Stops r3 ∧ l = bytes "COM Long." ++ (t1 ++ (List.replicate j1 32 ++ c1 :: r1)) ∧
    FirstAt (bytes "Lat.") l (bytes "Lat." ++ (t2 ++ (List.replicate j2 32 ++ c2 :: r2))) ∧ FirstAt (bytes "Alt.") l (bytes "Alt." ++ (t3 ++ r3)) ∧
    p.1 = Spec.signed neg2 x2 ∧ p.2.1 = turn (Spec.signed neg1 x1)

def site (p : ℚ × ℚ × ℚ) : Site := ⟨p.1, p.2.1, p.2.2⟩

theorem located_site {l : List Nat} {p : ℚ × ℚ × ℚ} (h : Located l p) : getXxxLocationInfo l = .ok (0, some (site p)) := by
  obtain ⟨t1, t2, t3, r1, r2, r3, c1, c2, n1, n2, j1, j2, neg1, neg2, w, x1, x2, h1, h2, h3, h4, h5, h6, h7, h8, h9, e1, e2⟩ := h
  rw [C75_xxx h1 h2 h3 h4 h5 h6 h7 h8 h9]
  unfold site
  rw [e1, e2]

/-- C115: a whole file. -/
theorem C115_file {ls : List (List Nat)} {s : Option (ℚ × ℚ × ℚ)} (h : Good Located s ls) :
    ∃ out, main (s.map site) ls = .ok out ∧ Converts Located s ls out := by
  induction h with
  | done s => exact ⟨[], rfl, .done s⟩
  | place ha hn _ ih =>
    obtain ⟨out, e, hc⟩ := ih
    refine ⟨_, ?_, .place ha hc⟩
    unfold main
    rw [C115_place _ (located_site ha) hn]
    simp only [Outcome.bind]
    rw [show some (site _) = Option.map site (some _) from rfl, e]
  | code _ ih =>
    obtain ⟨out, e, hc⟩ := ih
    refine ⟨_, ?_, .code hc⟩
    unfold main
    rw [C115_code]
    simp only [Outcome.bind]
    rw [e]
  | obs ho hf _ ih =>
    obtain ⟨out, e, hc⟩ := ih
    rename_i p o ls _
    obtain ⟨t, h1, -, h2⟩ := C115_observation ho (s := site p) hf
    refine ⟨_, ?_, .obs ho h1 hc⟩
    unfold main
    rw [show Option.map site (some p) = some (site p) from rfl, h2]
    simp only [Outcome.bind]
    rw [show some (site p) = Option.map site (some p) from rfl, e]
  | other ho _ ih =>
    obtain ⟨out, e, hc⟩ := ih
    refine ⟨_, ?_, .other ho hc⟩
    unfold main
    rw [C115_other _ ho]
    simp only [Outcome.bind]
    rw [e]

/-! ## Exceptions -/

/-- The lines after which an observation is met. -/
theorem obs_line {o : Obs} (h : o.Ok) (s : Option Site) :
    line s (o.text o.note o.c o.x "XXX") = (observation s (o.text o.note o.c o.x "XXX")).bind fun t => .ok (s, t) := by
  have hc : ¬bytes "COM Long." <+: o.text o.note o.c o.x "XXX" := by
    unfold Obs.text
    rw [prefix_part (by rw [h.a]; decide)]
    exact h.com
  have hd : ¬bytes "COD XXX" <+: o.text o.note o.c o.x "XXX" := by
    unfold Obs.text
    rw [prefix_part (by rw [h.a]; decide)]
    exact h.cod
  have e7 : ¬(o.text o.note o.c o.x "XXX").take 7 = bytes "COD XXX" := fun e => hd (take_of_prefix.2 e)
  unfold line
  rw [not_com hc]
  simp only [Outcome.bind]
  rw [if_neg (show ¬(-1 : Int) = -2 by decide), if_neg (show ¬(-1 : Int) = 0 by decide), if_neg e7, is_xxx h, if_pos rfl]

/-- Finding: an observation before any line with a place is written with coordinates that were never set. -/
theorem C115_unset {o : Obs} (h : o.Ok) (ls : List (List Nat)) : main none (o.text o.note o.c o.x "XXX" :: ls) = .ub := by
  unfold main
  rw [obs_line h]
  rfl

/-- Finding: an observation in a last line without a newline keeps the code XXX. -/
theorem C115_last (s : Option Site) {l : List Nat} (h1 : ¬bytes "COM Long." <+: l) (h2 : ¬bytes "COD XXX" <+: l) (h3 : l.length = 80) : main s [l] = .ok l := by
  unfold main
  rw [C115_other s ⟨h1, h2, .inr (.inl h3.le)⟩]
  simp [main, Outcome.bind]

/-- Finding: above 9999 metres the last digit of the altitude is overwritten, and the second line ends there, without code or newline. -/
theorem C115_high {o : Obs} (h : o.Ok) {s : Site} (h1 : 0 ≤ s.lon) (h2 : s.lon ≤ 999) (h3 : |s.lat| ≤ 90) (h4 : 10000 ≤ s.alt) (h5 : s.alt ≤ 99999) :
    ∃ pre ds N, pre.length = 25 ∧ ds.length = 5 ∧ Numeral N ds ∧ |(N : ℚ) - s.alt| ≤ 1 / 2 ∧
      line (some s) (o.text o.note o.c o.x "XXX") = .ok (some s, o.text 86 o.c o.x "247" ++ (o.a ++ 118 :: (o.b ++ (pre ++ (ds.take 4 ++ [32]))))) := by
  obtain ⟨p1, p2, -⟩ := place_parts (s := ⟨s.lat, s.lon, 0⟩) ⟨h1, h2, h3, by norm_num, by norm_num⟩
  have hx : ¬s.alt < 0 := by linarith
  obtain ⟨N, -, ⟨a, f, ha, hf, e⟩, hn⟩ := fmtFixed_written 0 s.alt
  rw [abs_of_nonneg (not_lt.1 hx), pow_zero, mul_one] at hn
  rw [pow_zero, Nat.div_one] at ha
  have hf0 : f = [] := by simpa using frac_spec hf
  rw [decide_eq_false hx, hf0] at e
  simp only [Bool.false_eq_true, if_false, List.nil_append, List.append_nil] at e
  obtain ⟨u1, u2⟩ := abs_le.1 hn
  have n1 : 9999 < N := by
    have : ((9999 : Nat) : ℚ) < N := by push_cast; linarith
    exact_mod_cast this
  have n2 : N < 10 ^ (4 + 1) := by
    have : (N : ℚ) < 100000 := by linarith
    have : N < 100000 := by exact_mod_cast this
    omega
  have l2 := dec_length_le n2
  rw [← ha.eq_dec] at l2
  have l1 : 5 ≤ a.length := by
    by_contra hl
    have v := value_cons_lt ha.digits
    rw [ha.value] at v
    have : 10 ^ a.length ≤ 10 ^ 4 := Nat.pow_le_pow_right (by decide) (by omega)
    omega
  have len : a.length = 5 := by omega
  have hfields : fields s = (bytes "1 " ++ wide 9 (Time.fmtFixed 5 s.lon) ++ bytes "  " ++ wide 9 (plus s.lat) ++ bytes "   ") ++ a := by
    unfold fields
    rw [e]
    congr 1
    unfold wide
    rw [len]
    rfl
  have hpre : (bytes "1 " ++ wide 9 (Time.fmtFixed 5 s.lon) ++ bytes "  " ++ wide 9 (plus s.lat) ++ bytes "   ").length = 25 := by
    simp only [List.length_append, wide_len p1, wide_len p2]
    decide
  have hz := fields_nul s
  rw [hfields] at hz
  refine ⟨_, a, N, hpre, len, ha, hn, ?_⟩
  generalize bytes "1 " ++ wide 9 (Time.fmtFixed 5 s.lon) ++ bytes "  " ++ wide 9 (plus s.lat) ++ bytes "   " = pre at *
  obtain ⟨z1, z2, z3, z4, z5, z6⟩ := text_nul h
  rw [obs_line h]
  unfold observation
  have hlen : (fields s).length = 30 := by rw [hfields, List.length_append, hpre, len]
  simp only
  rw [if_neg (by rw [hlen]; decide)]
  have hfirst : 0 ∉ o.text 86 o.c o.x "247" := by
    unfold Obs.text
    simp only [List.mem_append, List.mem_cons, not_or]
    exact ⟨z1, by decide, z2, z3, z4, z5, by decide, z6⟩
  unfold second
  rw [second_start h, hlen, first_text h, cstr_line hfirst, hfields]
  generalize (o.c ++ o.x :: (o.d ++ (bytes "247" ++ (o.e ++ [0])))).drop (30 + 1) = rest
  obtain ⟨b4, x, rfl, hb⟩ : ∃ b4 x, a = b4 ++ [x] ∧ b4.length = 4 := by
    refine ⟨a.take 4, a.getD 4 0, ?_, by simp [len]⟩
    match a, len with
    | [a, b, c, d, e], _ => rfl
  have hput : put (o.a ++ 118 :: (o.b ++ (pre ++ (b4 ++ [x]) ++ 0 :: rest))) 61 [32] = (o.a ++ 118 :: (o.b ++ (pre ++ (b4 ++ [32])))) ++ 0 :: rest := by
    have := put_mid (p := o.a ++ 118 :: (o.b ++ (pre ++ b4))) (q := [x]) (t := [32]) (r := 0 :: rest) rfl
    rw [show (o.a ++ 118 :: (o.b ++ (pre ++ b4))).length = 61 by simp [h.a, h.b, hpre, hb]] at this
    simpa using this
  have hnul : 0 ∉ o.a ++ 118 :: (o.b ++ (pre ++ (b4 ++ [32]))) := by
    simp only [List.mem_append, List.mem_cons, not_or] at hz ⊢
    exact ⟨z1, by decide, z2, hz.1, hz.2.1, by simp⟩
  rw [hput, cstr_line hnul, ← hb, List.take_left]
  rfl

/-! ## Examples -/

def sampleObs : Obs :=
  ⟨bytes "     K14A00A  ", 67, bytes "2014 01 02.12345 ", bytes " 01 02 03.45 +06 07 08.9     ", 32, bytes "        18.1 V ", bytes "\n"⟩

theorem sample_rover : sampleObs.Ok where
  a := rfl
  b := rfl
  c := rfl
  d := rfl
  e := ⟨10, [], rfl, .inl (by decide)⟩
  nul := by decide
  com := by decide
  cod := by decide

def samplePlace : List Nat := bytes "COM Long. 239 18 45 E, Lat. 33 54 11 N, Alt. 100m, Google Earth\n"

theorem sample_located : Located samplePlace (33 + 54 / 60 + 11 / 3600, 239 + 18 / 60 + 45 / 3600, 100) := by
  have fig : ∀ (s : List Nat) (d : List Nat), s = List.replicate 1 32 ++ d → AllDigits d → d ≠ [] → value d < 2 ^ 31 → Spec.Figure s (value d) true :=
    fun s d e h1 h2 h3 => e ▸ .whole h1 h2 h3
  have h1 : Angle (bytes " 239 18 45") (239 + 18 / 60 + 45 / 3600) 3 :=
    .seconds (b := bytes "18") (c := bytes "45") (fig _ (bytes "239") rfl (sample_digits rfl) (by decide) (by decide))
      (fig _ (bytes "18") rfl (sample_digits rfl) (by decide) (by decide)) (by norm_num)
      (fig _ (bytes "45") rfl (sample_digits rfl) (by decide) (by decide)) (by norm_num)
  have h2 : Angle (bytes " 33 54 11") (33 + 54 / 60 + 11 / 3600) 3 :=
    .seconds (b := bytes "54") (c := bytes "11") (fig _ (bytes "33") rfl (sample_digits rfl) (by decide) (by decide))
      (fig _ (bytes "54") rfl (sample_digits rfl) (by decide) (by decide)) (by norm_num)
      (fig _ (bytes "11") rfl (sample_digits rfl) (by decide) (by decide)) (by norm_num)
  have h3 : Spec.Figure (bytes " 100") 100 true := fig _ (bytes "100") rfl (sample_digits rfl) (by decide) (by decide)
  refine ⟨_, _, _, bytes ", Lat. 33 54 11 N, Alt. 100m, Google Earth\n", bytes ", Alt. 100m, Google Earth\n", bytes "m, Google Earth\n", 69, 78, _, _, 1, 1, false,
    false, true, _, _, h1, .east (.inr rfl), h2, .north (.inr rfl), h3, ⟨by decide, by decide, by decide, by decide⟩, rfl,
    ⟨bytes "COM Long. 239 18 45 E, ", rfl, by decide, by decide⟩, ⟨bytes "COM Long. 239 18 45 E, Lat. 33 54 11 N, ", rfl, by decide, by decide⟩, ?_, ?_⟩
  · simp [Spec.signed]
  · simp [Spec.signed, turn]; norm_num

/-- `C115_file`: a header, a place and an observation. -/
example : Good Located none [bytes "COD XXX" ++ bytes "\n", samplePlace, sampleObs.text sampleObs.note sampleObs.c sampleObs.x "XXX"] :=
  .code (.place sample_located (.inl (by decide)) (.obs sample_rover ⟨by norm_num, by norm_num, by rw [abs_of_pos (by norm_num)]; norm_num, by norm_num, by norm_num⟩ (.done _)))

/-- `C115_high`: Mauna Kea has 4200 metres, an aeroplane 12000; the line ends in "1200 ". -/
example := C115_high sample_rover (s := ⟨20, 204, 12000⟩) (by norm_num) (by norm_num) (by rw [abs_of_pos (by norm_num)]; norm_num) (by norm_num) (by norm_num)

end Verif.Props
