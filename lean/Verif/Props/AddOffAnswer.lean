import Verif.Props.AddOffAsk

/-!
# Lemmas for C97: when all questions are answered
-/

namespace Verif.Props

open Verif Verif.Spec Verif.AddOff

/-- The Julian Date of a number of millionths of a day. -/
def dateOf (n : Nat) : ℚ := (n : ℚ) / 10 ^ 6 + 4800001 / 2

/-- From the launch of the Hubble Space Telescope to the end of the year 2099. -/
def Current (jd : ℚ) : Prop := launch + 1 / 1000000 < jd ∧ jd < 2488069

/-- The service answers: every time in the command has its state in the answer, and the first coordinate is not zero. -/
def Answers (ask : Nat → List Nat → Option (List Entry)) : Prop :=
  ∀ k u, ∃ es, ask k u = some es ∧ (∀ e ∈ es, launch < e.jd ∧ e.jd < 2451545 + 36525 ∧ e.pos.x ≠ 0) ∧
    ∀ n, launch < dateOf n → dateOf n < 2488069 + 1 / 2 → timeText (dateOf n) <:+: u → ∃ e ∈ es, |e.jd - dateOf n| ≤ 1 / 1000000

/-- There are services that do. -/
example : ∃ ask, Answers ask := by
  classical
  refine ⟨fun _ u => some (((List.range (10 ^ 11)).filter fun n => decide (launch < dateOf n ∧ dateOf n < 2488069 + 1 / 2 ∧ timeText (dateOf n) <:+: u)).map
    fun n => ⟨dateOf n, ⟨1, 2, 3⟩, ⟨0, 0, 0⟩⟩), fun k u => ⟨_, rfl, ?_, ?_⟩⟩
  · intro e he
    obtain ⟨n, hn, rfl⟩ := List.mem_map.1 he
    have := (List.mem_filter.1 hn).2
    simp only [decide_eq_true_eq] at this
    exact ⟨this.1, by have := this.2.1; simp only; linarith, by simp⟩
  · intro n h1 h2 h3
    refine ⟨⟨dateOf n, ⟨1, 2, 3⟩, ⟨0, 0, 0⟩⟩, List.mem_map.2 ⟨n, List.mem_filter.2 ⟨List.mem_range.2 ?_, by simp only [decide_eq_true_eq]; exact ⟨h1, h2, h3⟩⟩, rfl⟩, by simp⟩
    unfold dateOf at h2
    have : (n : ℚ) < ((10 ^ 11 : Nat) : ℚ) := by
      push_cast
      linarith
    exact_mod_cast this

theorem roundEven_nat (n : Nat) : Time.roundEven (n : ℚ) = n := by
  unfold Time.roundEven
  simp

/-- The text of a time is that of the nearest millionth of a day. -/
theorem time_near {jd : ℚ} (h : launch < jd) : ∃ n, timeText jd = timeText (dateOf n) ∧ |dateOf n - jd| ≤ 1 / 2000000 := by
  have hx : 0 ≤ jd - 4800001 / 2 := by unfold launch at h; linarith
  refine ⟨units 6 (jd - 4800001 / 2), ?_, ?_⟩
  · have e : dateOf (units 6 (jd - 4800001 / 2)) - 4800001 / 2 = (units 6 (jd - 4800001 / 2) : ℚ) / 10 ^ 6 := by unfold dateOf; ring
    have e2 : units 6 ((units 6 (jd - 4800001 / 2) : ℚ) / 10 ^ 6) = units 6 (jd - 4800001 / 2) := by
      conv_lhs => unfold units
      rw [div_mul_cancel₀ _ (by norm_num : (10 : ℚ) ^ 6 ≠ 0)]
      rw [show (Time.roundEven (((Time.roundEven ((jd - 4800001 / 2) * 10 ^ 6)).toNat : Nat) : ℚ)) = ((Time.roundEven ((jd - 4800001 / 2) * 10 ^ 6)).toNat : Nat) from
        roundEven_nat _]
      rfl
    unfold timeText
    rw [e, fixed_text (by norm_num) hx, fixed_text (by norm_num) (by positivity), e2]
  · have near := units_near 6 hx
    have e : dateOf (units 6 (jd - 4800001 / 2)) - jd = ((units 6 (jd - 4800001 / 2) : ℚ) - (jd - 4800001 / 2) * 10 ^ 6) / 10 ^ 6 := by
      unfold dateOf
      field_simp
      ring
    rw [e, abs_div, abs_of_pos (by norm_num : (0 : ℚ) < 10 ^ 6), div_le_iff₀ (by norm_num)]
    norm_num at near ⊢
    exact near

theorem idx_length (c : List Nat) : (decInt (horizonsIdx c)).length ≤ 8 := by
  have all : ∀ e ∈ xrefs, (decInt e.2).length ≤ 8 := by decide +kernel
  unfold horizonsIdx
  cases h : xrefs.find? fun e => e.1 == c.take 3 with
  | none => decide +kernel
  | some e => exact all e (List.mem_of_find?_eq_some h)

theorem start_length (verbose : Bool) (c : List Nat) : (cmdStart verbose (horizonsIdx c)).length ≤ 300 := by
  have h := idx_length c
  have h1 : (bytes "curl -s -o /tmp/add_off.txt ").length = 28 := by decide +kernel
  have h2 : (bytes "-q ").length = 3 := by decide +kernel
  have h3 : (bytes "\"https://ssd.jpl.nasa.gov/horizons_batch.cgi?batch=1&COMMAND='").length ≤ 100 := by decide +kernel
  have h4 : (bytes "'&REF_PLANE='FRAME'&OBJ_DATA='NO'&TABLE_TYPE='V'&TLIST=").length ≤ 100 := by decide +kernel
  have h5 : (if verbose = true then [] else bytes "-q ").length ≤ 3 := by cases verbose <;> simp [h2]
  unfold cmdStart
  simp only [List.length_append, h1]
  omega

theorem end_length : cmdEnd.length = 30 := by decide +kernel

/-- A record that has kept its code, and whose position is not set or set. -/
structure Ready (r0 r : Rec) : Prop where
  jd : r.jd = r0.jd
  orig : r.orig = r0.orig
  code : r.code = r0.code
  xyz : r.xyz = .zero ∨ r.xyz.x ≠ 0

theorem store_ready {r0 r : Rec} {first : List Nat} {e : Entry} (h : Ready r0 r) (he : e.pos.x ≠ 0) : Ready r0 (store first e r) := by
  unfold store
  split_ifs
  · exact ⟨h.jd, h.orig, h.code, Or.inr he⟩
  · exact h

theorem store_keeps {r : Rec} {first : List Nat} {e : Entry} (h : r.xyz.x ≠ 0) : store first e r = r := by
  unfold store
  rw [if_neg]
  rintro ⟨-, -, h3⟩
  rw [h3] at h
  exact h rfl

theorem stored_keeps {r : Rec} {first : List Nat} {es : List Entry} (h : r.xyz.x ≠ 0) : storedIn first es r = r := by
  unfold storedIn
  induction es with
  | nil => rfl
  | cons e es ih => rw [List.foldl_cons, store_keeps h, ih]

theorem stored_ready {r0 r : Rec} {first : List Nat} {es : List Entry} (h : Ready r0 r) (he : ∀ e ∈ es, e.pos.x ≠ 0) : Ready r0 (storedIn first es r) := by
  unfold storedIn
  induction es generalizing r with
  | nil => exact h
  | cons e es ih => exact ih (store_ready h (he e (by simp))) fun x hx => he x (by simp [hx])

theorem stored_set {r0 r : Rec} {first : List Nat} {es : List Entry} (h : Ready r0 r) (he : ∀ e ∈ es, e.pos.x ≠ 0) (hc : r.code = first)
    (ht : ∃ e ∈ es, |r.jd - e.jd| < tolerance) : (storedIn first es r).xyz.x ≠ 0 := by
  rcases h.xyz with hz | hx
  swap
  · rw [stored_keeps hx]; exact hx
  obtain ⟨e, hm, hd⟩ := ht
  induction es with
  | nil => simp at hm
  | cons a es ih =>
    by_cases ha : |r.jd - a.jd| < tolerance
    · have : store first a r = { r with xyz := a.pos, vel := a.vel } := by
        unfold store
        rw [if_pos ⟨hc, ha, hz⟩]
      have e1 : storedIn first (a :: es) r = storedIn first es (store first a r) := rfl
      have hx : (store first a r).xyz.x ≠ 0 := by rw [this]; exact he a (by simp)
      rw [e1, stored_keeps hx]
      exact hx
    · have : store first a r = r := by
        unfold store
        rw [if_neg (by rintro ⟨-, h2, -⟩; exact ha h2)]
      have e1 : storedIn first (a :: es) r = storedIn first es r := by
        show storedIn first es (store first a r) = _
        rw [this]
      rw [e1]
      apply ih (fun x hx => he x (by simp [hx]))
      rcases List.mem_cons.1 hm with rfl | hm
      · exact absurd hd ha
      · exact hm

/-- One call when the service answers. -/
theorem setOffsets_ready {verbose : Bool} {ask : Nat → List Nat → Option (List Entry)} (ha : Answers ask) {k : Nat} {r0 : Rec} {r0s : List Rec} {r : Rec}
    {rs : List Rec} (h : List.Forall₂ Ready (r0 :: r0s) (r :: rs))
    (ht : ∀ x ∈ r0 :: r0s, horizonsIdx x.code ≠ 0 → Current x.jd) :
    ∃ r' rs', setOffsets verbose (ask k) (r :: rs) = .ok (r' :: rs') ∧ List.Forall₂ Ready (r0 :: r0s) (r' :: rs') ∧ r'.xyz.x ≠ 0 := by
  unfold setOffsets
  rw [List.head?_cons, Option.map_some, Option.getD_some]
  unfold offsetsFor
  by_cases hf : horizonsIdx r.code = 0
  · rw [if_pos hf]
    refine ⟨_, _, rfl, ?_, ?_⟩
    · have : List.Forall₂ Ready (r0 :: r0s) ((r :: rs).map fun x => if x.code = r.code then { x with xyz := { x.xyz with x := -1 / 10 } } else x) := by
        rw [List.forall₂_map_right_iff]
        refine h.imp fun a b hab => ?_
        split_ifs
        · exact ⟨hab.jd, hab.orig, hab.code, Or.inr (by norm_num)⟩
        · exact hab
      exact this
    · simp
  · rw [if_neg hf]
    have hcur : ∀ x ∈ r :: rs, x.code = r.code → Current x.jd := by
      intro x hx hc
      have key : ∀ {l m : List Rec}, List.Forall₂ Ready l m → x ∈ m → ∃ y ∈ l, Ready y x := by
        intro l m hlm hxm
        induction hlm with
        | nil => simp at hxm
        | @cons a b l m hab _ ih =>
          rcases List.mem_cons.1 hxm with rfl | hxm
          · exact ⟨a, by simp, hab⟩
          · obtain ⟨y, hy, hr⟩ := ih hxm
            exact ⟨y, by simp [hy], hr⟩
      obtain ⟨y, hy, hyx⟩ := key h hx
      rw [hyx.jd]
      exact ht y hy (by rw [← hyx.code, hc]; exact hf)
    obtain ⟨u, n, hg, hl, hp, -, hn2, hn1, htext⟩ := gather_ok (first := r.code) (r :: rs)
      (fun x hx hc => ⟨by have := (hcur x hx hc).1; linarith, by have := (hcur x hx hc).2; linarith⟩) 0 (cmdStart verbose (horizonsIdx r.code))
      (by have := start_length verbose r.code; omega)
    have hn1 := hn1 (by have := start_length verbose r.code; omega) (by simp)
    rw [hg, Outcome.bind]
    simp only
    unfold cat
    rw [if_neg (by rw [end_length]; omega), Outcome.bind]
    obtain ⟨es, hes, hrange, hans⟩ := ha k (u ++ cmdEnd)
    rw [hes, Option.getD_some, storeAll_eq _ fun e he => ⟨(hrange e he).1, (hrange e he).2.1⟩, Outcome.bind]
    have hpos : ∀ e ∈ es, e.pos.x ≠ 0 := fun e he => (hrange e he).2.2
    -- every record asked for has its position
    have hset : ∀ x ∈ (r :: rs).take n, ∀ y, Ready y x → x.code = r.code → (storedIn r.code es x).xyz.x ≠ 0 := by
      intro x hx y hyx hc
      obtain ⟨j, hj, rfl⟩ := List.mem_iff_getElem.1 hx
      have hj' : j < n ∧ j < (r :: rs).length := by simp at hj; simp; omega
      have hget : (r :: rs)[j]? = some ((r :: rs).take n)[j] := by
        rw [List.getElem_take, List.getElem?_eq_getElem hj'.2]
      have hmem : ((r :: rs).take n)[j] ∈ r :: rs := List.mem_of_mem_take (List.getElem_mem hj)
      have cur := hcur _ hmem hc
      have inf := (htext j _ hget (by omega) hc).trans (List.prefix_append u cmdEnd).isInfix
      obtain ⟨m, hm, hnear⟩ := time_near (jd := ((r :: rs).take n)[j].jd) (by have := cur.1; linarith)
      have near := abs_le.1 hnear
      have c1 := cur.1
      have c2 := cur.2
      obtain ⟨e, he, hed⟩ := hans m (by linarith) (by linarith) (by rw [← hm]; exact inf)
      have hed := abs_le.1 hed
      refine stored_set hyx hpos hc ⟨e, he, ?_⟩
      unfold tolerance
      rw [abs_lt]
      constructor <;> linarith
    have s1 : List.Forall₂ Ready (r0 :: r0s) (((r :: rs).take n).map (storedIn r.code es) ++ (r :: rs).drop n) := by
      conv_lhs => rw [← List.take_append_drop n (r0 :: r0s)]
      refine List.rel_append ?_ (List.forall₂_drop n h)
      rw [List.forall₂_map_right_iff]
      exact (List.forall₂_take n h).imp fun a b hab => stored_ready hab hpos
    obtain ⟨n', rfl⟩ : ∃ n', n = n' + 1 := ⟨n - 1, by omega⟩
    have keep : (((((r :: rs).take (n' + 1)).map (storedIn r.code es) ++ (r :: rs).drop (n' + 1)).take (n' + 1)).drop 1).map (giveUp r.code) =
        ((((r :: rs).take (n' + 1)).map (storedIn r.code es) ++ (r :: rs).drop (n' + 1)).take (n' + 1)).drop 1 := by
      have hlen : (((r :: rs).take (n' + 1)).map (storedIn r.code es)).length = n' + 1 := by
        rw [List.length_map, List.length_take]
        omega
      rw [List.take_left' hlen]
      conv_rhs => rw [← List.map_id ((((r :: rs).take (n' + 1)).map (storedIn r.code es)).drop 1)]
      apply List.map_congr_left
      intro x hx
      obtain ⟨y, hy, rfl⟩ := List.mem_map.1 (List.mem_of_mem_drop hx)
      unfold giveUp
      by_cases hc : (storedIn r.code es y).code = r.code ∧ (storedIn r.code es y).xyz.x = 0
      · exfalso
        have key : ∀ {l m : List Rec}, List.Forall₂ Ready l m → y ∈ m → ∃ z ∈ l, Ready z y := by
          intro l m hlm hxm
          induction hlm with
          | nil => simp at hxm
          | @cons a b l m hab _ ih =>
            rcases List.mem_cons.1 hxm with rfl | hxm
            · exact ⟨a, by simp, hab⟩
            · obtain ⟨y, hy, hr⟩ := ih hxm
              exact ⟨y, by simp [hy], hr⟩
        obtain ⟨z, -, hz⟩ := key h (List.mem_of_mem_take hy)
        have hcode : y.code = r.code := by
          rw [hz.code, ← (stored_ready (first := r.code) hz hpos).code]
          exact hc.1
        exact hset y hy z hz hcode hc.2
      · rw [if_neg hc]
        rfl
    rw [keep, parts]
    refine ⟨_, _, rfl, ?_, ?_⟩
    · simpa using s1
    · exact hset r (by simp) r0 (by cases h; assumption) rfl

theorem fill_ready {verbose : Bool} {ask : Nat → List Nat → Option (List Entry)} (ha : Answers ask) {r0s rs : List Rec} (k : Nat)
    (h : List.Forall₂ Ready r0s rs) (hn : ∀ r ∈ r0s, r.code ≠ []) (ht : ∀ r ∈ r0s, horizonsIdx r.code ≠ 0 → Current r.jd) :
    ∃ rs', fill verbose ask rs.length k rs = .ok rs' ∧ List.Forall₂ (fun r0 r => Ready r0 r ∧ r.xyz.x ≠ 0) r0s rs' := by
  induction r0s generalizing rs k with
  | nil =>
    cases h
    exact ⟨[], rfl, .nil⟩
  | cons r0 r0s ih =>
    cases h with
    | @cons _ r _ rs hr hrs =>
      have hc : r.code ≠ [] := by rw [hr.code]; exact hn r0 (by simp)
      obtain ⟨r', rs', he, hall, hx⟩ : ∃ r' rs', (if r.xyz.x = 0 ∧ r.code ≠ [] then setOffsets verbose (ask k) (r :: rs) else .ok (r :: rs)) = .ok (r' :: rs') ∧
          List.Forall₂ Ready (r0 :: r0s) (r' :: rs') ∧ r'.xyz.x ≠ 0 := by
        by_cases h0 : r.xyz.x = 0
        · rw [if_pos ⟨h0, hc⟩]
          exact setOffsets_ready ha (.cons hr hrs) ht
        · rw [if_neg (fun h => h0 h.1)]
          exact ⟨r, rs, rfl, .cons hr hrs, h0⟩
      cases hall with
      | cons hr' hrs' =>
        have hl : rs.length = rs'.length := by rw [← hrs.length_eq, hrs'.length_eq]
        obtain ⟨t, ht', hf⟩ := ih (rs := rs') (k + 1) hrs' (fun x hx => hn x (by simp [hx])) fun x hx => ht x (by simp [hx])
        refine ⟨r' :: t, ?_, .cons ⟨hr', hx⟩ hf⟩
        rw [List.length_cons, fill, he, Outcome.bind]
        simp only [List.drop_succ_cons, List.drop_zero, hl, ht', Outcome.bind]
        rfl

end Verif.Props
