import Verif.Props.AddOffAnswer

/-!
# Property theorems: positions of spacecraft added to a file of observations (C97)
-/

namespace Verif.Props

open Verif Verif.Spec Verif.AddOff

/-! ## The speeds -/

theorem signed_text {x : ℚ} (h : |x| ≤ 9999) : SpeedText x (signed13 x) := by
  have hd := numeral_dec (units 7 |x| / 10 ^ 7)
  have hm : units 7 |x| % 10 ^ 7 < 10 ^ 7 := Nat.mod_lt _ (by positivity)
  have hf := padded_pad hm (by norm_num)
  have near := units_near 7 (abs_nonneg x)
  have lt : units 7 |x| < 10 ^ 11 := by
    have : (units 7 |x| : ℚ) < ((10 ^ 11 : Nat) : ℚ) := by
      have := (abs_le.1 near).2
      push_cast
      linarith
    exact_mod_cast this
  have hq : units 7 |x| / 10 ^ 7 < 10 ^ (3 + 1) := by
    apply Nat.div_lt_of_lt_mul
    rw [← pow_add]
    exact lt
  have hl := dec_length_le hq
  have text : Time.fmtFixed 7 x = (if x < 0 then [45] else []) ++ (dec (units 7 |x| / 10 ^ 7) ++ 46 :: pad 7 (units 7 |x| % 10 ^ 7)) := by
    unfold Time.fmtFixed units
    simp
  have full : (if at? (Time.fmtFixed 7 x) 0 = 45 then Time.fmtFixed 7 x else 43 :: Time.fmtFixed 7 x) =
      (if x < 0 then 45 else 43) :: (dec (units 7 |x| / 10 ^ 7) ++ 46 :: pad 7 (units 7 |x| % 10 ^ 7)) := by
    rw [text]
    by_cases hx : x < 0
    · simp [hx, at?]
    · have h0 : at? (dec (units 7 |x| / 10 ^ 7) ++ 46 :: pad 7 (units 7 |x| % 10 ^ 7)) 0 ≠ 45 := by
        have := digits_head (rest := 46 :: pad 7 (units 7 |x| % 10 ^ 7)) hd.digits hd.nonempty
        omega
      simp only [hx, if_false, List.nil_append]
      rw [if_neg h0]
  refine ⟨13 - ((if x < 0 then 45 else 43) :: (dec (units 7 |x| / 10 ^ 7) ++ 46 :: pad 7 (units 7 |x| % 10 ^ 7))).length, dec (units 7 |x| / 10 ^ 7),
    pad 7 (units 7 |x| % 10 ^ 7), ?_, ?_, hd.digits, hd.nonempty, hf.digits, hf.width, ?_⟩
  · unfold signed13
    simp only
    rw [full]
  · unfold signed13
    simp only
    rw [full, List.length_append, List.length_replicate]
    simp only [List.length_cons, List.length_append, hf.width]
    omega
  · rw [value_append, hd.value, hf.value, hf.width, Nat.div_add_mod']
    rw [show (units 7 |x| : ℚ) / 10 ^ 7 - |x| = ((units 7 |x| : ℚ) - |x| * 10 ^ 7) / 10 ^ 7 by field_simp, abs_div, abs_of_pos (by norm_num : (0 : ℚ) < 10 ^ 7)]
    exact div_le_div_of_nonneg_right near (by norm_num)

theorem codeOf_length {l : List Nat} (h : 80 < l.length) : (codeOf l).length = 3 := by
  unfold codeOf
  simp
  omega

theorem velLine_ok {l : List Nat} {r : Rec} (h : 80 < l.length) (hc : r.code = codeOf l) (hx : |r.vel.x| ≤ 9999) (hy : |r.vel.y| ≤ 9999)
    (hz : |r.vel.z| ≤ 9999) : ∃ v, AddOff.velLine l r = .ok v ∧ SpeedLine l r.vel.x r.vel.y r.vel.z v := by
  have sx := signed_text hx
  have sy := signed_text hy
  have sz := signed_text hz
  have lx : (signed13 r.vel.x).length = 13 := by obtain ⟨_, _, _, _, h, _⟩ := sx; exact h
  have ly : (signed13 r.vel.y).length = 13 := by obtain ⟨_, _, _, _, h, _⟩ := sy; exact h
  have lz : (signed13 r.vel.z).length = 13 := by obtain ⟨_, _, _, _, h, _⟩ := sz; exact h
  have lb : (bytes "COM vel (km/s) ").length = 15 := by decide +kernel
  have lc := codeOf_length h
  refine ⟨_, ?_, signed13 r.vel.x, signed13 r.vel.y, signed13 r.vel.z, sx, sy, sz, rfl⟩
  unfold AddOff.velLine
  simp only
  rw [hc, if_neg]
  · rfl
  · simp only [List.length_append, List.length_cons, lx, ly, lz, lb, lc, List.length_take, List.length_drop, List.length_nil]
    omega

/-! ## Lines -/

/-- No line names a station as ADES files do. -/
def CardFile (file : List (List Nat)) : Prop := ∀ l ∈ file, ¬ bytes "<stn>" <:+: l

/-- The date of a line in dynamical time. -/
def when_ (date : List Nat → ℚ) (dt : ℚ → ℚ) (l : List Nat) : ℚ := date l + dt (date l) / 86400

/-- A card of a spacecraft with the letter given, not before 1990 April 24. -/
def Dated (date : List Nat → ℚ) (letter : Nat) (l : List Nat) : Prop := CardWith letter l ∧ launch ≤ date l

theorem satObsJd_card {date : List Nat → ℚ} {dt : ℚ → ℚ} {l : List Nat} (h : ¬ bytes "<stn>" <:+: l) :
    satObsJd date dt [] l = .ok (if 80 < l.length ∧ (at? l 14 = 83 ∨ at? l 14 = 115) ∧ launch ≤ date l then when_ date dt l else 0, []) := by
  have hp : launch > 0 := by unfold launch; norm_num
  unfold satObsJd
  rw [(findSub_none _ _).2 h]
  simp only [ne_eq, not_true_eq_false, and_false, if_false]
  by_cases h1 : l.length > 80 ∧ (at? l 14 = 83 ∨ at? l 14 = 115)
  · rw [if_pos h1]
    by_cases h2 : launch ≤ date l
    · rw [if_neg (not_lt.2 h2), if_pos ⟨h1.1, h1.2, h2⟩]
      rfl
    · rw [if_pos (not_le.1 h2), if_neg (fun h => h2 h.2.2)]
  · rw [if_neg h1, if_pos hp, if_neg (fun h => h1 ⟨h.1, h.2.1⟩)]

/-- The date and the code of an observation. -/
noncomputable def obs (date : List Nat → ℚ) (dt : ℚ → ℚ) (l : List Nat) : Option (ℚ × List Nat) :=
  open Classical in if Dated date 83 l then some (when_ date dt l, codeOf l) else none

/-- A record as it is before positions are asked for. -/
structure Fresh (o : ℚ × List Nat) (r : Rec) : Prop where
  jd : r.jd = o.1
  code : r.code = o.2
  xyz : r.xyz = .zero
  vel : r.vel = .zero

theorem when_pos {date : List Nat → ℚ} {dt : ℚ → ℚ} (hdt : ∀ x, 1 ≤ dt x) {l : List Nat} (h : launch ≤ date l) : launch + 1 / 1000000 < when_ date dt l := by
  have := hdt (date l)
  unfold when_
  linarith

theorem noteLine_card {date : List Nat → ℚ} {dt : ℚ → ℚ} (hdt : ∀ x, 1 ≤ dt x) {l : List Nat} (h : ¬ bytes "<stn>" <:+: l) {os : List (ℚ × List Nat)}
    {rs : List Rec} (hr : List.Forall₂ Fresh os rs) :
    ∃ rs', noteLine date dt rs [] l = .ok (rs', []) ∧ List.Forall₂ Fresh (os ++ (obs date dt l).toList) rs' := by
  classical
  unfold noteLine
  rw [satObsJd_card h, Outcome.bind]
  simp only
  by_cases hd : 80 < l.length ∧ (at? l 14 = 83 ∨ at? l 14 = 115) ∧ launch ≤ date l
  · rw [if_pos hd]
    have pos := when_pos hdt hd.2.2
    have hl : launch > 0 := by unfold launch; norm_num
    rw [if_neg (by linarith)]
    rcases hd.2.1 with h83 | h115
    · have ho : obs date dt l = some (when_ date dt l, codeOf l) := by
        unfold obs
        rw [if_pos]
        exact ⟨⟨hd.1, h83⟩, hd.2.2⟩
      rw [if_pos (Or.inl h83), ho]
      refine ⟨_, rfl, List.rel_append hr (.cons ⟨rfl, ?_, rfl, rfl⟩ .nil)⟩
      simp [codeOf]
    · have ho : obs date dt l = none := by
        unfold obs
        rw [if_neg]
        rintro ⟨⟨-, h83⟩, -⟩
        unfold at? at h115
        omega
      rw [if_neg (by simp [h115]), ho]
      simp only [Option.toList_none, List.append_nil]
      split_ifs with hlast
      · refine ⟨_, rfl, ?_⟩
        cases hg : rs.getLast? with
        | none => rw [hg] at hlast; simp at hlast
        | some r =>
          obtain ⟨t, rfl⟩ := List.getLast?_eq_some_iff.1 hg
          have h1 := List.forall₂_take t.length hr
          have h2 := List.forall₂_drop t.length hr
          rw [List.take_left] at h1
          rw [List.drop_left] at h2
          simp only [List.dropLast_concat, Option.map_some, Option.toList_some]
          rw [← List.take_append_drop t.length os]
          refine List.rel_append h1 ?_
          generalize os.drop t.length = os2 at h2
          cases h2 with
          | cons ha hb => exact .cons ⟨ha.jd, ha.code, ha.xyz, ha.vel⟩ hb
      · exact ⟨rs, rfl, hr⟩
  · have ho : obs date dt l = none := by
      unfold obs
      rw [if_neg]
      rintro ⟨⟨h1, h83⟩, h2⟩
      exact hd ⟨h1, Or.inl h83, h2⟩
    rw [if_neg hd, if_pos rfl, ho]
    exact ⟨rs, rfl, by simpa using hr⟩

theorem noteAll_card {date : List Nat → ℚ} {dt : ℚ → ℚ} (hdt : ∀ x, 1 ≤ dt x) {file : List (List Nat)} (h : CardFile file) {os : List (ℚ × List Nat)}
    {rs : List Rec} (hr : List.Forall₂ Fresh os rs) :
    ∃ rs', noteAll date dt file rs [] = .ok (rs', []) ∧ List.Forall₂ Fresh (os ++ file.filterMap (obs date dt)) rs' := by
  induction file generalizing os rs with
  | nil => exact ⟨rs, rfl, by simpa using hr⟩
  | cons l ls ih =>
    obtain ⟨rs1, e1, h1⟩ := noteLine_card hdt (h l (by simp)) hr
    obtain ⟨rs2, e2, h2⟩ := ih (fun x hx => h x (by simp [hx])) h1
    refine ⟨rs2, ?_, ?_⟩
    · unfold noteAll
      rw [e1, Outcome.bind]
      exact e2
    · cases ho : obs date dt l with
      | none =>
        rw [ho] at h2
        rw [List.filterMap_cons_none ho]
        simpa using h2
      | some o =>
        rw [ho] at h2
        rw [List.filterMap_cons_some ho]
        simpa using h2

theorem writeAll_of {date : List Nat → ℚ} {dt : ℚ → ℚ} {show_ : Bool} {rs : List Rec} {file : List (List Nat)} {outs : List (List (List Nat))}
    (h : List.Forall₂ (fun l out => writeLine date dt show_ rs [] l = .ok (out, [])) file outs) :
    writeAll date dt show_ rs file [] = .ok outs.flatten := by
  induction h with
  | nil => rfl
  | @cons l out file outs hl _ ih =>
    unfold writeAll
    rw [hl, Outcome.bind]
    simp only
    rw [ih, Outcome.bind]
    rfl

/-- What is written for a line that is not an observation from a spacecraft. -/
theorem writeLine_other {date : List Nat → ℚ} {dt : ℚ → ℚ} (hdt : ∀ x, 1 ≤ dt x) {show_ : Bool} {rs : List Rec} {l : List Nat} (h : ¬ bytes "<stn>" <:+: l)
    (hd : ¬ Dated date 83 l) : writeLine date dt show_ rs [] l =
      .ok (open Classical in if Dated date 115 l then [] else if posnTag l then [] else [l], []) := by
  classical
  unfold writeLine
  rw [satObsJd_card h, Outcome.bind]
  simp only
  by_cases h1 : 80 < l.length ∧ (at? l 14 = 83 ∨ at? l 14 = 115) ∧ launch ≤ date l
  · have h115 : at? l 14 = 115 := by
      rcases h1.2.1 with h83 | h115
      · exact absurd ⟨⟨h1.1, h83⟩, h1.2.2⟩ hd
      · exact h115
    have pos := when_pos hdt h1.2.2
    have hl : launch > 0 := by unfold launch; norm_num
    rw [if_pos h1, if_neg (by linarith), if_neg (by simp [h115]), if_pos ⟨⟨h1.1, h115⟩, h1.2.2⟩]
  · rw [if_neg h1, if_pos (le_refl _), if_neg (show ¬ Dated date 115 l from fun ⟨⟨a, b⟩, c⟩ => h1 ⟨a, Or.inr b, c⟩)]

/-- What is written for an observation from a spacecraft. -/
theorem writeLine_obs {date : List Nat → ℚ} {dt : ℚ → ℚ} (hdt : ∀ x, 1 ≤ dt x) {show_ : Bool} {rs : List Rec} {l : List Nat} (h : ¬ bytes "<stn>" <:+: l)
    (hd : Dated date 83 l) : writeLine date dt show_ rs [] l =
      match rs.find? fun r => r.code == codeOf l && decide (|when_ date dt l - r.jd| < tolerance) with
      | none => .ok ([l], [])
      | some r => (AddOff.velLine l r).bind fun v => (deltaLine show_ r).bind fun d => (setOffsetLine l r.xyz).bind fun s => .ok (v :: d ++ [l, s], []) := by
  have pos := when_pos hdt hd.2
  have hl : launch > 0 := by unfold launch; norm_num
  have h83 : at? l 14 = 83 := hd.1.2
  unfold writeLine
  rw [satObsJd_card h, Outcome.bind]
  simp only
  have hc : 80 < l.length ∧ (at? l 14 = 83 ∨ at? l 14 = 115) ∧ launch ≤ date l := ⟨hd.1.1, Or.inl h83, hd.2⟩
  have hn : ¬ when_ date dt l ≤ 0 := by linarith
  have hs : at? l 14 ≠ 115 ∨ ([] : List Nat) ≠ [] := Or.inl (by omega)
  rw [if_pos hc, if_neg hn, if_pos hs]
  simp only [ne_eq, not_true_eq_false, if_false]
  rfl

/-! ## The whole program -/

/-- A line with an element of ADES that tells a position. -/
def Tagged (l : List Nat) : Prop := bytes "<pos" <:+: l ∨ bytes "<vel" <:+: l ∨ bytes "<ctr>" <:+: l ∨ bytes "<sys>" <:+: l

theorem posnTag_iff (l : List Nat) : posnTag l = true ↔ Tagged l := by
  unfold posnTag Tagged
  simp only [Bool.or_eq_true, findSub_iff, or_assoc]

/-- The table has the code. -/
theorem C97_codes (c : List Nat) : horizonsIdx c ≠ 0 ↔ c.take 3 ∈ xrefs.map (·.1) := by
  have all : ∀ e ∈ xrefs, e.2 ≠ 0 := by decide +kernel
  unfold horizonsIdx
  cases h : xrefs.find? fun e => e.1 == c.take 3 with
  | none =>
    simp only [Option.map_none, Option.getD_none, ne_eq, not_true_eq_false, false_iff, List.mem_map, not_exists, not_and]
    intro e he hc
    have := List.find?_eq_none.1 h e he
    simp [hc] at this
  | some e =>
    simp only [Option.map_some, Option.getD_some]
    refine ⟨fun _ => List.mem_map.2 ⟨e, List.mem_of_find?_eq_some h, ?_⟩, fun _ => all e (List.mem_of_find?_eq_some h)⟩
    have := List.find?_some h
    simpa using this

/-- Lines that belong to an observation: the comment with the velocity, the observation, and the line of the position. -/
def Triad (l : List Nat) (pos vel : Triple) (out : List (List Nat)) : Prop :=
  ∃ v s, SpeedLine l vel.x vel.y vel.z v ∧
    PositionLine l pos.x pos.y pos.z (decide (9999999 < |pos.x| ∨ 9999999 < |pos.y| ∨ 9999999 < |pos.z|)) s ∧ out = [v, l, s]

/-- The position and velocity that the service gave for this spacecraft, for a time less than 2 seconds off. -/
def FromService (verbose : Bool) (date : List Nat → ℚ) (dt : ℚ → ℚ) (ask : Nat → List Nat → Option (List Entry)) (l : List Nat) (out : List (List Nat)) : Prop :=
  ∃ k u e, e ∈ (ask k u).getD [] ∧ cmdStart verbose (horizonsIdx (codeOf l)) <+: u ∧ |when_ date dt l - e.jd| < 2 / 100000 ∧ Triad l e.pos e.vel out

/-- What is written for a line. -/
inductive Treated (verbose : Bool) (date : List Nat → ℚ) (dt : ℚ → ℚ) (ask : Nat → List Nat → Option (List Entry)) (l : List Nat) : List (List Nat) → Prop
  /-- An observation from a spacecraft of the table. -/
  | given {out : List (List Nat)} : Dated date 83 l → horizonsIdx (codeOf l) ≠ 0 → FromService verbose date dt ask l out → Treated verbose date dt ask l out
  /-- Finding: a spacecraft that is not in the table gets a position 100 m from the centre of the Earth. -/
  | unknown {out : List (List Nat)} : Dated date 83 l → horizonsIdx (codeOf l) = 0 → Triad l ⟨-1 / 10, 0, 0⟩ .zero out → Treated verbose date dt ask l out
  /-- Finding: no position was given, and the line says the centre of the Earth. -/
  | zero {out : List (List Nat)} : Dated date 83 l → Triad l .zero .zero out → Treated verbose date dt ask l out
  /-- No position was given, and there is no line for it. -/
  | bare : Dated date 83 l → Treated verbose date dt ask l [l]
  /-- A position that was in the file is left out. -/
  | old : Dated date 115 l → Treated verbose date dt ask l []
  /-- So is a position in ADES. -/
  | tag : ¬ Dated date 83 l → ¬ Dated date 115 l → Tagged l → Treated verbose date dt ask l []
  /-- All other lines are kept. -/
  | other : ¬ Dated date 83 l → ¬ Dated date 115 l → ¬ Tagged l → Treated verbose date dt ask l [l]

/-- Answers that do not stop the program: dates from 1990 to 2099, and numbers that fit. -/
def Sane (ask : Nat → List Nat → Option (List Entry)) : Prop :=
  ∀ k u e, e ∈ (ask k u).getD [] → launch < e.jd ∧ e.jd < 2451545 + 36525 ∧ |e.pos.x| < farthest ∧ |e.pos.y| < farthest ∧ |e.pos.z| < farthest ∧
    |e.vel.x| ≤ 9999 ∧ |e.vel.y| ≤ 9999 ∧ |e.vel.z| ≤ 9999

/-- What follows when all questions are answered: the position that the service gave, or (finding) a position 100 m from the centre of
    the Earth for a spacecraft that is not in the table. -/
def Followed (verbose : Bool) (date : List Nat → ℚ) (dt : ℚ → ℚ) (ask : Nat → List Nat → Option (List Entry)) (l : List Nat) (out : List (List Nat)) : Prop :=
  (horizonsIdx (codeOf l) ≠ 0 → FromService verbose date dt ask l out) ∧ (horizonsIdx (codeOf l) = 0 → Triad l ⟨-1 / 10, 0, 0⟩ .zero out)

theorem far_zero : (0 : ℚ) < farthest := by unfold farthest kmPerAu; norm_num

theorem triad_of {l : List Nat} {r : Rec} (hl : 80 < l.length) (hc : r.code = codeOf l) (px : |r.xyz.x| < farthest) (py : |r.xyz.y| < farthest)
    (pz : |r.xyz.z| < farthest) (vx : |r.vel.x| ≤ 9999) (vy : |r.vel.y| ≤ 9999) (vz : |r.vel.z| ≤ 9999) :
    ∃ out, ((AddOff.velLine l r).bind fun v => (deltaLine false r).bind fun d => (setOffsetLine l r.xyz).bind fun s => .ok (v :: d ++ [l, s], [])) =
      .ok (out, ([] : List Nat)) ∧ Triad l r.xyz r.vel out := by
  obtain ⟨v, hv, sv⟩ := velLine_ok hl hc vx vy vz
  obtain ⟨s, hs, ps⟩ := C96_line hl r.xyz px py pz
  refine ⟨[v, l, s], ?_, v, s, sv, ps, rfl⟩
  rw [hv, Outcome.bind]
  have : deltaLine false r = .ok [] := by unfold deltaLine; simp
  rw [this, Outcome.bind, hs, Outcome.bind]
  rfl

/-- What a source means for the line. -/
theorem source_treated {verbose : Bool} {date : List Nat → ℚ} {dt : ℚ → ℚ} {ask : Nat → List Nat → Option (List Entry)} (hs : Sane ask) {l : List Nat}
    (hd : Dated date 83 l) {r0 r : Rec} (h : Source verbose ask r0 r) (hx : r0.xyz = .zero) (hv : r0.vel = .zero) (hc : r.code = codeOf l)
    (ht : |when_ date dt l - r.jd| < tolerance) :
    ∃ out, ((AddOff.velLine l r).bind fun v => (deltaLine false r).bind fun d => (setOffsetLine l r.xyz).bind fun s => .ok (v :: d ++ [l, s], [])) =
      .ok (out, ([] : List Nat)) ∧ Treated verbose date dt ask l out ∧ (r.xyz.x ≠ 0 → Followed verbose date dt ask l out) := by
  have hl := hd.1.1
  have hne : codeOf l ≠ [] := by
    have := codeOf_length hl
    rintro h
    rw [h] at this
    simp at this
  have fz := far_zero
  cases h with
  | @given k u e c a1 a2 a3 a4 a5 =>
    have hcode : c = r0.code := by
      rcases a5 with h | h
      · exact h
      · exact absurd (hc.symm.trans h) hne
    have hcl : r0.code = codeOf l := hcode.symm.trans hc
    obtain ⟨-, -, p1, p2, p3, v1, v2, v3⟩ := hs k u e a1
    obtain ⟨out, ho, htri⟩ := triad_of (l := l) (r := { r0 with xyz := e.pos, vel := e.vel, code := c }) hl hc p1 p2 p3 v1 v2 v3
    have serv : FromService verbose date dt ask l out := by
      refine ⟨k, u, e, a1, by rw [← hcl]; exact a3, ?_, htri⟩
      have h1 := abs_lt.1 ht
      have h2 := abs_lt.1 a4
      unfold tolerance at h1 h2
      simp only at h1
      rw [abs_lt]
      constructor <;> linarith
    have hk : horizonsIdx (codeOf l) ≠ 0 := by rw [← hcl]; exact a2
    exact ⟨out, ho, .given hd hk serv, fun _ => ⟨fun _ => serv, fun h => absurd h hk⟩⟩
  | unknown a =>
    have hcl : r0.code = codeOf l := hc
    obtain ⟨out, ho, htri⟩ := triad_of (l := l) (r := { r0 with xyz := ⟨-1 / 10, 0, 0⟩ }) hl hc
      (by simp only; unfold farthest kmPerAu; norm_num [abs_lt]) (by simpa using fz) (by simpa using fz)
      (by simp only [hv]; simp [Triple.zero]) (by simp only [hv]; simp [Triple.zero]) (by simp only [hv]; simp [Triple.zero])
    simp only [hv] at htri
    have hk : horizonsIdx (codeOf l) = 0 := by rw [← hcl]; exact a
    exact ⟨out, ho, .unknown hd hk htri, fun _ => ⟨fun h => absurd hk h, fun _ => htri⟩⟩
  | @blank c a =>
    obtain ⟨out, ho, htri⟩ := triad_of (l := l) (r := { r0 with code := c }) hl hc
      (by simp only [hx]; simpa [Triple.zero] using fz) (by simp only [hx]; simpa [Triple.zero] using fz) (by simp only [hx]; simpa [Triple.zero] using fz)
      (by simp only [hv]; simp [Triple.zero]) (by simp only [hv]; simp [Triple.zero]) (by simp only [hv]; simp [Triple.zero])
    refine ⟨out, ho, .zero hd ?_, fun h => absurd (by simp only [hx]; rfl) h⟩
    simp only [hx, hv] at htri
    exact htri

theorem source_jd {verbose : Bool} {ask : Nat → List Nat → Option (List Entry)} {r0 r : Rec} (h : Source verbose ask r0 r) :
    r.jd = r0.jd ∧ (r.code = r0.code ∨ r.code = []) := by
  cases h with
  | given _ _ _ _ a => exact ⟨rfl, a⟩
  | unknown => exact ⟨rfl, Or.inl rfl⟩
  | blank a => exact ⟨rfl, a⟩

theorem forall₂_right {α β : Type} {R : α → β → Prop} {l : List α} {m : List β} (h : List.Forall₂ R l m) {b : β} (hb : b ∈ m) : ∃ a ∈ l, R a b := by
  induction h with
  | nil => simp at hb
  | @cons x y l m hxy _ ih =>
    rcases List.mem_cons.1 hb with rfl | hb
    · exact ⟨x, by simp, hxy⟩
    · obtain ⟨a, ha, hr⟩ := ih hb
      exact ⟨a, by simp [ha], hr⟩

theorem forall₂_left {α β : Type} {R : α → β → Prop} {l : List α} {m : List β} (h : List.Forall₂ R l m) {a : α} (ha : a ∈ l) : ∃ b ∈ m, R a b := by
  induction h with
  | nil => simp at ha
  | @cons x y l m hxy _ ih =>
    rcases List.mem_cons.1 ha with rfl | ha
    · exact ⟨y, by simp, hxy⟩
    · obtain ⟨b, hb, hr⟩ := ih ha
      exact ⟨b, by simp [hb], hr⟩

theorem setOffsets_ok {verbose : Bool} {ask : Nat → List Nat → Option (List Entry)} (hs : Sane ask) (k : Nat) {rs : List Rec} (hne : rs ≠ [])
    (ht : ∀ r ∈ rs, horizonsIdx r.code ≠ 0 → InTime r.jd) : ∃ rs', setOffsets verbose (ask k) rs = .ok rs' := by
  obtain ⟨r, t, rfl⟩ := List.exists_cons_of_ne_nil hne
  unfold setOffsets
  rw [List.head?_cons, Option.map_some, Option.getD_some]
  unfold offsetsFor
  by_cases hf : horizonsIdx r.code = 0
  · rw [if_pos hf]
    exact ⟨_, rfl⟩
  · rw [if_neg hf]
    obtain ⟨u, n, hg, hl, -⟩ := gather_ok (first := r.code) (r :: t) (fun x hx hc => ht x hx (by rw [hc]; exact hf)) 0
      (cmdStart verbose (horizonsIdx r.code)) (by have := start_length verbose r.code; omega)
    rw [hg, Outcome.bind]
    simp only
    unfold cat
    rw [if_neg (by rw [end_length]; omega), Outcome.bind, storeAll_eq _ fun e he => ⟨(hs _ _ e he).1, (hs _ _ e he).2.1⟩, Outcome.bind]
    exact ⟨_, rfl⟩

theorem fill_ok {verbose : Bool} {ask : Nat → List Nat → Option (List Entry)} (hs : Sane ask) {r0s rs : List Rec} (fuel k : Nat)
    (h0 : ∀ r ∈ r0s, r.xyz = .zero) (h : List.Forall₂ (Source verbose ask) r0s rs) (ht : ∀ r ∈ r0s, horizonsIdx r.code ≠ 0 → InTime r.jd) :
    ∃ rs', fill verbose ask fuel k rs = .ok rs' := by
  induction fuel generalizing r0s rs k with
  | zero => exact ⟨rs, rfl⟩
  | succ fuel ih =>
    cases rs with
    | nil => exact ⟨[], rfl⟩
    | cons r t =>
      have htime : ∀ x ∈ r :: t, horizonsIdx x.code ≠ 0 → InTime x.jd := by
        intro x hx hc
        obtain ⟨a, ha, hax⟩ := forall₂_right h hx
        obtain ⟨h1, h2⟩ := source_jd hax
        rw [h1]
        rcases h2 with h2 | h2
        · exact ht a ha (by rw [← h2]; exact hc)
        · exact absurd h2 (idx_nil hc)
      obtain ⟨l, hl, hls⟩ : ∃ l, (if r.xyz.x = 0 ∧ r.code ≠ [] then setOffsets verbose (ask k) (r :: t) else .ok (r :: t)) = .ok l ∧
          List.Forall₂ (Source verbose ask) r0s l := by
        by_cases hc : r.xyz.x = 0 ∧ r.code ≠ []
        · rw [if_pos hc]
          obtain ⟨l, hl⟩ := setOffsets_ok hs k (by simp) htime
          exact ⟨l, hl, setOffsets_source h0 h (by intro x hx; simp at hx; rw [← hx]; exact hc.2) (by simp) hl⟩
        · rw [if_neg hc]
          exact ⟨_, rfl, h⟩
      obtain ⟨t', ht'⟩ := ih (k + 1) (fun x hx => h0 x (List.mem_of_mem_drop hx)) (List.forall₂_drop 1 hls) fun x hx => ht x (List.mem_of_mem_drop hx)
      unfold fill
      rw [hl, Outcome.bind, ht', Outcome.bind]
      exact ⟨_, rfl⟩

/-- The records after the first pass, as their own sources. -/
theorem fresh_source {verbose : Bool} {ask : Nat → List Nat → Option (List Entry)} (rs : List Rec) : List.Forall₂ (Source verbose ask) rs rs := by
  induction rs with
  | nil => exact .nil
  | cons r rs ih => exact .cons (Source.blank (c := r.code) (Or.inl rfl)) ih

theorem mem_obs {date : List Nat → ℚ} {dt : ℚ → ℚ} {file : List (List Nat)} {o : ℚ × List Nat} (h : o ∈ file.filterMap (obs date dt)) :
    ∃ l ∈ file, Dated date 83 l ∧ o = (when_ date dt l, codeOf l) := by
  classical
  obtain ⟨l, hl, ho⟩ := List.mem_filterMap.1 h
  unfold obs at ho
  split_ifs at ho with hd
  simp only [Option.some.injEq] at ho
  exact ⟨l, hl, hd, ho.symm⟩

/-- For any service whose answers are sane, and observations up to the year 2132: the program ends, and each line is treated in one of
    the seven ways. -/
theorem C97_lines {date : List Nat → ℚ} {dt : ℚ → ℚ} (hdt : ∀ x, 1 ≤ dt x) (verbose : Bool) {ask : Nat → List Nat → Option (List Entry)} (hs : Sane ask)
    {file : List (List Nat)} (hf : CardFile file) (ht : ∀ l ∈ file, Dated date 83 l → horizonsIdx (codeOf l) ≠ 0 → when_ date dt l < 2500000) :
    ∃ outs, processFile date dt verbose false ask file = .ok outs.flatten ∧ List.Forall₂ (Treated verbose date dt ask) file outs := by
  obtain ⟨rs, e1, fresh⟩ := noteAll_card hdt hf (os := []) (rs := []) .nil
  rw [List.nil_append] at fresh
  have h0 : ∀ r ∈ rs, r.xyz = .zero ∧ r.vel = .zero := by
    intro r hr
    obtain ⟨o, -, hor⟩ := forall₂_right fresh hr
    exact ⟨hor.xyz, hor.vel⟩
  have htime : ∀ r ∈ rs, horizonsIdx r.code ≠ 0 → InTime r.jd := by
    intro r hr hc
    obtain ⟨o, ho, hor⟩ := forall₂_right fresh hr
    obtain ⟨l, hl, hd, rfl⟩ := mem_obs ho
    have hc' : r.code = codeOf l := hor.code
    have hj : r.jd = when_ date dt l := hor.jd
    rw [hj]
    have := when_pos hdt hd.2
    exact ⟨by linarith, ht l hl hd (by rw [← hc']; exact hc)⟩
  obtain ⟨rs', e2⟩ := fill_ok (verbose := verbose) hs rs.length 0 (fun r hr => (h0 r hr).1) (fresh_source rs) htime
  have src := fill_source (fun r hr => (h0 r hr).1) (fresh_source rs) e2
  have lines : ∀ ls : List (List Nat), CardFile ls → ∃ outs, List.Forall₂ (fun l out => writeLine date dt false rs' [] l = .ok (out, [])) ls outs ∧
      List.Forall₂ (Treated verbose date dt ask) ls outs := by
    intro ls hls
    induction ls with
    | nil => exact ⟨[], .nil, .nil⟩
    | cons l ls ih =>
      obtain ⟨outs, w, t⟩ := ih fun x hx => hls x (by simp [hx])
      have hstn := hls l (by simp)
      suffices h : ∃ out, writeLine date dt false rs' [] l = .ok (out, []) ∧ Treated verbose date dt ask l out by
        obtain ⟨out, h1, h2⟩ := h
        exact ⟨out :: outs, .cons h1 w, .cons h2 t⟩
      by_cases hd : Dated date 83 l
      · rw [writeLine_obs hdt hstn hd]
        cases hfind : rs'.find? fun r => r.code == codeOf l && decide (|when_ date dt l - r.jd| < tolerance) with
        | none => exact ⟨[l], rfl, .bare hd⟩
        | some r =>
          have hp := List.find?_some hfind
          simp only [Bool.and_eq_true, beq_iff_eq, decide_eq_true_eq] at hp
          obtain ⟨r0, hr0, hsrc⟩ := forall₂_right src (List.mem_of_find?_eq_some hfind)
          obtain ⟨out, ho, htr, -⟩ := source_treated hs hd hsrc (h0 r0 hr0).1 (h0 r0 hr0).2 hp.1 hp.2
          exact ⟨out, ho, htr⟩
      · rw [writeLine_other hdt hstn hd]
        refine ⟨_, rfl, ?_⟩
        split_ifs with h1 h2
        · exact .old h1
        · exact .tag hd h1 ((posnTag_iff l).1 h2)
        · exact .other hd h1 fun h => h2 ((posnTag_iff l).2 h)
  obtain ⟨outs, w, t⟩ := lines file hf
  refine ⟨outs, ?_, t⟩
  unfold processFile
  rw [e1, Outcome.bind]
  simp only
  rw [e2, Outcome.bind]
  exact writeAll_of w

/-- If the service answers all questions, every observation from a spacecraft of the table up to 2099 is followed by the position
    that the service gave. -/
theorem C97_answered {date : List Nat → ℚ} {dt : ℚ → ℚ} (hdt : ∀ x, 1 ≤ dt x) (verbose : Bool) {ask : Nat → List Nat → Option (List Entry)} (hs : Sane ask)
    (ha : Answers ask) {file : List (List Nat)} (hf : CardFile file)
    (ht : ∀ l ∈ file, Dated date 83 l → horizonsIdx (codeOf l) ≠ 0 → when_ date dt l < 2488069) :
    ∃ outs, processFile date dt verbose false ask file = .ok outs.flatten ∧
      List.Forall₂ (fun l out => Dated date 83 l → Followed verbose date dt ask l out) file outs := by
  obtain ⟨rs, e1, fresh⟩ := noteAll_card hdt hf (os := []) (rs := []) .nil
  rw [List.nil_append] at fresh
  have h0 : ∀ r ∈ rs, r.xyz = .zero ∧ r.vel = .zero := by
    intro r hr
    obtain ⟨o, -, hor⟩ := forall₂_right fresh hr
    exact ⟨hor.xyz, hor.vel⟩
  have hobs : ∀ r ∈ rs, ∃ l ∈ file, Dated date 83 l ∧ r.code = codeOf l ∧ r.jd = when_ date dt l := by
    intro r hr
    obtain ⟨o, ho, hor⟩ := forall₂_right fresh hr
    obtain ⟨l, hl, hd, rfl⟩ := mem_obs ho
    exact ⟨l, hl, hd, hor.code, hor.jd⟩
  have htime : ∀ r ∈ rs, horizonsIdx r.code ≠ 0 → Current r.jd := by
    intro r hr hc
    obtain ⟨l, hl, hd, hc', hj⟩ := hobs r hr
    rw [hj]
    exact ⟨when_pos hdt hd.2, ht l hl hd (by rw [← hc']; exact hc)⟩
  have hne : ∀ r ∈ rs, r.code ≠ [] := by
    intro r hr
    obtain ⟨l, hl, hd, hc', -⟩ := hobs r hr
    have := codeOf_length hd.1.1
    rw [hc']
    intro h
    rw [h] at this
    simp at this
  have ready : List.Forall₂ Ready rs rs := by
    have : ∀ l : List Rec, (∀ r ∈ l, r.xyz = .zero) → List.Forall₂ Ready l l := by
      intro l hl
      induction l with
      | nil => exact .nil
      | cons r l ih => exact .cons ⟨rfl, rfl, rfl, Or.inl (hl r (by simp))⟩ (ih fun x hx => hl x (by simp [hx]))
    exact this rs fun r hr => (h0 r hr).1
  obtain ⟨rs', e2, hready⟩ := fill_ready (verbose := verbose) ha 0 ready hne htime
  have src := fill_source (fun r hr => (h0 r hr).1) (fresh_source rs) e2
  have lines : ∀ ls : List (List Nat), CardFile ls → (∀ l ∈ ls, l ∈ file) → ∃ outs, List.Forall₂ (fun l out => writeLine date dt false rs' [] l = .ok (out, [])) ls outs ∧
      List.Forall₂ (fun l out => Dated date 83 l → Followed verbose date dt ask l out) ls outs := by
    intro ls hls hsub
    induction ls with
    | nil => exact ⟨[], .nil, .nil⟩
    | cons l ls ih =>
      obtain ⟨outs, w, t⟩ := ih (fun x hx => hls x (by simp [hx])) fun x hx => hsub x (by simp [hx])
      have hstn := hls l (by simp)
      suffices h : ∃ out, writeLine date dt false rs' [] l = .ok (out, []) ∧
          (Dated date 83 l → Followed verbose date dt ask l out) by
        obtain ⟨out, h1, h2⟩ := h
        exact ⟨out :: outs, .cons h1 w, .cons h2 t⟩
      by_cases hd : Dated date 83 l
      · rw [writeLine_obs hdt hstn hd]
        cases hfind : rs'.find? fun r => r.code == codeOf l && decide (|when_ date dt l - r.jd| < tolerance) with
        | none =>
          exfalso
          have ho : (when_ date dt l, codeOf l) ∈ file.filterMap (obs date dt) := by
            classical
            refine List.mem_filterMap.2 ⟨l, hsub l (by simp), ?_⟩
            unfold obs
            rw [if_pos hd]
          obtain ⟨r0, hr0, hfr⟩ := forall₂_left fresh ho
          obtain ⟨r, hr, hrd, -⟩ := forall₂_left hready hr0
          have := List.find?_eq_none.1 hfind r hr
          apply this
          rw [hrd.code, hrd.jd, hfr.code, hfr.jd]
          simp [tolerance]
        | some r =>
          have hp := List.find?_some hfind
          simp only [Bool.and_eq_true, beq_iff_eq, decide_eq_true_eq] at hp
          have hmem := List.mem_of_find?_eq_some hfind
          obtain ⟨r0, hr0, hsrc⟩ := forall₂_right src hmem
          obtain ⟨_, _, -, hx⟩ := forall₂_right hready hmem
          obtain ⟨out, ho, -, hserv⟩ := source_treated hs hd hsrc (h0 r0 hr0).1 (h0 r0 hr0).2 hp.1 hp.2
          exact ⟨out, ho, fun _ => hserv hx⟩
      · rw [writeLine_other hdt hstn hd]
        exact ⟨_, rfl, fun h => absurd h hd⟩
  obtain ⟨outs, w, t⟩ := lines file hf fun l h => h
  refine ⟨outs, ?_, t⟩
  unfold processFile
  rw [e1, Outcome.bind]
  simp only
  rw [e2, Outcome.bind]
  exact writeAll_of w

/-! ## Findings -/

theorem setOffsets_none {verbose : Bool} {ask : List Nat → Option (List Entry)} (ha : ∀ u, ask u = none) {r : Rec} {t l : List Rec}
    (hk : horizonsIdx r.code ≠ 0) (h : setOffsets verbose ask (r :: t) = .ok l) : ∃ t', l = r :: t' := by
  unfold setOffsets at h
  rw [List.head?_cons, Option.map_some, Option.getD_some] at h
  unfold offsetsFor at h
  rw [if_neg hk] at h
  cases hg : gather r.code 0 (r :: t) (cmdStart verbose (horizonsIdx r.code)) with
  | abort => rw [hg] at h; cases h
  | ub => rw [hg] at h; cases h
  | ok p =>
    rw [hg, Outcome.bind] at h
    simp only at h
    cases hc : cat p.1 cmdEnd with
    | abort => rw [hc] at h; cases h
    | ub => rw [hc] at h; cases h
    | ok u =>
      rw [hc, Outcome.bind, ha] at h
      simp only [Option.getD_none] at h
      unfold storeAll at h
      rw [Outcome.bind] at h
      injection h with h
      rw [List.take_succ_cons, List.take_zero] at h
      exact ⟨_, h.symm⟩

/-- Finding: when the service cannot be reached, the first observation from a spacecraft of the table is still given a position, the
    centre of the Earth (the loop that erases codes stops before the first record). -/
theorem C97_no_answer {date : List Nat → ℚ} {dt : ℚ → ℚ} (hdt : ∀ x, 1 ≤ dt x) (verbose : Bool) {before after : List (List Nat)} {l : List Nat}
    (hf : CardFile (before ++ l :: after)) (hb : ∀ x ∈ before, ¬ Dated date 83 x) (hd : Dated date 83 l) (hk : horizonsIdx (codeOf l) ≠ 0)
    (ht : ∀ x ∈ before ++ l :: after, Dated date 83 x → horizonsIdx (codeOf x) ≠ 0 → when_ date dt x < 2500000) :
    ∃ a out c, processFile date dt verbose false (fun _ _ => none) (before ++ l :: after) = .ok (a ++ out ++ c) ∧ Triad l .zero .zero out := by
  classical
  have hs : Sane (fun _ _ => none) := by intro k u e he; simp at he
  obtain ⟨outs, run, -⟩ := C97_lines hdt verbose hs hf ht
  obtain ⟨rs, e1, fresh⟩ := noteAll_card hdt hf (os := []) (rs := []) .nil
  rw [List.nil_append] at fresh
  have hos : (before ++ l :: after).filterMap (obs date dt) = (when_ date dt l, codeOf l) :: after.filterMap (obs date dt) := by
    rw [List.filterMap_append]
    have h1 : before.filterMap (obs date dt) = [] := by
      rw [List.filterMap_eq_nil_iff]
      intro x hx
      unfold obs
      rw [if_neg (hb x hx)]
    have h2 : obs date dt l = some (when_ date dt l, codeOf l) := by
      unfold obs
      rw [if_pos hd]
    rw [h1, List.nil_append, List.filterMap_cons_some h2]
  rw [hos] at fresh
  cases fresh with
  | @cons _ r _ t hr hrest =>
    unfold processFile at run
    rw [e1, Outcome.bind] at run
    simp only at run
    obtain ⟨rs', e2, hrs'⟩ : ∃ rs', fill verbose (fun _ _ => none) (r :: t).length 0 (r :: t) = .ok (r :: rs') ∧ True := by
      cases e2 : fill verbose (fun _ _ => none) (r :: t).length 0 (r :: t) with
      | abort => rw [e2] at run; cases run
      | ub => rw [e2] at run; cases run
      | ok q =>
        rw [List.length_cons] at e2
        unfold fill at e2
        have hc : r.xyz.x = 0 ∧ r.code ≠ [] := by
          refine ⟨by rw [hr.xyz]; rfl, ?_⟩
          rw [hr.code]
          exact idx_nil hk
        rw [if_pos hc] at e2
        cases e3 : setOffsets verbose ((fun _ _ => none : Nat → List Nat → Option (List Entry)) 0) (r :: t) with
        | abort => rw [e3] at e2; cases e2
        | ub => rw [e3] at e2; cases e2
        | ok q1 =>
          obtain ⟨t', rfl⟩ := setOffsets_none (fun _ => rfl) (by rw [hr.code]; exact hk) e3
          rw [e3, Outcome.bind, List.drop_succ_cons, List.drop_zero, List.take_succ_cons, List.take_zero] at e2
          cases e4 : fill verbose (fun _ _ => none) t.length (0 + 1) t' with
          | abort => rw [e4] at e2; cases e2
          | ub => rw [e4] at e2; cases e2
          | ok q2 =>
            rw [e4, Outcome.bind] at e2
            injection e2 with e2
            exact ⟨q2, by rw [← e2]; rfl, trivial⟩
    rw [e2, Outcome.bind] at run
    obtain ⟨out, ho, htri⟩ := triad_of (l := l) (r := r) hd.1.1 hr.code (by rw [hr.xyz]; simpa [Triple.zero] using far_zero)
      (by rw [hr.xyz]; simpa [Triple.zero] using far_zero) (by rw [hr.xyz]; simpa [Triple.zero] using far_zero)
      (by rw [hr.vel]; simp [Triple.zero]) (by rw [hr.vel]; simp [Triple.zero]) (by rw [hr.vel]; simp [Triple.zero])
    rw [hr.xyz, hr.vel] at htri
    have key : ∀ (b : List (List Nat)) (o : List (List Nat)), (∀ x ∈ b, ¬ bytes "<stn>" <:+: x ∧ ¬ Dated date 83 x) →
        writeAll date dt false (r :: rs') (b ++ l :: after) [] = .ok o → ∃ a c, o = a ++ out ++ c := by
      intro b
      induction b with
      | nil =>
        intro o _ h
        rw [List.nil_append] at h
        unfold writeAll at h
        rw [writeLine_obs hdt (hf l (by simp)) hd, List.find?_cons_of_pos (by rw [hr.code, hr.jd]; simp [tolerance])] at h
        simp only at h
        rw [ho, Outcome.bind] at h
        simp only at h
        cases e : writeAll date dt false (r :: rs') after [] with
        | abort => rw [e] at h; cases h
        | ub => rw [e] at h; cases h
        | ok c =>
          rw [e, Outcome.bind] at h
          injection h with h
          exact ⟨[], c, by rw [← h]; rfl⟩
      | cons x b ih =>
        intro o hx h
        obtain ⟨h1, h2⟩ := hx x (by simp)
        rw [List.cons_append] at h
        unfold writeAll at h
        rw [writeLine_other hdt h1 h2, Outcome.bind] at h
        simp only at h
        cases e : writeAll date dt false (r :: rs') (b ++ l :: after) [] with
        | abort => rw [e] at h; cases h
        | ub => rw [e] at h; cases h
        | ok c =>
          rw [e, Outcome.bind] at h
          injection h with h
          obtain ⟨a, c', rfl⟩ := ih c (fun y hy => hx y (by simp [hy])) e
          exact ⟨_, c', by rw [← h, ← List.append_assoc, ← List.append_assoc]⟩
    obtain ⟨a, c, hac⟩ := key before _ (fun x hx => ⟨hf x (by simp [hx]), hb x hx⟩) run
    exact ⟨a, out, c, by
      unfold processFile
      rw [e1, Outcome.bind]
      simp only
      rw [e2, Outcome.bind, run, hac], htri⟩

/-- The line that names the station in an ADES file. -/
def stationLine (code : List Nat) : List Nat := bytes "<stn>" ++ code ++ bytes "</stn>\n"

theorem station_table : ∀ e ∈ xrefs, Multipart.findSub (bytes "<obsTime>") (stationLine e.1) = none ∧
    Multipart.findSub (bytes "<stn>") (stationLine e.1) = some (stationLine e.1) ∧ horizonsIdx ((stationLine e.1).drop 5) ≠ 0 ∧
    ((stationLine e.1).drop 5).take 3 = e.1 ∧ e.1 ≠ [] ∧ (stationLine e.1).length ≤ 80 := by
  decide +kernel

/-- Finding: a file in ADES with an observation from a spacecraft of the table: the program reads bytes that were not set. -/
theorem C97_ades (date : List Nat → ℚ) (dt : ℚ → ℚ) (verbose show_ : Bool) (ask : Nat → List Nat → Option (List Entry)) {code : List Nat}
    (hk : code ∈ xrefs.map (·.1)) {time : List Nat} (ht : bytes "<obsTime>" <:+: time) (hn : ¬ bytes "<stn>" <:+: time) (after : List (List Nat)) :
    processFile date dt verbose show_ ask (stationLine code :: time :: after) = .ub := by
  obtain ⟨e, he, rfl⟩ := List.mem_map.1 hk
  obtain ⟨h1, h2, h3, h4, h5, h6⟩ := station_table e he
  have s1 : satObsJd date dt [] (stationLine e.1) = .ok (0, e.1) := by
    unfold satObsJd
    rw [h1, h2]
    simp only
    have hn : ¬ ((stationLine e.1).length > 80 ∧ (at? (stationLine e.1) 14 = 83 ∨ at? (stationLine e.1) 14 = 115)) := fun h => absurd h.1 (not_lt.2 h6)
    have hp : (0 : ℚ) < launch := by unfold launch; norm_num
    rw [if_pos h3, h4, if_neg (by simp), if_neg hn, if_pos hp]
  have s2 : satObsJd date dt e.1 time = .ub := by
    unfold satObsJd
    rw [(findSub_none _ _).2 hn]
    simp only
    rw [if_pos ⟨(findSub_iff _ _).2 ht, h5⟩]
  have n1 : noteLine date dt [] [] (stationLine e.1) = .ok ([], e.1) := by
    unfold noteLine
    rw [s1, Outcome.bind]
    simp
  have n2 : noteLine date dt [] e.1 time = .ub := by
    unfold noteLine
    rw [s2]
    rfl
  unfold processFile noteAll
  rw [n1, Outcome.bind]
  simp only
  unfold noteAll
  rw [n2]
  rfl

/-- Finding: an observation in the year 2132 or later from a spacecraft of the table stops the program, whose own test lets dates up
    to JD 2700000 through. -/
theorem C97_late {date : List Nat → ℚ} {dt : ℚ → ℚ} (hdt : ∀ x, 1 ≤ dt x) (verbose show_ : Bool) (ask : Nat → List Nat → Option (List Entry))
    {before after : List (List Nat)} {l : List Nat} (hf : CardFile (before ++ l :: after)) (hb : ∀ x ∈ before, ¬ Dated date 83 x)
    (hd : Dated date 83 l) (hk : horizonsIdx (codeOf l) ≠ 0) (ht : 5000001 / 2 ≤ when_ date dt l) :
    processFile date dt verbose show_ ask (before ++ l :: after) = .abort := by
  classical
  obtain ⟨rs, e1, fresh⟩ := noteAll_card hdt hf (os := []) (rs := []) .nil
  rw [List.nil_append] at fresh
  have hos : (before ++ l :: after).filterMap (obs date dt) = (when_ date dt l, codeOf l) :: after.filterMap (obs date dt) := by
    rw [List.filterMap_append]
    have h1 : before.filterMap (obs date dt) = [] := by
      rw [List.filterMap_eq_nil_iff]
      intro x hx
      unfold obs
      rw [if_neg (hb x hx)]
    have h2 : obs date dt l = some (when_ date dt l, codeOf l) := by
      unfold obs
      rw [if_pos hd]
    rw [h1, List.nil_append, List.filterMap_cons_some h2]
  rw [hos] at fresh
  cases fresh with
  | @cons _ r _ t hr hrest =>
    have hj : r.jd = when_ date dt l := hr.jd
    have hkr : horizonsIdx r.code ≠ 0 := by rw [hr.code]; exact hk
    have hx : 0 ≤ r.jd - 4800001 / 2 := by rw [hj]; linarith
    have long : 15 ≤ (timeText r.jd).length := by
      have near := units_near 6 hx
      have big : 10 ^ 11 ≤ units 6 (r.jd - 4800001 / 2) := by
        have h1 := (abs_le.1 near).1
        have h2 : (100000 : ℚ) ≤ r.jd - 4800001 / 2 := by rw [hj]; linarith
        have : ((10 ^ 11 : Nat) : ℚ) < (units 6 (r.jd - 4800001 / 2) : ℚ) + 1 := by push_cast; linarith
        have : 10 ^ 11 < units 6 (r.jd - 4800001 / 2) + 1 := by exact_mod_cast this
        omega
      have big2 : 10 ^ 5 ≤ units 6 (r.jd - 4800001 / 2) / 10 ^ 6 := by
        rw [Nat.le_div_iff_mul_le (by norm_num)]
        omega
      have hl : 6 ≤ (dec (units 6 (r.jd - 4800001 / 2) / 10 ^ 6)).length := by
        by_contra hc
        have hd := numeral_dec (units 6 (r.jd - 4800001 / 2) / 10 ^ 6)
        have := value_cons_lt hd.digits
        rw [hd.value] at this
        have : 10 ^ (dec (units 6 (r.jd - 4800001 / 2) / 10 ^ 6)).length ≤ 10 ^ 5 := Nat.pow_le_pow_right (by norm_num) (by omega)
        omega
      have hm : units 6 (r.jd - 4800001 / 2) % 10 ^ 6 < 10 ^ 6 := Nat.mod_lt _ (by positivity)
      have hp := (padded_pad hm (by norm_num)).width
      unfold timeText
      rw [fixed_text (by norm_num) hx]
      simp only [List.length_cons, List.length_append, List.length_nil, hp]
      omega
    have hg : gather r.code 0 (r :: t) (cmdStart verbose (horizonsIdx r.code)) = .abort := by
      unfold gather
      rw [if_pos rfl]
      by_cases hc : ¬ (launch < r.jd ∧ r.jd < 2700000)
      · rw [if_pos hc]
      · rw [if_neg hc, if_pos long]
    have hset : setOffsets verbose (ask 0) (r :: t) = .abort := by
      unfold setOffsets
      rw [List.head?_cons, Option.map_some, Option.getD_some]
      unfold offsetsFor
      rw [if_neg hkr, hg]
      rfl
    unfold processFile
    rw [e1, Outcome.bind]
    simp only
    rw [List.length_cons]
    unfold fill
    rw [if_pos ⟨by rw [hr.xyz]; rfl, by rw [hr.code]; exact idx_nil hk⟩, hset]
    rfl

/-! ## The hypotheses can be met -/

/-- A card of the Hubble Space Telescope. -/
def sampleCard : List Nat := List.replicate 14 32 ++ 83 :: List.replicate 62 32 ++ bytes "250" ++ [10]

theorem sample_dated : Dated (fun _ => 2460000) 83 sampleCard := by
  refine ⟨⟨by decide +kernel, by decide +kernel⟩, ?_⟩
  unfold launch
  norm_num

theorem sample_file : CardFile [sampleCard] := by
  intro l hl
  rw [List.mem_singleton.1 hl, ← findSub_none]
  decide +kernel

/-- The service is silent, and the line of the Hubble Space Telescope is said to be at the centre of the Earth. -/
example : ∃ a out c, processFile (fun _ => 2460000) (fun _ => 70) false false (fun _ _ => none) [sampleCard] = .ok (a ++ out ++ c) ∧
    Triad sampleCard .zero .zero out :=
  C97_no_answer (before := []) (after := []) (by norm_num) false sample_file (by simp) sample_dated (by decide +kernel)
    (by intro x _ _ _; unfold when_; norm_num)

/-- A service that answers and is sane. -/
theorem good_service : ∃ ask, Answers ask ∧ Sane ask := by
  classical
  obtain ⟨R, hR⟩ : ∃ R : List Nat, ∀ n, n < 10 ^ 11 → n ∈ R := ⟨List.range (10 ^ 11), fun n h => List.mem_range.2 h⟩
  refine ⟨fun _ u => some ((R.filter fun n => decide (launch < dateOf n ∧ dateOf n < 2488069 + 1 / 2 ∧ timeText (dateOf n) <:+: u)).map
    fun n => ⟨dateOf n, ⟨1, 2, 3⟩, ⟨0, 0, 0⟩⟩), fun k u => ⟨_, rfl, ?_, ?_⟩, ?_⟩
  · intro e he
    obtain ⟨n, hn, rfl⟩ := List.mem_map.1 he
    have := (List.mem_filter.1 hn).2
    simp only [decide_eq_true_eq] at this
    exact ⟨this.1, by have := this.2.1; simp only; linarith, by simp⟩
  · intro n h1 h2 h3
    refine ⟨⟨dateOf n, ⟨1, 2, 3⟩, ⟨0, 0, 0⟩⟩, List.mem_map.2 ⟨n, List.mem_filter.2 ⟨hR _ ?_, by simp only [decide_eq_true_eq]; exact ⟨h1, h2, h3⟩⟩, rfl⟩, by simp⟩
    unfold dateOf at h2
    have : (n : ℚ) < ((10 ^ 11 : Nat) : ℚ) := by
      push_cast
      linarith
    exact_mod_cast this
  · intro k u e he
    simp only [Option.getD_some] at he
    obtain ⟨n, hn, rfl⟩ := List.mem_map.1 he
    have := (List.mem_filter.1 hn).2
    simp only [decide_eq_true_eq] at this
    have f : (3 : ℚ) < farthest := by unfold farthest kmPerAu; norm_num
    refine ⟨this.1, by have := this.2.1; simp only; linarith, ?_, ?_, ?_, by simp, by simp, by simp⟩
    · simp only [abs_one]; linarith
    · simp only; rw [abs_of_pos (by norm_num)]; linarith
    · simp only; rw [abs_of_pos (by norm_num)]; exact f

/-- With such a service the card of the Hubble Space Telescope is followed by the position. -/
example : ∃ ask outs, processFile (fun _ => 2460000) (fun _ => 70) false false ask [sampleCard] = .ok outs ∧
    FromService false (fun _ => 2460000) (fun _ => 70) ask sampleCard outs := by
  obtain ⟨ask, ha, hs⟩ := good_service
  obtain ⟨outs, h, t⟩ := C97_answered (date := fun _ => 2460000) (dt := fun _ => 70) (by norm_num) false hs ha sample_file
    (by intro x _ _ _; unfold when_; norm_num)
  cases t with
  | cons h1 h2 =>
    cases h2
    refine ⟨ask, _, h, ?_⟩
    simpa using (h1 sample_dated).1 (by decide +kernel)

/-- An ADES file, and a card of the year 2173. -/
example : processFile (fun _ => 2460000) (fun _ => 70) false false (fun _ _ => none)
    [stationLine (bytes "250"), bytes "<obsTime>2024-01-02T03:04:05Z</obsTime>"] = .ub :=
  C97_ades _ _ _ _ _ (by decide +kernel) ((findSub_iff _ _).1 (by decide +kernel)) ((findSub_none _ _).1 (by decide +kernel)) []

example : processFile (fun _ => 2515000) (fun _ => 70) false false (fun _ _ => none) [sampleCard] = .abort :=
  C97_late (before := []) (after := []) (by norm_num) false false _ sample_file (by simp) ⟨sample_dated.1, by unfold launch; norm_num⟩
    (by decide +kernel) (by unfold when_; norm_num)

end Verif.Props
