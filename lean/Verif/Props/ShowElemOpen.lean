import Verif.Props.ShowElem

/-!
# Property theorems: listings of orbits that are not closed (C99)
-/

namespace Verif.Props

open Verif Verif.Spec Verif.ShowElem

/-- The perihelion distance. -/
theorem distance_row {room : Nat} {f : Form} {cometary : Bool} {e : Elements} (ho : Open cometary e) (hp : f.precision ≤ 15) (h0 : 0 ≤ e.q) (hr : 80 ≤ room) :
    ∃ s, anomalyLine room f cometary e = .ok ((113 :: s ++ List.replicate (max 10 f.precision + 8 - s.length) 32).take (max 10 f.precision + 9) ++
        (if f.omitPq then [] else bytes " (2000.0)            P               Q")) ∧
      DistanceText f.precision e.q s ∧ s.length ≤ 29 := by
  obtain ⟨s, run, hs, sl⟩ := C99_distance (room := room - 1) h0 hp (by omega)
  refine ⟨s, ?_, hs, sl⟩
  have hb : (bytes " (2000.0)            P               Q").length = 38 := by decide +kernel
  have B : ∀ {α β : Type} (a : α) (g : α → Outcome β), (Outcome.ok a).bind g = g a := fun _ _ => rfl
  unfold anomalyLine
  rw [if_pos ho, if_neg (by omega), run, B, padTo, shown_cols, if_neg (by omega), if_pos rfl, B, List.length_cons,
    show max 10 f.precision + 9 - (s.length + 1) = max 10 f.precision + 8 - s.length by omega]
  by_cases h : f.omitPq = true
  · rw [if_pos h, if_pos h, List.append_nil]
  · rw [if_neg h, if_neg h, cat, if_pos (by rw [List.length_take, hb]; omega)]

/-- The magnitude. -/
theorem mag_row {room : Nat} {f : Form} {cometary : Bool} {e : Elements} (ho : Open cometary e) (hp : f.precision ≤ 15) (hm : |e.absMag| ≤ 99)
    (hs : |e.slope| ≤ if e.isAsteroid then 9 else 99) (hr : 80 ≤ room) :
    ∃ s, motionText room f cometary e = .ok (s ++ List.replicate (max 10 f.precision - 10) 32) ∧ MagColumns e.isAsteroid f.nuclear e.absMag e.slope s ∧
      s.length = 19 := by
  have B : ∀ {α β : Type} (a : α) (g : α → Outcome β), (Outcome.ok a).bind g = g a := fun _ _ => rfl
  have one : ∀ x : ℝ, (if x < 0 then 1 else 0 : Nat) ≤ 1 := fun x => by split_ifs <;> omega
  have key : MagColumns e.isAsteroid f.nuclear e.absMag e.slope (magText f e) ∧ (magText f e).length = 19 := by
    unfold magText
    by_cases h : e.absMag ≠ 0
    · rw [if_pos h]
      by_cases ha : e.isAsteroid = true
      · rw [if_pos ha] at hs ⊢
        have r1 := fmtW_real (w := 8) (p := 2) (m := 1) (x := e.absMag) (by norm_num) (by have := one e.absMag; omega) (by norm_num; linarith)
        have r2 := fmtW_real (w := 5) (p := 2) (m := 0) (x := e.slope) (by norm_num) (by have := one e.slope; omega) (by norm_num; linarith)
        have hb1 : (bytes " G").length = 2 := by decide +kernel
        have hb2 : (bytes "   ").length = 3 := by decide +kernel
        have hb3 : bytes "H" = [72] := by decide +kernel
        refine ⟨Or.inr ⟨h, fmtW 8 2 e.absMag, fmtW 5 2 e.slope, ?_⟩, ?_⟩
        · rw [if_pos ha, hb3]
          exact ⟨rfl, r1, r2⟩
        · simp only [List.length_append, List.length_cons, real_length r1, real_length r2, hb1, hb2]
      · rw [if_neg ha] at hs ⊢
        have r3 := fmtW_real (w := 5) (p := 1) (m := 1) (x := e.absMag) (by norm_num) (by have := one e.absMag; omega) (by norm_num; linarith)
        have r4 := fmtW_real (w := 5) (p := 1) (m := 1) (x := e.slope) (by norm_num) (by have := one e.slope; omega) (by norm_num; linarith)
        have hb1 : (bytes "  K").length = 3 := by decide +kernel
        have hb2 : (bytes "  ").length = 2 := by decide +kernel
        have hb4 : ∀ b : Bool, ([77, 40, if b then 78 else 84, 41] : List Nat) = bytes (if b then "M(N)" else "M(T)") := by decide +kernel
        refine ⟨Or.inr ⟨h, fmtW 5 1 e.absMag, fmtW 5 1 e.slope, ?_⟩, ?_⟩
        · rw [if_neg ha, ← hb4]
          exact ⟨rfl, r3, r4⟩
        · simp only [List.length_append, List.length_cons, List.length_nil, real_length r3, real_length r4, hb1, hb2]
    · rw [if_neg h]
      exact ⟨Or.inl ⟨not_not.1 h, rfl⟩, by simp⟩
  refine ⟨magText f e, ?_, key.1, key.2⟩
  have run : (if e.absMag ≠ 0 then put room (magText f e) else .ok (magText f e)) = Outcome.ok (magText f e) := by
    split_ifs
    · rw [put, if_pos (by omega)]
    · rfl
  unfold motionText
  simp only
  rw [if_pos ho, run, B, padTo, shown_cols, if_neg (by omega), if_pos rfl, List.take_of_length_le (l := magText f e) (by omega), key.2,
    show max 10 f.precision + 9 - 19 = max 10 f.precision - 10 by omega, List.take_of_length_le (by rw [List.length_append, List.length_replicate]; omega)]

/-- The inverse of the axis. -/
theorem z_row {room : Nat} {f : Form} {cometary : Bool} {e : Elements} (ho : Open cometary e) (hp : f.precision ≤ 15) (hr : 80 ≤ room) :
    ∃ s b, axisText room f cometary e = .ok (s ++ List.replicate b 32) ∧
      (if -0.0011 < e.majorAxis ∨ e.majorAxis < -100000 then s = [] else ∃ z, s = 122 :: z ∧ ShowsReal (max 10 f.precision + 5) (max 10 f.precision) (1 / e.majorAxis) z) ∧
      s.length + b = max 10 f.precision + 9 := by
  have B : ∀ {α β : Type} (a : α) (g : α → Outcome β), (Outcome.ok a).bind g = g a := fun _ _ => rfl
  unfold axisText
  simp only [shown_cols]
  rw [if_pos ho]
  by_cases h : -0.0011 < e.majorAxis ∨ e.majorAxis < -100000
  · refine ⟨[], max 10 f.precision + 9, ?_, by rw [if_pos h], by simp⟩
    rw [if_pos (show e.majorAxis > -0.0011 ∨ e.majorAxis < -100000 from h), if_neg (by omega), B, padTo, if_neg (by simp; omega), if_neg (by simp)]
    simp
  · have h' := h
    push Not at h'
    obtain ⟨h1, h2⟩ := h'
    have neg : e.majorAxis < 0 := by norm_num at h1; linarith
    have r := fmtW_real (w := max 10 f.precision + 5) (p := max 10 f.precision) (m := 2) (x := 1 / e.majorAxis) (by omega) (by split_ifs <;> omega) (by
      have one : (1 : ℝ) / 10 ^ max 10 f.precision ≤ 1 := by
        rw [div_le_one (by positivity)]
        exact one_le_pow₀ (by norm_num)
      have : |1 / e.majorAxis| ≤ 999 := by
        rw [abs_div, abs_one, abs_of_neg neg, div_le_iff₀ (by linarith)]
        norm_num at h1
        linarith
      norm_num
      norm_num at one this
      linarith)
    refine ⟨122 :: fmtW (max 10 f.precision + 5) (max 10 f.precision) (1 / e.majorAxis), 3, ?_, ?_, by rw [List.length_cons, real_length r]⟩
    · rw [if_neg (show ¬ (e.majorAxis > -0.0011 ∨ e.majorAxis < -100000) from h), put, if_pos (by rw [List.length_cons, real_length r]; omega), B, padTo]
      simp only [List.length_cons, real_length r]
      rw [if_neg (by omega), if_neg (by simp), show max (max 10 f.precision + 5 + 1) (max 10 f.precision + 9) - (max 10 f.precision + 5 + 1) = 3 by omega]
    · rw [if_neg h]
      exact ⟨_, rfl, r⟩

/-- The eccentricity. -/
theorem e_row {room : Nat} {f : Form} {cometary : Bool} {e : Elements} (hp : f.precision ≤ 15) (h0 : 0 ≤ e.ecc) (h1 : e.ecc ≤ 9999) (hr : 80 ≤ room) :
    ∃ s, eccText room f cometary e = .ok (101 :: s) ∧
      (if cometary then s = bytes "   1.0            " else Shows (max 10 f.precision + 8) (f.precision + 2) e.ecc s) ∧ s.length ≤ 23 := by
  cases cometary
  · obtain ⟨s, run, hs⟩ := ecc_row (room := room) (f := f) hp h0 h1 hr
    have := shown_length hs
    exact ⟨s, run, by simpa using hs, by omega⟩
  · have hb : bytes "e   1.0            " = 101 :: bytes "   1.0            " := by decide +kernel
    have hl : (bytes "e   1.0            ").length = 19 := by decide +kernel
    refine ⟨bytes "   1.0            ", ?_, by rw [if_pos rfl], by decide +kernel⟩
    have B : ∀ {α β : Type} (a : α) (g : α → Outcome β), (Outcome.ok a).bind g = g a := fun _ _ => rfl
    unfold eccText
    simp only [shown_cols]
    rw [if_pos trivial, put, if_pos (by omega), B, if_neg (by omega), List.take_of_length_le (by omega), hb]

/-- C99: all lines of an orbit that is not closed, or of a parabola. -/
theorem C99_open {cal : Int → Cal} {clock id : List Nat} {size : Nat} {cometary : Bool} {f : Form} {e : Elements} (hp : 1 ≤ f.precision) (hp' : f.precision ≤ 15)
    (hcal : ∀ j, DayFits (cal j)) (hclock : clock.length ≤ 19) (hsize : id.length + 800 ≤ size) (ep0 : 0 ≤ e.epoch) (ep1 : e.epoch ≤ 999999998)
    (ho : cometary = true ∨ 1 ≤ e.ecc) (he : 0 ≤ e.ecc) (he' : e.ecc ≤ 9999) (hq : 0 ≤ e.q)
    (hi : 0 ≤ e.incl) (hi' : e.incl ≤ Real.pi) (hP : e.perihVec ≠ 0) (hQ : e.sideways ≠ 0) (hm : |e.absMag| ≤ 99) (hs : |e.slope| ≤ if e.isAsteroid then 9 else 99) :
    ∃ peri epoch anomaly l1 l2 l3 P Q argPer ascNode,
      elements cal clock size e id cometary f = .ok (id :: peri ++ [epoch, anomaly, l1, l2, l3], peri.length + 6) ∧
      (if 2 < e.perihTime ∧ e.perihTime < 3000000 then ∃ t, peri = [t] ∧ PeriSays e.centralObj f.precision f.perihTime clock e.perihTime ⌊e.perihTime + 1 / 2⌋
        (cal ⌊e.perihTime + 1 / 2⌋).day (cal ⌊e.perihTime + 1 / 2⌋).month (cal ⌊e.perihTime + 1 / 2⌋).year t else peri = []) ∧
      EpochSays e.epoch ⌊e.epoch + 1 / 2⌋ (cal ⌊e.epoch + 1 / 2⌋).day (cal ⌊e.epoch + 1 / 2⌋).month (cal ⌊e.epoch + 1 / 2⌋).year epoch ∧
      EquatorialUnit e.perihVec P ∧ EquatorialUnit e.sideways Q ∧ TurnDegrees e.argPer argPer ∧ TurnDegrees e.ascNode ascNode ∧
      (∃ s b, anomaly = (113 :: s ++ List.replicate b 32).take (max 10 f.precision + 9) ++ (if f.omitPq then [] else bytes " (2000.0)            P               Q") ∧
        b = max 10 f.precision + 8 - s.length ∧ DistanceText f.precision e.q s) ∧
      (∃ s b t, l1 = s ++ List.replicate b 32 ++ t ∧ b = max 10 f.precision - 10 ∧ MagColumns e.isAsteroid f.nuclear e.absMag e.slope s ∧
        Row "Peri." (max 10 f.precision) f.precision f.omitPq argPer P.1 Q.1 t) ∧
      (∃ s b t, l2 = s ++ List.replicate b 32 ++ t ∧ s.length + b = max 10 f.precision + 9 ∧
        (if -0.0011 < e.majorAxis ∨ e.majorAxis < -100000 then s = [] else ∃ z, s = 122 :: z ∧ ShowsReal (max 10 f.precision + 5) (max 10 f.precision) (1 / e.majorAxis) z) ∧
        Row "Node " (max 10 f.precision) f.precision f.omitPq ascNode P.2.1 Q.2.1 t) ∧
      (∃ s t, l3 = 101 :: s ++ t ∧ (if cometary then s = bytes "   1.0            " else Shows (max 10 f.precision + 8) (f.precision + 2) e.ecc s) ∧
        Row "Incl." (max 10 f.precision) f.precision f.omitPq (e.incl * 180 / Real.pi) P.2.2 Q.2.2 t) := by
  have hpi := Real.pi_pos
  have ho' : Open cometary e := ho
  have uP := normal_vect hP
  have uQ := normal_vect hQ
  obtain ⟨p1, p2, p3⟩ := equatorial_le uP
  obtain ⟨q1, q2, q3⟩ := equatorial_le uQ
  have tA := turn_degrees e.argPer
  have tN := turn_degrees e.ascNode
  have nb1 : (bytes "Peri.").length = 5 := by decide +kernel
  have nb2 : (bytes "Node ").length = 5 := by decide +kernel
  have nb3 : (bytes "Incl.").length = 5 := by decide +kernel
  have nb4 : (bytes " (2000.0)            P               Q").length = 38 := by decide +kernel
  have i0 : 0 ≤ degrees e.incl := by unfold degrees; positivity
  have i1 : degrees e.incl ≤ 9999 := by
    unfold degrees
    rw [div_le_iff₀ hpi]
    nlinarith
  -- perihelion
  obtain ⟨peri, hperi, runPeri, roomPeri⟩ : ∃ peri : List (List Nat),
      (if 2 < e.perihTime ∧ e.perihTime < 3000000 then ∃ t, peri = [t] ∧ PeriSays e.centralObj f.precision f.perihTime clock e.perihTime ⌊e.perihTime + 1 / 2⌋
        (cal ⌊e.perihTime + 1 / 2⌋).day (cal ⌊e.perihTime + 1 / 2⌋).month (cal ⌊e.perihTime + 1 / 2⌋).year t else peri = []) ∧
      (if 2 < e.perihTime ∧ e.perihTime < 3000000 then (periLine cal clock (left size id) f e).bind fun t => .ok [t] else .ok []) = Outcome.ok peri ∧
      peri.foldl left (left size id) + id.length + 1 + 140 ≥ size := by
    by_cases h : 2 < e.perihTime ∧ e.perihTime < 3000000
    · have hc := hcal ⌊e.perihTime + 1 / 2⌋
      obtain ⟨t, run, tl, ts⟩ := C99_perihelion (cal := cal) (clock := clock) (room := left size id) hp hp' h.1 h.2 hclock hc.first hc.last hc.short hc.year
        (by unfold left; omega)
      refine ⟨[t], ?_, ?_, ?_⟩
      · rw [if_pos h]
        exact ⟨t, rfl, ts⟩
      · rw [if_pos h, run]
        rfl
      · unfold left
        simp only [List.foldl_cons, List.foldl_nil]
        omega
    · refine ⟨[], by rw [if_neg h], by rw [if_neg h], ?_⟩
      unfold left
      simp only [List.foldl_nil]
      omega
  generalize hroom0 : peri.foldl left (left size id) = room0 at roomPeri
  -- epoch
  have hc := hcal ⌊e.epoch + 1 / 2⌋
  obtain ⟨epoch, runE, lenE, hE⟩ := C98_epoch (cal := cal) (room := room0) ep0 ep1 hc.first hc.last hc.plain hc.short hc.year (by omega)
  obtain ⟨room1, hroom1⟩ : ∃ r, r = left room0 epoch := ⟨_, rfl⟩
  have room1' : room1 + id.length + 1 + 230 ≥ size := by rw [hroom1]; unfold left; omega
  -- anomaly
  obtain ⟨sM, runM, hM, lenM⟩ := distance_row (room := room1) (f := f) ho' hp' hq (by omega)
  obtain ⟨anomaly, hanom⟩ : ∃ t, t = (113 :: sM ++ List.replicate (max 10 f.precision + 8 - sM.length) 32).take (max 10 f.precision + 9) ++
    (if f.omitPq then [] else bytes " (2000.0)            P               Q") := ⟨_, rfl⟩
  have lenM' : anomaly.length ≤ 62 := by
    rw [hanom]
    split_ifs
    · simp only [List.length_append, List.length_take, List.length_nil]
      omega
    · simp only [List.length_append, List.length_take, nb4]
      omega
  rw [← hanom] at runM
  obtain ⟨room2, hroom2⟩ : ∃ r, r = left room1 anomaly := ⟨_, rfl⟩
  have room2' : room2 + id.length + 1 + 295 ≥ size := by rw [hroom2]; unfold left; omega
  -- motion
  obtain ⟨sn, runn, hsn, lenn⟩ := mag_row (room := room2) (f := f) ho' hp' hm hs (by omega)
  have lenn' : (sn ++ List.replicate (max 10 f.precision - 10) 32).length ≤ 24 := by
    rw [List.length_append, List.length_replicate]
    omega
  obtain ⟨t1, runt1, ht1, lent1⟩ := right_row (room := room2 - (sn ++ List.replicate (max 10 f.precision - 10) 32).length) (f := f) (name := "Peri.") nb1 hp' tA.1
    (by linarith [tA.2.1]) p1 q1 (by omega)
  obtain ⟨l1, hl1⟩ : ∃ t, t = sn ++ List.replicate (max 10 f.precision - 10) 32 ++ t1 := ⟨_, rfl⟩
  have len1 : l1.length ≤ 86 := by
    rw [hl1, List.length_append]
    omega
  obtain ⟨room3, hroom3⟩ : ∃ r, r = left room2 l1 := ⟨_, rfl⟩
  have room3' : room3 + id.length + 1 + 390 ≥ size := by rw [hroom3]; unfold left; omega
  -- axis
  obtain ⟨sa, b, runa, hsa, lena⟩ := z_row (room := room3) (f := f) ho' hp' (by omega)
  have lena' : (sa ++ List.replicate b 32).length ≤ 30 := by
    simp only [List.length_append, List.length_replicate]
    omega
  obtain ⟨t2, runt2, ht2, lent2⟩ := right_row (room := room3 - (sa ++ List.replicate b 32).length) (f := f) (name := "Node ") nb2 hp' tN.1
    (by linarith [tN.2.1]) p2 q2 (by omega)
  obtain ⟨l2, hl2⟩ : ∃ t, t = sa ++ List.replicate b 32 ++ t2 := ⟨_, rfl⟩
  have len2 : l2.length ≤ 92 := by
    rw [hl2, List.length_append]
    omega
  obtain ⟨room4, hroom4⟩ : ∃ r, r = left room3 l2 := ⟨_, rfl⟩
  have room4' : room4 + id.length + 1 + 490 ≥ size := by rw [hroom4]; unfold left; omega
  -- eccentricity
  obtain ⟨se, rune, hse, lene⟩ := e_row (room := room4) (f := f) (e := e) (cometary := cometary) hp' he he' (by omega)
  obtain ⟨t3, runt3, ht3, lent3⟩ := right_row (room := room4 - (101 :: se).length) (f := f) (name := "Incl.") nb3 hp' i0 i1 p3 q3
    (by rw [List.length_cons]; omega)
  obtain ⟨l3, hl3⟩ : ∃ t, t = 101 :: se ++ t3 := ⟨_, rfl⟩
  have len3 : l3.length ≤ 86 := by
    rw [hl3]
    simp only [List.length_append, List.length_cons]
    omega
  obtain ⟨room5, hroom5⟩ : ∃ r, r = left room4 l3 := ⟨_, rfl⟩
  have room5' : room5 + id.length + 1 + 590 ≥ size := by rw [hroom5]; unfold left; omega
  refine ⟨peri, epoch, anomaly, l1, l2, l3, normalVect e.perihVec, normalVect e.sideways, _, _, ?_, hperi, hE, uP, uQ, tA, tN,
    ⟨sM, _, hanom, rfl, hM⟩, ⟨sn, _, t1, hl1, rfl, hsn, ht1⟩, ⟨sa, b, t2, hl2, lena, hsa, ht2⟩, ⟨se, t3, hl3, hse, ht3⟩⟩
  unfold elements
  simp only
  rw [put, if_pos (by omega)]
  have B : ∀ {α β : Type} (a : α) (g : α → Outcome β), (Outcome.ok a).bind g = g a := fun _ _ => rfl
  rw [B, runPeri, B, hroom0]
  rw [runE, B]
  rw [← hroom1, runM]
  rw [B, ← hroom2, show twoParts room2 (motionText room2 f cometary e) (fun r => rightText r f (bytes "Peri.") (degrees (zeroToTwoPi e.argPer)) (normalVect e.perihVec).1
    (normalVect e.sideways).1) = .ok l1 by rw [twoParts, runn]; simp only [Outcome.bind]; rw [runt1]; simp only; rw [hl1]]
  rw [B, ← hroom3, show twoParts room3 (axisText room3 f cometary e) (fun r => rightText r f (bytes "Node ") (degrees (zeroToTwoPi e.ascNode)) (normalVect e.perihVec).2.1
    (normalVect e.sideways).2.1) = .ok l2 by rw [twoParts, runa]; simp only [Outcome.bind]; rw [runt2]; simp only; rw [hl2]]
  rw [B, ← hroom4, show twoParts room4 (eccText room4 f cometary e) (fun r => rightText r f (bytes "Incl.") (degrees e.incl) (normalVect e.perihVec).2.2
    (normalVect e.sideways).2.2) = .ok l3 by rw [twoParts, rune]; simp only [Outcome.bind]; rw [runt3]; simp only; rw [hl3]]
  rw [B, ← hroom5, if_neg (not_not.2 ho'), B]
  simp only [List.cons_append, List.append_assoc, List.nil_append, List.length_nil]
  congr 2
  omega

/-- Finding: with ten decimals or more a perihelion distance of less than 998 kilometres loses its unit, and reads as so many astronomical units. -/
theorem C99_unit_lost {room : Nat} {f : Form} {cometary : Bool} {e : Elements} (ho : cometary = true ∨ 1 ≤ e.ecc) (hp : 10 ≤ f.precision) (hp' : f.precision ≤ 15)
    (h0 : 0 ≤ e.q) (h1 : e.q * kilometres ≤ 998) (hr : 80 ≤ room) :
    ∃ a n t, anomalyLine room f cometary e = .ok (113 :: (List.replicate a 32 ++ t) ++ (if f.omitPq then [] else bytes " (2000.0)            P               Q")) ∧
      PointText (f.precision + 1) n t ∧ |e.q * kilometres - n / 10 ^ (f.precision + 1)| < 1 / 10 ^ (f.precision + 1) := by
  have B : ∀ {α β : Type} (a : α) (g : α → Outcome β), (Outcome.ok a).bind g = g a := fun _ _ => rfl
  have pos : (0 : ℝ) < auKm := by unfold auKm; norm_num
  have hk : e.q * auKm ≤ 998 := h1
  have x0 : 0 ≤ e.q * auKm := by positivity
  have small : e.q ≤ 999999 / auKm := by
    rw [le_div_iff₀ pos]
    linarith
  have one : 999999 / auKm < 1 := by unfold auKm; norm_num
  -- the text
  have hs := whole_short (p := 16) (m := 2) (realUnits_lt (p := 16) (m := 3) (x := e.q * auKm) (by rw [abs_of_nonneg x0]; norm_num; linarith))
  have hd := numeral_dec (realUnits 16 (e.q * auKm) / 10 ^ 16)
  have hf := padded_pad (Nat.mod_lt (realUnits 16 (e.q * auKm)) (by norm_num : 0 < 10 ^ 16)) (by norm_num)
  have near := realUnits_near 16 (e.q * auKm)
  rw [abs_of_nonneg x0] at near
  have tot : realUnits 16 (e.q * auKm) = value (dec (realUnits 16 (e.q * auKm) / 10 ^ 16)) * 10 ^ 16 + value (pad 16 (realUnits 16 (e.q * auKm) % 10 ^ 16)) := by
    rw [hd.value, hf.value, Nat.div_add_mod']
  rw [tot] at near
  have txt := real_text (p := 16) (by norm_num) (e.q * auKm)
  rw [if_neg (not_lt.2 x0), List.nil_append] at txt
  generalize dec (realUnits 16 (e.q * auKm) / 10 ^ 16) = ds at *
  generalize pad 16 (realUnits 16 (e.q * auKm) % 10 ^ 16) = fs at *
  have hfl := hf.width
  have hdl := List.length_pos_iff.2 hd.nonempty
  obtain ⟨f1, f2, f3⟩ := fewer (P := 16) (k := f.precision + 1) (by omega) hf.digits hfl near
  have wide : fmtW 23 16 (e.q * auKm) = List.replicate (6 - ds.length) 32 ++ (ds ++ 46 :: fs) := by
    unfold fmtW
    rw [txt, List.length_append, List.length_cons, hfl, show 23 - (ds.length + (16 + 1)) = 6 - ds.length by omega]
  have hdist : ShowElem.dist (room - 1) f.precision e.q =
      .ok (List.replicate (6 - ds.length) 32 ++ ds ++ 46 :: fs.take (f.precision + 4 - ds.length) ++ bytes "km") := by
    have hb : (bytes "km").length = 2 := by decide +kernel
    have dt : distText e.q = (fmtW 23 16 (e.q * auKm), true) := by
      unfold distText
      rw [if_neg (by linarith), if_neg (not_lt.2 small)]
    unfold ShowElem.dist distPos
    rw [if_neg (not_lt.2 h0)]
    simp only
    rw [if_neg (by linarith), dt]
    simp only
    rw [if_pos (by rw [wide]; simp only [List.length_append, List.length_cons, List.length_replicate, hfl]; omega), B, wide,
      cut_text hd.digits hd.nonempty (by omega), B, if_neg (show ¬ f.precision + 4 - ds.length = 0 by omega), if_pos trivial, if_pos (by
        simp only [List.length_append, List.length_cons, List.length_replicate, List.length_take, hb]; omega)]
  refine ⟨6 - ds.length, _, ds ++ 46 :: fs.take (f.precision + 1), ?_, ⟨ds, _, rfl, hd.digits, hd.nonempty, f1, f2, rfl⟩, f3⟩
  have hb : (bytes " (2000.0)            P               Q").length = 38 := by decide +kernel
  have cut : ∀ b, (113 :: (List.replicate (6 - ds.length) 32 ++ ds ++ 46 :: fs.take (f.precision + 4 - ds.length) ++ bytes "km") ++ List.replicate b 32).take
      (f.precision + 9) = 113 :: (List.replicate (6 - ds.length) 32 ++ (ds ++ 46 :: fs.take (f.precision + 1))) := by
    intro b
    have e1 : f.precision + 9 = ((List.replicate (6 - ds.length) 32).length + (ds.length + (f.precision + 1 + 1))) + 1 := by
      rw [List.length_replicate]
      omega
    rw [List.cons_append, e1, List.take_succ_cons]
    simp only [List.append_assoc]
    rw [List.take_length_add_append, List.take_length_add_append, List.cons_append, List.take_succ_cons,
      List.take_append_of_le_length (by rw [List.length_take]; omega), List.take_take, Nat.min_eq_left (by omega)]
  have ho' : Open cometary e := ho
  unfold anomalyLine
  rw [if_pos ho', if_neg (by omega), hdist, B, padTo, shown_cols, Nat.max_eq_right hp, if_neg (by omega), if_pos rfl, B, cut]
  by_cases h : f.omitPq = true
  · rw [if_pos h, if_pos h, List.append_nil]
  · rw [if_neg h, if_neg h, cat, if_pos (by
      simp only [List.length_cons, List.length_append, List.length_replicate, f2, hb]; omega)]

/-- Finding: with more than ten decimals the line of a parabola with the eccentricity is narrower on the left than the others are. -/
theorem C99_parabola_shift {room : Nat} {f : Form} {e : Elements} (hp : 10 < f.precision) (hp' : f.precision ≤ 15) (hr : 80 ≤ room) :
    ∃ s, eccText room f true e = .ok s ∧ s.length = 19 ∧ s.length < max 10 f.precision + 9 := by
  have hl : (bytes "e   1.0            ").length = 19 := by decide +kernel
  have B : ∀ {α β : Type} (a : α) (g : α → Outcome β), (Outcome.ok a).bind g = g a := fun _ _ => rfl
  refine ⟨bytes "e   1.0            ", ?_, hl, by omega⟩
  unfold eccText
  simp only [shown_cols]
  rw [if_pos trivial, put, if_pos (by omega), B, if_neg (by omega), List.take_of_length_le (by omega)]

/-- A hyperbola past the Earth. -/
example : ∃ e : Elements, 1 ≤ e.ecc ∧ 0 < e.q ∧ e.q * kilometres ≤ 998 :=
  ⟨⟨2461600, 0.000005, 2461000.5, 1.2, 0.18, 1.3, 1.4, 4, -0.1, 0, 3.34, 0.12, 0.0003, (1, 0, 0), (0, 1, 0), 3, true⟩, by norm_num, by norm_num,
    by unfold kilometres; norm_num⟩

end Verif.Props
