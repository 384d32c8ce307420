import Verif.Model.MpcOrb
import Verif.Spec.MpcOrb
import Verif.Props.Eop
import Verif.Props.Orbit
import Verif.Props.QuickReal
import Verif.Props.Calendars
import Verif.Lemmas.Digits

/-!
# C101: orbits of asteroids from `mpcorb.dat` and `astorb.dat`
-/

namespace Verif.Props

open Verif Verif.Spec Verif.Date Verif.MpcOrb Verif.Orbit

/-- What should be stored of an orbit with its epoch at 0h of day `jd`: angles in radians, distance of the perihelion, the time scale √(a³/GM), the
    magnitudes, and the passage through the perihelion that is nearest to the epoch. -/
structure OrbitStored (r : Asteroid) (d : OrbitData) (jd : Int) : Prop where
  epoch : r.epoch = jd - 1 / 2
  meanAnomaly : r.el.meanAnomaly = d.meanAnomaly * (Real.pi / 180)
  argPer : r.el.argPer = d.argPer * (Real.pi / 180)
  node : r.el.ascNode = d.node * (Real.pi / 180)
  incl : r.el.incl = d.incl * (Real.pi / 180)
  ecc : r.el.ecc = d.ecc
  q : r.el.q = d.axis * (1 - d.ecc)
  axis : r.el.majorAxis = d.axis
  time : r.el.t0 = d.axis * √(d.axis / 0.01720209895 ^ 2)
  gm : r.el.gm = 0.01720209895 ^ 2
  momentum : r.el.angularMomentum = √(0.01720209895 ^ 2 * (d.axis * (1 - d.ecc)) * (1 + d.ecc))
  shape : r.el.minorToMajor = √|1 - (d.ecc : ℝ) * d.ecc|
  vectors : Real.cos (d.incl * (Real.pi / 180)) ≠ 0 →
    r.el.perihVec = towardsPerihelion (d.node * (Real.pi / 180)) (d.incl * (Real.pi / 180)) (d.argPer * (Real.pi / 180)) ∧
    r.el.sideways = ahead (d.node * (Real.pi / 180)) (d.incl * (Real.pi / 180)) (d.argPer * (Real.pi / 180))
  passage : ∃ n : Int, r.epoch - r.el.perihTime = (d.meanAnomaly * (Real.pi / 180) + n * (2 * Real.pi)) * r.el.t0
  nearest : 0 ≤ d.meanAnomaly → d.meanAnomaly ≤ 360 → 0 ≤ d.axis → |r.epoch - r.el.perihTime| ≤ Real.pi * r.el.t0
  absMag : r.absMag = d.absMag
  slope : r.slopeParam = d.slope

theorem solarGm_eq : solarGm = 0.01720209895 ^ 2 := by unfold solarGm; ring

theorem derive_rest (e : Elements) (gm : ℝ) (he : e.ecc ≠ 1) :
    (derive e gm).majorAxis = e.q / |1 - e.ecc| ∧ (derive e gm).t0 = e.q / |1 - e.ecc| * √(e.q / |1 - e.ecc| / gm) ∧
    (derive e gm).meanAnomaly = e.meanAnomaly ∧ (derive e gm).argPer = e.argPer ∧ (derive e gm).ascNode = e.ascNode ∧ (derive e gm).incl = e.incl ∧
    (derive e gm).q = e.q ∧ (derive e gm).ecc = e.ecc ∧ (derive e gm).minorToMajor = √|1 - e.ecc * e.ecc| := by
  unfold derive orbitVectors
  simp only [ne_eq, he, not_false_iff, if_true]
  simp only [and_self]

theorem stored_setUp {d : OrbitData} {jd : Int} {old : Elements} {h g : ℝ} (he : d.ecc < 1) (hh : h = d.absMag) (hg : g = d.slope) :
    OrbitStored
      { epoch := (jd : ℝ) - 0.5
        el := setUp ((jd : ℝ) - 0.5) { old with meanAnomaly := d.meanAnomaly, argPer := d.argPer, ascNode := d.node, incl := d.incl, ecc := d.ecc, majorAxis := d.axis }
        absMag := h, slopeParam := g } d jd := by
  have he' : (d.ecc : ℝ) < 1 := by exact_mod_cast he
  generalize hE : ({ old with meanAnomaly := (d.meanAnomaly : ℝ) * (Real.pi / 180), argPer := (d.argPer : ℝ) * (Real.pi / 180),
                              ascNode := (d.node : ℝ) * (Real.pi / 180), incl := (d.incl : ℝ) * (Real.pi / 180), ecc := (d.ecc : ℝ),
                              majorAxis := (d.axis : ℝ), q := (d.axis : ℝ) * (1 - (d.ecc : ℝ)) } : Elements) = E
  have hset : setUp ((jd : ℝ) - 0.5) { old with meanAnomaly := (d.meanAnomaly : ℝ), argPer := (d.argPer : ℝ), ascNode := (d.node : ℝ), incl := (d.incl : ℝ), ecc := (d.ecc : ℝ), majorAxis := (d.axis : ℝ) } =
      { derive E solarGm with
        angularMomentum := √(solarGm * (derive E solarGm).q * (1 + (derive E solarGm).ecc))
        perihTime := (jd : ℝ) - 0.5 - (if (derive E solarGm).meanAnomaly > Real.pi then (derive E solarGm).meanAnomaly - (Real.pi + Real.pi)
          else (derive E solarGm).meanAnomaly) * (derive E solarGm).t0
        gm := solarGm } := by
    rw [← hE]
    rfl
  have e1 : E.ecc = d.ecc := by rw [← hE]
  have e2 : E.q = (d.axis : ℝ) * (1 - d.ecc) := by rw [← hE]
  have e3 : E.meanAnomaly = (d.meanAnomaly : ℝ) * (Real.pi / 180) := by rw [← hE]
  have e4 : E.argPer = (d.argPer : ℝ) * (Real.pi / 180) := by rw [← hE]
  have e5 : E.ascNode = (d.node : ℝ) * (Real.pi / 180) := by rw [← hE]
  have e6 : E.incl = (d.incl : ℝ) * (Real.pi / 180) := by rw [← hE]
  have hax : E.q / |1 - E.ecc| = d.axis := by
    rw [e1, e2, abs_of_pos (by linarith)]
    field_simp [show (1 : ℝ) - d.ecc ≠ 0 by linarith]
  obtain ⟨r1, r2, r3, r4, r5, r6, r7, r8, r9⟩ := derive_rest E solarGm (by rw [e1]; linarith)
  rw [hax] at r1 r2
  have hpi := Real.pi_pos
  rw [hset]
  have ht : (derive E solarGm).t0 = d.axis * √(d.axis / 0.01720209895 ^ 2) := by rw [r2, solarGm_eq]
  refine
    { epoch := by norm_num
      meanAnomaly := by simp only [r3, e3]
      argPer := by simp only [r4, e4]
      node := by simp only [r5, e5]
      incl := by simp only [r6, e6]
      ecc := by simp only [r8, e1]
      q := by simp only [r7, e2]
      axis := r1
      time := ht
      gm := solarGm_eq
      momentum := by simp only [r7, r8, e1, e2]; rw [solarGm_eq]
      shape := by simp only [r9, e1]
      vectors := ?_
      passage := ?_
      nearest := ?_
      absMag := hh
      slope := hg }
  · intro hc
    have := derive_fields E solarGm (by rw [e6]; exact hc)
    rw [e4, e5, e6] at this
    exact ⟨this.1, this.2.1⟩
  · simp only [r3, e3]
    by_cases hm : (d.meanAnomaly : ℝ) * (Real.pi / 180) > Real.pi
    · exact ⟨-1, by rw [if_pos hm]; push_cast; ring⟩
    · exact ⟨0, by rw [if_neg hm]; push_cast; ring⟩
  · intro h0 h1 ha
    simp only [r3, e3]
    have h0' : (0 : ℝ) ≤ d.meanAnomaly := by exact_mod_cast h0
    have h1' : (d.meanAnomaly : ℝ) ≤ 360 := by exact_mod_cast h1
    have ha' : (0 : ℝ) ≤ d.axis := by exact_mod_cast ha
    have ht0 : 0 ≤ (derive E solarGm).t0 := by rw [ht]; positivity
    have hM : |if (d.meanAnomaly : ℝ) * (Real.pi / 180) > Real.pi then (d.meanAnomaly : ℝ) * (Real.pi / 180) - (Real.pi + Real.pi) else (d.meanAnomaly : ℝ) * (Real.pi / 180)| ≤ Real.pi := by
      split_ifs with hm
      · rw [abs_le]
        constructor <;> nlinarith
      · rw [abs_le]
        constructor <;> nlinarith
    rw [sub_sub_cancel, abs_mul, abs_of_nonneg ht0]
    exact mul_le_mul_of_nonneg_right hM ht0

/-! ## `mpcorb.dat` -/

theorem extendedHex_oneChar {v : Nat} (h : v < 62) : extendedHex (oneChar v) = v := by
  unfold extendedHex oneChar MpcLine.sbyte
  split_ifs <;> omega

theorem extendedHex_digit {v : Nat} (h : v < 10) : extendedHex (48 + v) = v := by
  unfold extendedHex
  rw [if_pos (by omega)]
  omega

theorem packed_epoch {d m y : Nat} {r : List Nat} (hd : d < 62) (hm : m < 62) (hy : y < 6200) (e : gregorian.Exists d m y) :
    mpcEpoch (packedDate d m y ++ r) = some (gregorian.dayNumber d m y) := by
  unfold mpcEpoch packedDate
  simp only [MpcOrb.byte, List.cons_append, List.getD_cons_succ, List.getD_cons_zero]
  rw [extendedHex_oneChar hd, extendedHex_oneChar hm, extendedHex_oneChar (v := y / 100) (by omega), extendedHex_digit (by omega), extendedHex_digit (by omega)]
  rw [show (100 * ((y / 100 : Nat) : Int) + 10 * ((y / 10 % 10 : Nat) : Int) + ((y % 10 : Nat) : Int)) = y by omega]
  exact C02_gregorian_daycount e

theorem orb_number {line t : List Nat} {c : Nat} {x : ℚ} (h : FieldAt line c t) (hx : Decimal t x) : MpcOrb.number (line.drop c) = (x : ℝ) :=
  number_field h hx

theorem orb_byte {l : List Nat} {i c : Nat} (h : l[i]? = some c) : MpcOrb.byte l i = c := byte_of h

theorem optional_number {line : List Nat} {c p : Nat} {x : ℚ} (h : Optionally line c p x) :
    (if MpcOrb.byte line p = 46 then MpcOrb.number (line.drop c) else 0) = (x : ℝ) := by
  rcases h with ⟨h, t, hf, hx⟩ | ⟨h, rfl⟩
  · rw [if_pos (orb_byte h), orb_number hf hx]
  · rw [if_neg]
    · simp
    · intro hb
      apply h
      unfold MpcOrb.byte at hb
      rw [List.getD_eq_getElem?_getD] at hb
      cases hc : getElem? line p with
      | none => rw [hc] at hb; simp at hb
      | some v => rw [hc] at hb; simp at hb; rw [hb]

theorem exists_small {d m y : Nat} (e : gregorian.Exists d m y) : d < 62 ∧ m < 62 := by
  obtain ⟨h1, h2, n, h3, h4⟩ := e
  have hm : ((m : Int) - 1).toNat < 13 := by
    have := (List.getElem?_eq_some_iff.1 h3).1
    simpa [gregorian, romanMonths] using this
  have hn : n ≤ 31 := by
    have := List.mem_of_getElem? h3
    simp only [gregorian, romanMonths, List.mem_cons, List.not_mem_nil, or_false] at this
    split_ifs at this <;> omega
  omega

/-- **C101.** A line of `mpcorb.dat` gives the orbit that it describes, and the Julian Day of its epoch is returned. -/
theorem C101_mpcorb {line : List Nat} {d : OrbitData} (h : MpcorbLine line d) (e : gregorian.Exists d.day d.month d.year) (hy : d.year < 6200)
    (he : d.ecc < 1) (old : Elements) :
    ∃ r, extractMpcorb old line = .ok (gregorian.dayNumber d.day d.month d.year, some r) ∧ OrbitStored r d (gregorian.dayNumber d.day d.month d.year) := by
  obtain ⟨hd, hm⟩ := exists_small e
  obtain ⟨t1, f1, x1⟩ := h.meanAnomaly
  obtain ⟨t2, f2, x2⟩ := h.argPer
  obtain ⟨t3, f3, x3⟩ := h.node
  obtain ⟨t4, f4, x4⟩ := h.incl
  obtain ⟨t5, f5, x5⟩ := h.ecc
  obtain ⟨t6, f6, x6⟩ := h.axis
  obtain ⟨r, hr⟩ := field_drop h.date
  have h25 : MpcOrb.byte line 25 = 32 := by
    have : MpcOrb.byte line 25 = (line.drop 20).getD 5 0 := by
      unfold MpcOrb.byte
      rw [List.getD_eq_getElem?_getD, List.getD_eq_getElem?_getD, List.getElem?_drop]
    rw [this, hr]
    rfl
  unfold extractMpcorb
  rw [if_pos ⟨h.long, orb_byte h.blanks.2, orb_byte h.points.2, h25, orb_byte h.points.1, orb_byte h.blanks.1⟩]
  rw [hr, packed_epoch hd hm hy e]
  simp only [orb_number f1 x1, orb_number f2 x2, orb_number f3 x3, orb_number f4 x4, orb_number f5 x5, orb_number f6 x6]
  exact ⟨_, rfl, stored_setUp he (optional_number h.absMag) (optional_number h.slope)⟩

/-- **C101.** Lines that are too short, or without the blanks and points of the format, give 0 and leave the structure as it was. -/
theorem C101_other_lines {line : List Nat} (old : Elements)
    (h : line.length ≤ 200 ∨ (line)[47]? ≠ some 32 ∨ (line)[82]? ≠ some 46 ∨ (line)[25]? ≠ some 32 ∨ (line)[29]? ≠ some 46 ∨ (line)[36]? ≠ some 32) :
    extractMpcorb old line = .ok (0, none) := by
  unfold extractMpcorb
  rw [if_neg]
  rintro ⟨h0, h1, h2, h3, h4, h5⟩
  have key : ∀ i c, c ≠ 0 → MpcOrb.byte line i = c → (line)[i]? = some c := by
    intro i c hc hb
    unfold MpcOrb.byte at hb
    rw [List.getD_eq_getElem?_getD] at hb
    cases hl : (line)[i]? with
    | none => rw [hl] at hb; exact absurd hb.symm hc
    | some v => rw [hl] at hb; simpa using hb
  rcases h with h | h | h | h | h | h
  · omega
  · exact h (key _ _ (by omega) h1)
  · exact h (key _ _ (by omega) h2)
  · exact h (key _ _ (by omega) h3)
  · exact h (key _ _ (by omega) h4)
  · exact h (key _ _ (by omega) h5)

/-! ## `astorb.dat` -/

theorem longLoop_digits {ds : List Nat} (hd : AllDigits ds) (v : Nat) (rest : List Nat) :
    longLoop (v : Int) (ds ++ rest) = longLoop ((v * 10 ^ ds.length + value ds : Nat) : Int) rest := by
  induction ds generalizing v with
  | nil => simp [value]
  | cons c s ih =>
    have hc := hd c (by simp)
    rw [List.cons_append, longLoop, if_neg (by omega), if_neg (by omega)]
    rw [show (v : Int) * 10 + (MpcLine.sbyte c - 48) = ((v * 10 + (c - 48) : Nat) : Int) by unfold MpcLine.sbyte; rw [if_pos (by omega)]; omega]
    rw [ih (fun x hx => hd x (by simp [hx])), value_cons]
    congr 2
    rw [List.length_cons]
    ring

theorem longLoop_number {ds fs : List Nat} (hd : AllDigits ds) (hf : AllDigits fs) (v : Nat) (rest : List Nat) :
    longLoop (v : Int) (ds ++ 46 :: fs ++ rest) = longLoop ((v * 10 ^ (ds.length + fs.length) + value ds * 10 ^ fs.length + value fs : Nat) : Int) rest := by
  rw [List.append_assoc, longLoop_digits hd, List.cons_append, longLoop, if_neg (by omega), if_pos rfl, longLoop_digits hf]
  congr 2
  rw [pow_add]
  ring

/-- A number as a whole number of units of its last decimal. -/
theorem places_units {p : Nat} {ds fs : List Nat} {x : ℚ} (hl : fs.length = p) (hx : x = value ds + (value fs : ℚ) / 10 ^ p) :
    (((0 * 10 ^ (ds.length + fs.length) + value ds * 10 ^ fs.length + value fs : Nat) : Int) : ℝ) / 10 ^ p = (x : ℝ) := by
  subst hl
  rw [hx]
  push_cast
  have : (10 : ℝ) ^ fs.length ≠ 0 := by positivity
  field_simp
  ring

theorem extractLong_field {p : Nat} {t rest : List Nat} {x : ℚ} (h : Places p t x) :
    ∃ v : Int, extractLong (t ++ 32 :: rest) = .ok v ∧ (v : ℝ) / 10 ^ p = x := by
  obtain ⟨k, ds, fs, rfl, hd, hf, hl, hx⟩ := h
  refine ⟨_, ?_, places_units hl hx⟩
  unfold extractLong
  rw [List.append_assoc, skipBlanks_replicate, skipBlanks_of]
  · have := longLoop_number hd hf 0 (32 :: rest)
    rw [Nat.cast_zero] at this
    rw [this, longLoop, if_pos rfl]
  · cases ds with
    | nil => simp [at?]
    | cons c s => have := hd c (by simp); simp [at?]; omega

theorem byte_drop (l : List Nat) (i j : Nat) : (l.drop i)[j]? = l[i + j]? := List.getElem?_drop

/-- Without the first byte of its columns, when that is a blank. -/
theorem places_skip {p : Nat} {t : List Nat} {x : ℚ} (h : Places p t x) (hb : t.head? = some 32) : ∃ s, t = 32 :: s ∧ Places p s x := by
  obtain ⟨k, ds, fs, rfl, hd, hf, hl, hx⟩ := h
  cases k with
  | succ k => exact ⟨_, by rw [List.replicate_succ, List.cons_append], k, ds, fs, rfl, hd, hf, hl, hx⟩
  | zero =>
    cases ds with
    | nil => simp at hb
    | cons c s => have := hd c (by simp); simp at hb; omega

theorem scanReal_either {t r : List Nat} {x : ℚ} (h : Decimal t x) (hr : Scan.Stops r) : Scan.scanReal (K := ℚ) (t ++ r) = some (x, r) := by
  obtain ⟨k, neg, ds, fs, rfl, hd, hf, hne, rfl⟩ := h
  unfold Scan.scanReal
  have e : List.replicate k 32 ++ ((if neg = true then [45] else []) ++ (ds ++ 46 :: fs)) ++ r
      = List.replicate k 32 ++ ((if neg = true then [45] else []) ++ (ds ++ 46 :: fs ++ r)) := by simp
  rw [e, Scan.skipSpace_blanks]
  have hs : Scan.sign (Scan.skipSpace ((if neg = true then [45] else []) ++ (ds ++ 46 :: fs ++ r))) = (neg, ds ++ 46 :: fs ++ r) := by
    cases neg with
    | true =>
      simp only [if_true]
      rw [Scan.skipSpace_of (by rfl)]
      rfl
    | false =>
      simp only [Bool.false_eq_true, if_false, List.nil_append]
      by_cases h0 : ds = []
      · subst h0
        rw [Scan.skipSpace_of (by rfl), Scan.sign_of (by simp [at?]) (by simp [at?])]
      · rw [List.append_assoc, Scan.start_digits hd h0]
  rw [hs]
  simp only [Scan.mantissa_decimal hd hf hne hr.1, Scan.exponent_none hr.2.2.1 hr.2.2.2, Scan.real_zero]
  rw [if_neg (by rintro (h | h); exacts [hr.2.2.1 h, hr.2.2.2 h])]
  have : (10 : ℚ) ^ fs.length ≠ 0 := pow_ne_zero _ (by norm_num)
  cases neg <;> simp <;> field_simp
  ring

theorem ymd_parts {d m y : Nat} (hd : d < 100) (hm : m < 100) :
    ((10000 * y + 100 * m + d : Nat) : Int).tmod 100 = d ∧ (((10000 * y + 100 * m + d : Nat) : Int).tdiv 100).tmod 100 = m ∧
    ((10000 * y + 100 * m + d : Nat) : Int).tdiv 10000 = y := by
  have a : ∀ n k : Nat, ((n : Int).tdiv k) = ((n / k : Nat) : Int) := fun n k => rfl
  have b : ∀ n k : Nat, ((n : Int).tmod k) = ((n % k : Nat) : Int) := fun n k => rfl
  refine ⟨?_, ?_, ?_⟩
  · rw [show (100 : Int) = ((100 : Nat) : Int) by rfl, b]; omega
  · rw [show (100 : Int) = ((100 : Nat) : Int) by rfl, a, b]; omega
  · rw [show (10000 : Int) = ((10000 : Nat) : Int) by rfl, a]; omega

/-- The eccentricity begins with "0.", and the decimals are read. -/
theorem ecc_decimals {t rest : List Nat} {x : ℚ} (hl : t.length = 10) (h : Places 8 t x) (h1 : x < 1) :
    ∃ v : Int, extractLong ((t ++ 32 :: rest).drop 2) = .ok v ∧ (v : ℝ) / 10 ^ 8 = x := by
  obtain ⟨k, ds, fs, rfl, hd, hf, hlen, hx⟩ := h
  have hv : value ds = 0 := by
    by_contra hne
    have : (1 : ℚ) ≤ value ds := by exact_mod_cast Nat.one_le_iff_ne_zero.2 hne
    have : (0 : ℚ) ≤ (value fs : ℚ) / 10 ^ 8 := by positivity
    linarith
  have hkd : k + ds.length = 1 := by simp at hl; omega
  have hdrop : (List.replicate k 32 ++ (ds ++ 46 :: fs) ++ 32 :: rest).drop 2 = fs ++ 32 :: rest := by
    rw [show List.replicate k 32 ++ (ds ++ 46 :: fs) ++ 32 :: rest = (List.replicate k 32 ++ ds ++ [46]) ++ (fs ++ 32 :: rest) by simp]
    rw [List.drop_append_of_le_length (by simp; omega), List.drop_of_length_le (by simp; omega), List.nil_append]
  rw [hdrop]
  refine ⟨value fs, ?_, ?_⟩
  · unfold extractLong
    rw [skipBlanks_of]
    · have := longLoop_digits hf 0 (32 :: rest)
      rw [Nat.cast_zero] at this
      rw [this, longLoop, if_pos rfl]
      simp
    · cases fs with
      | nil => simp at hlen
      | cons c s => have := hf c (by simp); simp [at?]; omega
  · rw [hx, hv]
    push_cast
    ring

/-- **C101.** A line of `astorb.dat` with an inclination below 100 degrees gives the orbit that it describes; so the two formats agree. -/
theorem C101_astorb {line : List Nat} {d : OrbitData} (h : AstorbLine line d) (e : gregorian.Exists d.day d.month d.year)
    (hi : (line)[147]? = some 32) (ha : (line)[168]? = some 32) (old : Elements) :
    ∃ r, extractAstorb old line = .ok (gregorian.dayNumber d.day d.month d.year, some r) ∧ OrbitStored r d (gregorian.dayNumber d.day d.month d.year) := by
  obtain ⟨hd62, hm62⟩ := exists_small e
  obtain ⟨tm, um, rm, xh, hmag, xg⟩ := h.magnitudes
  obtain ⟨dd, fd, add, ld, vd⟩ := h.date
  obtain ⟨t1, f1, l1, x1⟩ := h.meanAnomaly
  obtain ⟨t2, f2, l2, x2⟩ := h.argPer
  obtain ⟨t3, f3, l3, x3⟩ := h.node
  obtain ⟨t4, f4, l4, x4⟩ := h.incl
  obtain ⟨t5, f5, l5, x5, he⟩ := h.ecc
  obtain ⟨t6, f6, l6, x6⟩ := h.axis
  obtain ⟨r1, g1⟩ := field_drop f1
  obtain ⟨r2, g2⟩ := field_drop f2
  obtain ⟨r4, g4⟩ := field_drop f4
  obtain ⟨r5, g5⟩ := field_drop f5
  obtain ⟨r6, g6⟩ := field_drop f6
  obtain ⟨rd, gd⟩ := field_drop fd
  obtain ⟨v1, a1, b1⟩ := extractLong_field (rest := r1) x1
  obtain ⟨v2, a2, b2⟩ := extractLong_field (rest := r2) x2
  have h147 : ∃ s, t4 = 32 :: s ∧ Places 6 s d.incl := by
    apply places_skip x4
    have := byte_drop line 147 0
    rw [g4, Nat.add_zero, hi, List.getElem?_append_left (by omega)] at this
    rw [List.head?_eq_getElem?]
    exact this
  obtain ⟨s4, rfl, x4'⟩ := h147
  obtain ⟨v3, a3, b3⟩ := extractLong_field (rest := s4 ++ 32 :: r4) x3
  obtain ⟨v4, a4, b4⟩ := extractLong_field (rest := r4) x4'
  obtain ⟨v5, a5, b5⟩ := ecc_decimals (rest := r5) l5 x5 he
  have hdr : ∀ i j, line.drop (i + j) = (line.drop i).drop j := fun i j => by rw [List.drop_drop]
  have d3 : line.drop 137 = t3 ++ 32 :: (s4 ++ 32 :: r4) := by rw [f3, g4, List.cons_append]
  have d4 : line.drop 148 = s4 ++ 32 :: r4 := by rw [hdr 147 1, g4]; rfl
  have d5 : line.drop 160 = (t5 ++ 32 :: r5).drop 2 := by rw [hdr 158 2, g5]
  have d6 : MpcOrb.number (line.drop 169) = d.axis := by
    have h168 : t6.head? = some 32 := by
      have := byte_drop line 168 0
      rw [g6, Nat.add_zero, ha, List.getElem?_append_left (by omega)] at this
      rw [List.head?_eq_getElem?]
      exact this
    obtain ⟨k, neg, ds, fs, ht, hds, hfs, hne, hx⟩ := x6
    have hk : ∃ j, k = j + 1 := by
      cases k with
      | succ j => exact ⟨j, rfl⟩
      | zero =>
        rw [ht] at h168
        cases neg with
        | true => simp at h168
        | false =>
          cases ds with
          | nil => simp at h168
          | cons c s => have := hds c (by simp); simp at h168; omega
    obtain ⟨j, rfl⟩ := hk
    have : line.drop 169 = (List.replicate j 32 ++ ((if neg = true then [45] else []) ++ (ds ++ 46 :: fs))) ++ 32 :: r6 := by
      rw [hdr 168 1, g6, ht, List.replicate_succ]
      rfl
    unfold MpcOrb.number MpcLine.atof
    rw [this, strtold_signed ⟨j, neg, ds, fs, rfl, hds, hfs, hne, hx⟩ (stops_at_blank r6)]
  have datoi : atoi (line.drop 106) = ((10000 * d.year + 100 * d.month + d.day : Nat) : Int) := by
    rw [gd, atoi_field add (by intro h; simp [h] at ld) (by rfl), vd]
  obtain ⟨p1, p2, p3⟩ := ymd_parts (y := d.year) (show d.day < 100 by omega) (show d.month < 100 by omega)
  unfold extractAstorb
  rw [if_pos h.long, hmag, scanReal_either xh (stops_at_blank _)]
  simp only []
  rw [show 32 :: (um ++ 32 :: rm) = (32 :: um) ++ 32 :: rm from rfl, scanReal_either (x := d.slope) ?_ (stops_at_blank _)]
  · simp only [datoi, p1, p2, p3, C02_gregorian_daycount e, d3, d4, d5, g1, g2, a1, a2, a3, a4, a5, d6, Outcome.bind, b1, b2, b3, b4, b5]
    exact ⟨_, rfl, stored_setUp he rfl rfl⟩
  · obtain ⟨k, neg, ds, fs, rfl, hds, hfs, hne, hx⟩ := xg
    exact ⟨k + 1, neg, ds, fs, by rw [List.replicate_succ]; rfl, hds, hfs, hne, hx⟩

/-- **C101, finding.** With an inclination of 100 degrees or more there is no blank before it in `astorb.dat`: its digits are taken as further ones of the
    node, and its own hundreds are lost. -/
theorem C101_retrograde {line : List Nat} {d : OrbitData} (h : AstorbLine line d) {c : Nat} (hi : (line)[147]? = some c) (hc : 49 ≤ c ∧ c ≤ 57) :
    ∃ node incl : Int, extractLong (line.drop 137) = .ok node ∧ extractLong (line.drop 148) = .ok incl ∧
      (node : ℝ) / 10 ^ 6 = 10 ^ 9 * d.node + d.incl ∧ (incl : ℝ) / 10 ^ 6 = d.incl - 100 * ((c : ℝ) - 48) := by
  obtain ⟨t3, f3, l3, x3⟩ := h.node
  obtain ⟨t4, f4, l4, x4⟩ := h.incl
  obtain ⟨r4, g4⟩ := field_drop f4
  obtain ⟨k4, ds4, fs4, rfl, hd4, hf4, hl4, hx4⟩ := x4
  have hhead : (List.replicate k4 32 ++ (ds4 ++ 46 :: fs4))[0]? = some c := by
    have := byte_drop line 147 0
    rw [g4, Nat.add_zero, hi, List.getElem?_append_left (by omega)] at this
    exact this
  have hk4 : k4 = 0 := by
    cases k4 with
    | zero => rfl
    | succ k => rw [List.replicate_succ] at hhead; simp at hhead; omega
  subst hk4
  simp only [List.replicate_zero, List.nil_append] at hhead l4 g4
  have hlen4 : ds4.length = 3 := by simp at l4; omega
  obtain ⟨a, ds, rfl⟩ : ∃ a ds, ds4 = a :: ds := by
    cases ds4 with
    | nil => simp at hlen4
    | cons a ds => exact ⟨a, ds, rfl⟩
  simp at hhead
  subst hhead
  have hds : AllDigits ds := fun x hx => hd4 x (by simp [hx])
  have hlen : ds.length = 2 := by simpa using hlen4
  obtain ⟨k3, ds3, fs3, rfl, hd3, hf3, hl3, hx3⟩ := x3
  refine ⟨(((0 * 10 ^ (ds3.length + fs3.length) + value ds3 * 10 ^ fs3.length + value fs3) * 10 ^ ((a :: ds).length + fs4.length) +
      value (a :: ds) * 10 ^ fs4.length + value fs4 : Nat) : Int),
    ((0 * 10 ^ (ds.length + fs4.length) + value ds * 10 ^ fs4.length + value fs4 : Nat) : Int), ?_, ?_, ?_, ?_⟩
  · unfold extractLong
    rw [f3, List.append_assoc, skipBlanks_replicate, skipBlanks_of]
    · have := longLoop_number hd3 hf3 0 (line.drop 147)
      rw [Nat.cast_zero] at this
      rw [this, g4, longLoop_number hd4 hf4, longLoop, if_pos rfl]
    · cases ds3 with
      | nil => simp [at?]
      | cons c s => have := hd3 c (by simp); simp [at?]; omega
  · have d4 : line.drop 148 = (ds ++ 46 :: fs4) ++ 32 :: r4 := by
      rw [show 148 = 147 + 1 from rfl, ← List.drop_drop, g4]
      rfl
    unfold extractLong
    rw [d4, skipBlanks_of]
    · have := longLoop_number hds hf4 0 (32 :: r4)
      rw [Nat.cast_zero] at this
      rw [this, longLoop, if_pos rfl]
    · cases ds with
      | nil => simp at hlen
      | cons c s => have := hds c (by simp); simp [at?]; omega
  · rw [hx3, hx4]
    push_cast
    rw [hl3, hl4, hlen4]
    ring
  · rw [hx4, value_cons, hlen, hl4]
    have : ((a - 48 : Nat) : ℝ) = (a : ℝ) - 48 := by rw [Nat.cast_sub (by omega)]; norm_num
    push_cast
    rw [this]
    ring

/-- **C101, finding.** A number in `astorb.dat` without a blank after it is read past the end of the line. -/
theorem C101_runs_on {line : List Nat} (old : Elements) (hl : 267 < line.length) (hb : ∀ c ∈ line.drop 115, c ≠ 32)
    (h : (Scan.scanReal (K := ℚ) (line.drop 41)).isSome) (h' : ∀ x r, Scan.scanReal (K := ℚ) (line.drop 41) = some (x, r) → (Scan.scanReal (K := ℚ) r).isSome) :
    extractAstorb old line = .ub := by
  have key : ∀ (s : List Nat) (v : Int), (∀ c ∈ s, c ≠ 32) → longLoop v s = .ub := by
    intro s
    induction s with
    | nil => intro v _; rfl
    | cons c s ih =>
      intro v hs
      rw [longLoop, if_neg (hs c (by simp))]
      exact ih _ (fun x hx => hs x (by simp [hx]))
  have hlong : extractLong (line.drop 115) = .ub := by
    unfold extractLong
    rw [skipBlanks_of]
    · exact key _ _ hb
    · cases hc : line.drop 115 with
      | nil => simp [at?]
      | cons c s => simpa [at?] using hb c (by rw [hc]; simp)
  unfold extractAstorb
  rw [if_pos hl]
  cases h1 : Scan.scanReal (K := ℚ) (line.drop 41) with
  | none => rw [h1] at h; simp at h
  | some p =>
    obtain ⟨x, r⟩ := p
    simp only []
    have := h' x r h1
    cases h2 : Scan.scanReal (K := ℚ) r with
    | none => rw [h2] at this; simp at this
    | some p =>
      obtain ⟨y, r'⟩ := p
      simp only [hlong, Outcome.bind]

/-! ## Examples -/

/-- (1) Ceres. -/
def exampleOrbit : OrbitData :=
  ⟨27, 4, 2019, 7737210 / 100000, 7359764 / 100000, 8030553 / 100000, 1059407 / 100000, 760091 / 10000000, 27691652 / 10000000, 334 / 100, 12 / 100⟩

/-- Its line in `mpcorb.dat`. -/
def exampleMpcorb : List Nat :=
  [48, 48, 48, 48, 49, 32, 32, 32, 32, 51, 46, 51, 52, 32, 32, 48, 46, 49, 50, 32, 75, 49, 57, 52,
   82, 32, 32, 55, 55, 46, 51, 55, 50, 49, 48, 32, 32, 32, 55, 51, 46, 53, 57, 55, 54, 52, 32, 32,
   32, 56, 48, 46, 51, 48, 53, 53, 51, 32, 32, 32, 49, 48, 46, 53, 57, 52, 48, 55, 32, 32, 48, 46,
   48, 55, 54, 48, 48, 57, 49, 32, 32, 48, 46, 50, 49, 51, 56, 56, 53, 50, 50, 32, 32, 32, 50, 46,
   55, 54, 57, 49, 54, 53, 50, 32, 32, 48, 32, 77, 80, 79, 52, 57, 50, 55, 52, 56, 32, 32, 54, 55,
   53, 49, 32, 49, 49, 53, 32, 49, 56, 48, 49, 45, 50, 48, 49, 57, 32, 48, 46, 54, 48, 32, 77, 45,
   118, 32, 51, 48, 104, 32, 80, 97, 110, 32, 32, 32, 32, 32, 32, 32, 32, 48, 48, 48, 48, 32, 32, 32,
   32, 32, 32, 40, 49, 41, 32, 67, 101, 114, 101, 115, 32, 32, 32, 32, 32, 32, 32, 32, 32, 32, 32, 32,
   32, 32, 50, 48, 49, 57, 48, 57, 49, 53, 10]

/-- Its line in `astorb.dat`. -/
def exampleAstorb : List Nat :=
  [32, 32, 32, 32, 32, 32, 32, 32, 32, 32, 32, 32, 32, 32, 32, 32, 32, 32, 32, 32, 32, 32, 32, 32,
   32, 32, 32, 32, 32, 32, 32, 32, 32, 32, 32, 32, 32, 32, 32, 32, 32, 32, 32, 51, 46, 51, 52, 32,
   32, 48, 46, 49, 50, 32, 32, 32, 32, 32, 32, 32, 32, 32, 32, 32, 32, 32, 32, 32, 32, 32, 32, 32,
   32, 32, 32, 32, 32, 32, 32, 32, 32, 32, 32, 32, 32, 32, 32, 32, 32, 32, 32, 32, 32, 32, 32, 32,
   32, 32, 32, 32, 32, 32, 32, 32, 32, 32, 50, 48, 49, 57, 48, 52, 50, 55, 32, 32, 55, 55, 46, 51,
   55, 50, 49, 48, 48, 32, 32, 55, 51, 46, 53, 57, 55, 54, 52, 48, 32, 32, 56, 48, 46, 51, 48, 53,
   53, 51, 48, 32, 49, 48, 46, 53, 57, 52, 48, 55, 48, 32, 48, 46, 48, 55, 54, 48, 48, 57, 49, 48,
   32, 32, 32, 50, 46, 55, 54, 57, 49, 54, 53, 50, 48, 32, 32, 32, 32, 32, 32, 32, 32, 32, 32, 32,
   32, 32, 32, 32, 32, 32, 32, 32, 32, 32, 32, 32, 32, 32, 32, 32, 32, 32, 32, 32, 32, 32, 32, 32,
   32, 32, 32, 32, 32, 32, 32, 32, 32, 32, 32, 32, 32, 32, 32, 32, 32, 32, 32, 32, 32, 32, 32, 32,
   32, 32, 32, 32, 32, 32, 32, 32, 32, 32, 32, 32, 32, 32, 32, 32, 32, 32, 32, 32, 32, 32, 32, 32,
   32, 32, 32, 10]

set_option maxRecDepth 4000 in
theorem exampleMpcorb_length : exampleMpcorb.length = 203 := rfl

set_option maxRecDepth 4000 in
theorem exampleAstorb_length : exampleAstorb.length = 268 := rfl

theorem exampleOther_length : (exampleAstorb.set 147 49).length = 268 := by rw [List.length_set, exampleAstorb_length]

theorem field_of {l : List Nat} {c n : Nat} {r : List Nat} (h : l.drop (c + n) = 32 :: r) (hc : c ≤ l.length) :
    FieldAt l c ((l.drop c).take n) := by
  refine ⟨l.take c, r, ?_, by rw [List.length_take]; exact Nat.min_eq_left hc⟩
  rw [← h, ← List.drop_drop, List.take_append_drop, List.take_append_drop]

theorem exampleOrbit_date : gregorian.Exists exampleOrbit.day exampleOrbit.month exampleOrbit.year := by
  unfold Calendar.Exists; exact ⟨by decide, by decide, 30, by decide, by decide⟩

theorem mpcorb_example : MpcorbLine exampleMpcorb exampleOrbit where
  long := by have := exampleMpcorb_length; omega
  blanks := ⟨rfl, rfl⟩
  points := ⟨rfl, rfl⟩
  date := field_of (c := 20) (n := 5) rfl (by have := exampleMpcorb_length; omega)
  meanAnomaly := ⟨_, field_of (c := 26) (n := 9) rfl (by have := exampleMpcorb_length; omega), 1, false, [55, 55], [51, 55, 50, 49, 48], rfl, by unfold AllDigits; decide, by unfold AllDigits; decide, Or.inl (by simp), by norm_num [value, exampleOrbit]⟩
  argPer := ⟨_, field_of (c := 37) (n := 9) rfl (by have := exampleMpcorb_length; omega), 1, false, [55, 51], [53, 57, 55, 54, 52], rfl, by unfold AllDigits; decide, by unfold AllDigits; decide, Or.inl (by simp), by norm_num [value, exampleOrbit]⟩
  node := ⟨_, field_of (c := 48) (n := 9) rfl (by have := exampleMpcorb_length; omega), 1, false, [56, 48], [51, 48, 53, 53, 51], rfl, by unfold AllDigits; decide, by unfold AllDigits; decide, Or.inl (by simp), by norm_num [value, exampleOrbit]⟩
  incl := ⟨_, field_of (c := 59) (n := 9) rfl (by have := exampleMpcorb_length; omega), 1, false, [49, 48], [53, 57, 52, 48, 55], rfl, by unfold AllDigits; decide, by unfold AllDigits; decide, Or.inl (by simp), by norm_num [value, exampleOrbit]⟩
  ecc := ⟨_, field_of (c := 69) (n := 10) rfl (by have := exampleMpcorb_length; omega), 1, false, [48], [48, 55, 54, 48, 48, 57, 49], rfl, by unfold AllDigits; decide, by unfold AllDigits; decide, Or.inl (by simp), by norm_num [value, exampleOrbit]⟩
  axis := ⟨_, field_of (c := 92) (n := 11) rfl (by have := exampleMpcorb_length; omega), 2, false, [50], [55, 54, 57, 49, 54, 53, 50], rfl, by unfold AllDigits; decide, by unfold AllDigits; decide, Or.inl (by simp), by norm_num [value, exampleOrbit]⟩
  absMag := Or.inl ⟨rfl, _, field_of (c := 8) (n := 5) rfl (by have := exampleMpcorb_length; omega), 1, false, [51], [51, 52], rfl, by unfold AllDigits; decide, by unfold AllDigits; decide, Or.inl (by simp), by norm_num [value, exampleOrbit]⟩
  slope := Or.inl ⟨rfl, _, field_of (c := 14) (n := 5) rfl (by have := exampleMpcorb_length; omega), 1, false, [48], [49, 50], rfl, by unfold AllDigits; decide, by unfold AllDigits; decide, Or.inl (by simp), by norm_num [value, exampleOrbit]⟩

theorem astorb_example : AstorbLine exampleAstorb exampleOrbit where
  long := by have := exampleAstorb_length; omega
  magnitudes := ⟨[32, 32, 51, 46, 51, 52], [32, 48, 46, 49, 50], exampleAstorb.drop 54, ⟨2, false, [51], [51, 52], rfl, by unfold AllDigits; decide, by unfold AllDigits; decide, Or.inl (by simp), by norm_num [value, exampleOrbit]⟩, rfl, ⟨1, false, [48], [49, 50], rfl, by unfold AllDigits; decide, by unfold AllDigits; decide, Or.inl (by simp), by norm_num [value, exampleOrbit]⟩⟩
  date := ⟨_, field_of (c := 106) (n := 8) rfl (by have := exampleAstorb_length; omega), by unfold AllDigits; decide, rfl, rfl⟩
  meanAnomaly := ⟨_, field_of (c := 115) (n := 10) rfl (by have := exampleAstorb_length; omega), rfl, ⟨1, [55, 55], [51, 55, 50, 49, 48, 48], rfl, by unfold AllDigits; decide, by unfold AllDigits; decide, rfl, by norm_num [value, exampleOrbit]⟩⟩
  argPer := ⟨_, field_of (c := 126) (n := 10) rfl (by have := exampleAstorb_length; omega), rfl, ⟨1, [55, 51], [53, 57, 55, 54, 52, 48], rfl, by unfold AllDigits; decide, by unfold AllDigits; decide, rfl, by norm_num [value, exampleOrbit]⟩⟩
  node := ⟨[32, 56, 48, 46, 51, 48, 53, 53, 51, 48], rfl, rfl, ⟨1, [56, 48], [51, 48, 53, 53, 51, 48], rfl, by unfold AllDigits; decide, by unfold AllDigits; decide, rfl, by norm_num [value, exampleOrbit]⟩⟩
  incl := ⟨_, field_of (c := 147) (n := 10) rfl (by have := exampleAstorb_length; omega), rfl, ⟨1, [49, 48], [53, 57, 52, 48, 55, 48], rfl, by unfold AllDigits; decide, by unfold AllDigits; decide, rfl, by norm_num [value, exampleOrbit]⟩⟩
  ecc := ⟨_, field_of (c := 158) (n := 10) rfl (by have := exampleAstorb_length; omega), rfl, ⟨0, [48], [48, 55, 54, 48, 48, 57, 49, 48], rfl, by unfold AllDigits; decide, by unfold AllDigits; decide, rfl, by norm_num [value, exampleOrbit]⟩, by norm_num [exampleOrbit]⟩
  axis := ⟨_, field_of (c := 168) (n := 13) rfl (by have := exampleAstorb_length; omega), rfl, 3, false, [50], [55, 54, 57, 49, 54, 53, 50, 48], rfl, by unfold AllDigits; decide, by unfold AllDigits; decide, Or.inl (by simp), by norm_num [value, exampleOrbit]⟩

/-- The hypotheses of `C101_mpcorb` and `C101_astorb`: both lines give the same orbit. -/
example (old : Elements) :
    (∃ r, extractMpcorb old exampleMpcorb = .ok (gregorian.dayNumber 27 4 2019, some r) ∧ OrbitStored r exampleOrbit (gregorian.dayNumber 27 4 2019)) ∧
    ∃ r, extractAstorb old exampleAstorb = .ok (gregorian.dayNumber 27 4 2019, some r) ∧ OrbitStored r exampleOrbit (gregorian.dayNumber 27 4 2019) :=
  ⟨C101_mpcorb mpcorb_example exampleOrbit_date (by decide) (by norm_num [exampleOrbit]) old, C101_astorb astorb_example exampleOrbit_date rfl rfl old⟩

/-- The hypothesis of `C101_other_lines`. -/
example (old : Elements) : extractMpcorb old (exampleMpcorb.take 200) = .ok (0, none) := C101_other_lines old (Or.inl (by rw [List.length_take]; omega))

/-- The hypotheses of `C101_retrograde`: the same line with another inclination. -/
theorem retrograde_example : AstorbLine (exampleAstorb.set 147 49) { exampleOrbit with incl := 11059407 / 100000 } where
  long := by have := exampleOther_length; omega
  magnitudes := ⟨[32, 32, 51, 46, 51, 52], [32, 48, 46, 49, 50], (exampleAstorb.set 147 49).drop 54, ⟨2, false, [51], [51, 52], rfl, by unfold AllDigits; decide, by unfold AllDigits; decide, Or.inl (by simp), by norm_num [value, exampleOrbit]⟩, rfl, ⟨1, false, [48], [49, 50], rfl, by unfold AllDigits; decide, by unfold AllDigits; decide, Or.inl (by simp), by norm_num [value, exampleOrbit]⟩⟩
  date := ⟨_, field_of (c := 106) (n := 8) rfl (by have := exampleOther_length; omega), by unfold AllDigits; decide, rfl, rfl⟩
  meanAnomaly := ⟨_, field_of (c := 115) (n := 10) rfl (by have := exampleOther_length; omega), rfl, ⟨1, [55, 55], [51, 55, 50, 49, 48, 48], rfl, by unfold AllDigits; decide, by unfold AllDigits; decide, rfl, by norm_num [value, exampleOrbit]⟩⟩
  argPer := ⟨_, field_of (c := 126) (n := 10) rfl (by have := exampleOther_length; omega), rfl, ⟨1, [55, 51], [53, 57, 55, 54, 52, 48], rfl, by unfold AllDigits; decide, by unfold AllDigits; decide, rfl, by norm_num [value, exampleOrbit]⟩⟩
  node := ⟨[32, 56, 48, 46, 51, 48, 53, 53, 51, 48], rfl, rfl, ⟨1, [56, 48], [51, 48, 53, 53, 51, 48], rfl, by unfold AllDigits; decide, by unfold AllDigits; decide, rfl, by norm_num [value, exampleOrbit]⟩⟩
  incl := ⟨_, field_of (c := 147) (n := 10) rfl (by have := exampleOther_length; omega), rfl, ⟨0, [49, 49, 48], [53, 57, 52, 48, 55, 48], rfl, by unfold AllDigits; decide, by unfold AllDigits; decide, rfl, by norm_num [value, exampleOrbit]⟩⟩
  ecc := ⟨_, field_of (c := 158) (n := 10) rfl (by have := exampleOther_length; omega), rfl, ⟨0, [48], [48, 55, 54, 48, 48, 57, 49, 48], rfl, by unfold AllDigits; decide, by unfold AllDigits; decide, rfl, by norm_num [value, exampleOrbit]⟩, by norm_num [exampleOrbit]⟩
  axis := ⟨_, field_of (c := 168) (n := 13) rfl (by have := exampleOther_length; omega), rfl, 3, false, [50], [55, 54, 57, 49, 54, 53, 50, 48], rfl, by unfold AllDigits; decide, by unfold AllDigits; decide, Or.inl (by simp), by norm_num [value, exampleOrbit]⟩

example : (exampleAstorb.set 147 49)[147]? = some 49 := rfl

/-- The hypotheses of `C101_runs_on`. -/
example (old : Elements) : extractAstorb old (exampleAstorb.take 115 ++ List.replicate 160 49) = .ub := by
  have hd : (exampleAstorb.take 115 ++ List.replicate 160 49).drop 41 = [32, 32, 51, 46, 51, 52] ++ 32 :: ([32, 48, 46, 49, 50] ++ 32 :: ((exampleAstorb.take 115).drop 54 ++ List.replicate 160 49)) := rfl
  have h1 : Decimal [32, 32, 51, 46, 51, 52] (334 / 100) :=
    ⟨2, false, [51], [51, 52], rfl, by unfold AllDigits; decide, by unfold AllDigits; decide, Or.inl (by simp), by norm_num [value]⟩
  have h2 : Decimal [32, 32, 48, 46, 49, 50] (12 / 100) :=
    ⟨2, false, [48], [49, 50], rfl, by unfold AllDigits; decide, by unfold AllDigits; decide, Or.inl (by simp), by norm_num [value]⟩
  have hs := scanReal_either h1 (stops_at_blank ([32, 48, 46, 49, 50] ++ 32 :: ((exampleAstorb.take 115).drop 54 ++ List.replicate 160 49)))
  refine C101_runs_on old (by have := exampleAstorb_length; rw [List.length_append, List.length_take, List.length_replicate]; omega) ?_ (by rw [hd, hs]; rfl) ?_
  · intro c hc
    rw [List.drop_append_of_le_length (by have := exampleAstorb_length; simp; omega), List.drop_of_length_le (by simp)] at hc
    simp at hc
    omega
  · intro x r hx
    rw [hd, hs] at hx
    cases hx
    rw [show (32 :: ([32, 48, 46, 49, 50] ++ 32 :: ((exampleAstorb.take 115).drop 54 ++ List.replicate 160 49))) = [32, 32, 48, 46, 49, 50] ++ 32 :: ((exampleAstorb.take 115).drop 54 ++ List.replicate 160 49) from rfl,
      scanReal_either h2 (stops_at_blank _)]
    rfl

end Verif.Props
