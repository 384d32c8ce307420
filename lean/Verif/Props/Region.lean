import Verif.Model.Region
import Verif.Props.Station
import Verif.Spec.Region

/-!
# Property theorems: the region a place is in (C78)
-/

namespace Verif.Props

open Verif Verif.Spec Verif.MpcLine Verif.Region

theorem down_spec (c x : ℚ) : ∃ m : ℤ, down c x = x + 360 * m ∧ down c x - c ≤ 180 ∧ (-180 ≤ x - c → -180 ≤ down c x - c) := by
  fun_induction down c x with
  | case1 x h ih =>
    obtain ⟨m, h1, h2, h3⟩ := ih
    refine ⟨m - 1, by rw [h1]; push_cast; ring, h2, fun _ => h3 (by linarith)⟩
  | case2 x h => exact ⟨0, by simp, by linarith, id⟩

theorem up_spec (c x : ℚ) : ∃ m : ℤ, up c x = x + 360 * m ∧ -180 ≤ up c x - c ∧ (x - c ≤ 180 → up c x - c ≤ 180) := by
  fun_induction up c x with
  | case1 x h ih =>
    obtain ⟨m, h1, h2, h3⟩ := ih
    refine ⟨m + 1, by rw [h1]; push_cast; ring, h2, fun _ => h3 (by linarith)⟩
  | case2 x h => exact ⟨0, by simp, by linarith, id⟩

theorem wrap_spec (c x : ℚ) : ∃ m : ℤ, up c (down c x) = x + 360 * m ∧ |up c (down c x) - c| ≤ 180 := by
  obtain ⟨m, h1, h2, h3⟩ := down_spec c x
  obtain ⟨n, g1, g2, g3⟩ := up_spec c (down c x)
  exact ⟨m + n, by rw [g1, h1]; push_cast; ring, abs_le.mpr ⟨g2, g3 h2⟩⟩

theorem turn_unique {u v : ℚ} {k : ℤ} (hu : |u| ≤ 180) (hv : |v| < 180) (h : u - v = 360 * k) : u = v := by
  obtain ⟨h1, h2⟩ := abs_le.mp hu
  obtain ⟨h3, h4⟩ := abs_lt.mp hv
  have h5 : (k : ℚ) < 1 := by linarith
  have h6 : (-1 : ℚ) < k := by linarith
  have h7 : k < 1 := by exact_mod_cast h5
  have h8 : -1 < k := by exact_mod_cast h6
  have : k = 0 := by omega
  rw [this] at h
  push_cast at h
  linarith

/-- The test of the longitudes. -/
theorem lon_test {r : Box} (hp : r.Proper) (lon : ℚ) :
    up 0 (down 0 (r.lon1 - lon)) * up (up 0 (down 0 (r.lon1 - lon))) (down (up 0 (down 0 (r.lon1 - lon))) (r.lon2 - lon)) < 0 ↔
      ∃ m n : ℤ, Between lon (r.lon1 + 360 * m) (r.lon2 + 360 * n) ∧ |r.lon1 + 360 * m - (r.lon2 + 360 * n)| < 180 := by
  obtain ⟨m, h1, h2⟩ := wrap_spec 0 (r.lon1 - lon)
  generalize up 0 (down 0 (r.lon1 - lon)) = d1 at *
  obtain ⟨n, g1, g2⟩ := wrap_spec d1 (r.lon2 - lon)
  generalize up d1 (down d1 (r.lon2 - lon)) = d2 at *
  rw [sub_zero] at h2
  have g2' : |d2 - d1| < 180 := by
    refine lt_of_le_of_ne g2 fun h => ?_
    rcases abs_eq (by norm_num : (0 : ℚ) ≤ 180) |>.mp h with h | h
    · refine hp (m - n) ?_
      push_cast
      linarith
    · refine hp (m - n - 1) ?_
      push_cast
      linarith
  constructor
  · intro hneg
    refine ⟨m, n, ?_, ?_⟩
    · unfold Between
      rcases mul_neg_iff.mp hneg with ⟨a, b⟩ | ⟨a, b⟩
      · right; constructor <;> linarith
      · left; constructor <;> linarith
    · rw [abs_sub_comm]
      have : r.lon2 + 360 * n - (r.lon1 + 360 * m) = d2 - d1 := by rw [g1, h1]; ring
      rw [this]
      exact g2'
  · rintro ⟨m', n', hb, hw⟩
    obtain ⟨w1, w2⟩ := abs_lt.mp hw
    have e1 : d1 = r.lon1 + 360 * m' - lon := by
      refine turn_unique (k := m - m') h2 ?_ ?_
      · rw [abs_lt]
        unfold Between at hb
        rcases hb with hb | hb <;> constructor <;> linarith [hb.1, hb.2]
      · rw [h1]; push_cast; ring
    have e2 : d2 = r.lon2 + 360 * n' - lon := by
      have : d2 - d1 = r.lon2 + 360 * n' - (r.lon1 + 360 * m') := by
        refine turn_unique (k := n - n' - m + m') g2 ?_ ?_
        · rw [abs_sub_comm]; exact hw
        · rw [g1, h1]; push_cast; ring
      linarith
    rw [e1, e2, mul_neg_iff]
    unfold Between at hb
    rcases hb with hb | hb
    · right; constructor <;> linarith [hb.1, hb.2]
    · left; constructor <;> linarith [hb.1, hb.2]

theorem lat_test (lat a b : ℚ) : (a - lat) * (b - lat) < 0 ↔ Between lat a b := by
  unfold Between
  rw [mul_neg_iff]
  constructor
  · rintro (⟨h1, h2⟩ | ⟨h1, h2⟩)
    · right; constructor <;> linarith
    · left; constructor <;> linarith
  · rintro (⟨h1, h2⟩ | ⟨h1, h2⟩)
    · right; constructor <;> linarith
    · left; constructor <;> linarith

theorem cell_length {t : List Nat} {x : ℚ} (h : Cell t x) : t.length = 10 := by
  cases h with
  | mk _ h => simpa using h

theorem cell_value {t : List Nat} {x : ℚ} (h : Cell t x) (r : List Nat) : quickAtof (t ++ r) = .ok x := by
  cases h with
  | @mk t x k hw hl =>
    have hst : isDigit (at? (List.replicate (k + 1) 32 ++ r) 0) = false := rfl
    cases hw with
    | @whole l ds neg hl' hd hne =>
      have hlen : ds.length ≤ 9 := by simp only [List.length_append] at hl; omega
      have hlt : 10 ^ ds.length ≤ 10 ^ 9 := Nat.pow_le_pow_right (by omega) hlen
      have := value_cons_lt hd
      have hq := C73_integer hl' hd hne hst (by simp [at?, List.replicate_succ]) (by unfold INT_MAX; omega)
      unfold quickAtof
      rw [List.append_assoc, List.append_assoc, hq]
      rfl
    | @decimal l ds fs neg hl' hd hne hf =>
      have hlen : ds.length + fs.length ≤ 9 := by simp only [List.length_append, List.length_cons] at hl; omega
      have hlt : 10 ^ ds.length ≤ 10 ^ 9 := Nat.pow_le_pow_right (by omega) (by omega)
      have := value_cons_lt hd
      have hq := C73_decimal hl' hd hf (Or.inl hne) hst (by unfold INT_MAX; omega) (by omega)
      unfold quickAtof
      rw [List.append_assoc, List.append_assoc, List.append_assoc, List.cons_append, hq]
      rfl

theorem written_head {t : List Nat} {x : ℚ} (h : Written t x) (r : List Nat) : at? (t ++ r) 0 ≠ 35 ∧ at? (t ++ r) 0 ≠ 10 ∧ ∀ c ∈ t, c ≠ 10 := by
  have hlead : ∀ {l : List Nat} {neg : Bool} (u : List Nat), Lead l neg → at? u 0 ≠ 35 → at? u 0 ≠ 10 → at? (l ++ u) 0 ≠ 35 ∧ at? (l ++ u) 0 ≠ 10 := by
    intro l neg u hl h1 h2
    cases hl with
    | none k => cases k <;> simp_all [at?, List.replicate_succ]
    | plus k => cases k <;> simp_all [at?, List.replicate_succ]
    | minus k => cases k <;> simp_all [at?, List.replicate_succ]
  have hmem : ∀ {l : List Nat} {neg : Bool}, Lead l neg → ∀ c ∈ l, c ≠ 10 := by
    intro l neg hl c hc
    cases hl with
    | none k => have := List.eq_of_mem_replicate hc; omega
    | plus k =>
      rcases List.mem_append.mp hc with hc | hc
      · have := List.eq_of_mem_replicate hc; omega
      · simp at hc; omega
    | minus k =>
      rcases List.mem_append.mp hc with hc | hc
      · have := List.eq_of_mem_replicate hc; omega
      · simp at hc; omega
  cases h with
  | @whole l ds neg hl hd hne =>
    have hh := digits_head (rest := r) hd hne
    rw [List.append_assoc]
    refine ⟨(hlead _ hl (by omega) (by omega)).1, (hlead _ hl (by omega) (by omega)).2, ?_⟩
    intro c hc
    rcases List.mem_append.mp hc with hc | hc
    · exact hmem hl c hc
    · have := hd c hc; omega
  | @decimal l ds fs neg hl hd hne hf =>
    have hh := digits_head (rest := 46 :: fs ++ r) hd hne
    rw [List.append_assoc, List.append_assoc]
    refine ⟨(hlead _ hl (by omega) (by omega)).1, (hlead _ hl (by omega) (by omega)).2, ?_⟩
    intro c hc
    rcases List.mem_append.mp hc with hc | hc
    · exact hmem hl c hc
    · rcases List.mem_append.mp hc with hc | hc
      · have := hd c hc; omega
      · rcases List.mem_cons.mp hc with hc | hc
        · omega
        · have := hf c hc; omega

theorem cell_head {t : List Nat} {x : ℚ} (h : Cell t x) (r : List Nat) : at? (t ++ r) 0 ≠ 35 ∧ ∀ c ∈ t, c ≠ 10 := by
  cases h with
  | @mk t x k hw hl =>
    obtain ⟨h1, -, h3⟩ := written_head hw (List.replicate (k + 1) 32 ++ r)
    rw [List.append_assoc]
    refine ⟨h1, fun c hc => ?_⟩
    rcases List.mem_append.mp hc with hc | hc
    · exact h3 c hc
    · have := List.eq_of_mem_replicate hc; omega

theorem fgets_line {s rest : List Nat} {n : Nat} (h : ∀ c ∈ s, c ≠ 10) (hn : s.length + 1 ≤ n) : fgets n (s ++ 10 :: rest) = (s ++ [10], rest) := by
  induction s generalizing n with
  | nil =>
    obtain ⟨m, rfl⟩ : ∃ m, n = m + 1 := ⟨n - 1, by simp at hn; omega⟩
    simp [fgets]
  | cons c s ih =>
    obtain ⟨m, rfl⟩ : ∃ m, n = m + 1 := ⟨n - 1, by simp at hn; omega⟩
    have := ih (n := m) (fun d hd => h d (by simp [hd])) (by simp at hn; omega)
    have hc := h c (by simp)
    simp [fgets, hc, this]

open Classical in
/-- One line. -/
theorem cells_line {a b c d text tail : List Nat} {r : Box} (ha : Cell a r.lon1) (hb : Cell b r.lat1) (hc : Cell c r.lon2) (hd : Cell d r.lat2)
    (ht : ∀ c ∈ text, 32 ≤ c ∧ c < 128) (hu : ∀ c, tail.head? = some c → ¬ (32 ≤ c ∧ c < 128)) (hp : r.Proper) (lon lat : ℚ) :
    regionLine (a ++ (b ++ (c ++ (d ++ (text ++ tail))))) lat lon = .ok (if r.Holds lon lat then text else []) := by
  have la := cell_length ha
  have lb := cell_length hb
  have lc := cell_length hc
  have ld := cell_length hd
  have e10 : (a ++ (b ++ (c ++ (d ++ (text ++ tail))))).drop 10 = b ++ (c ++ (d ++ (text ++ tail))) := drop_mid la
  have e20 : (a ++ (b ++ (c ++ (d ++ (text ++ tail))))).drop 20 = c ++ (d ++ (text ++ tail)) := by
    rw [← List.append_assoc]; exact drop_mid (by simp; omega)
  have e30 : (a ++ (b ++ (c ++ (d ++ (text ++ tail))))).drop 30 = d ++ (text ++ tail) := by
    rw [← List.append_assoc, ← List.append_assoc]; exact drop_mid (by simp; omega)
  have e40 : (a ++ (b ++ (c ++ (d ++ (text ++ tail))))).drop 40 = text ++ tail := by
    rw [← List.append_assoc, ← List.append_assoc, ← List.append_assoc]; exact drop_mid (by simp; omega)
  have hlen : 40 ≤ (a ++ (b ++ (c ++ (d ++ (text ++ tail))))).length := by simp; omega
  have htake : (text ++ tail).takeWhile (fun c => decide (32 ≤ c) && decide (c < 128)) = text := by
    rw [List.takeWhile_append_of_pos (by intro c hc; have := ht c hc; simp; omega)]
    cases tail with
    | nil => simp
    | cons q tail =>
      have := hu q rfl
      rw [List.takeWhile_cons_of_neg (by simp; omega), List.append_nil]
  unfold regionLine
  rw [if_neg (cell_head ha _).1, cell_value ha]
  simp only [Outcome.bind]
  rw [if_neg (by omega), e20, cell_value hc]
  simp only [lon_test hp lon]
  by_cases hlon : ∃ m n : ℤ, Between lon (r.lon1 + 360 * m) (r.lon2 + 360 * n) ∧ |r.lon1 + 360 * m - (r.lon2 + 360 * n)| < 180
  · rw [if_pos hlon, e10, cell_value hb]
    simp only
    rw [if_neg (by omega), e30, cell_value hd]
    simp only [lat_test]
    by_cases hlat : Between lat r.lat1 r.lat2
    · rw [if_pos hlat, if_neg (by omega), e40, htake, if_pos ⟨hlon, hlat⟩]
    · rw [if_neg hlat, if_neg (fun h => hlat h.2)]
  · rw [if_neg hlon, if_neg (fun h => hlon h.1)]

open Classical in
theorem regionLine_box {l text : List Nat} {r : Box} (h : BoxLine l r text) (hp : r.Proper) (lon lat : ℚ) :
    regionLine l lat lon = .ok (if r.Holds lon lat then text else []) := by
  cases h with
  | @mk a b c d text r ha hb hc hd ht hl => exact cells_line ha hb hc hd ht (by simp) hp lon lat

/-- Finding: the text of a region is cut before its first byte over 127, so that "Réunion" becomes "R". -/
theorem C78_cut {a b c d text tail : List Nat} {r : Box} {q : Nat} (ha : Cell a r.lon1) (hb : Cell b r.lat1) (hc : Cell c r.lon2)
    (hd : Cell d r.lat2) (ht : ∀ c ∈ text, 32 ≤ c ∧ c < 128) (hq : 128 ≤ q) (hp : r.Proper) {lon lat : ℚ} (hh : r.Holds lon lat) :
    regionLine (a ++ (b ++ (c ++ (d ++ (text ++ q :: tail))))) lat lon = .ok text := by
  rw [cells_line ha hb hc hd ht (by simp; omega) hp, if_pos hh]

/-- Finding: a line that is neither a comment nor 20 bytes long, such as an empty one, makes bytes after its end be read. -/
theorem C78_short {s rest : List Nat} (h : ∀ c ∈ s, c ≠ 10) (hc : s.head? ≠ some 35) (hl : s.length < 19) (lat lon : ℚ) :
    extractRegion (s ++ 10 :: rest) lat lon = .ub := by
  have h1 := fgets_line (rest := rest) (n := 89) h (by omega)
  unfold extractRegion
  rw [dif_neg (by simp), h1]
  unfold regionLine
  rw [if_neg]
  · have : quickAtof (s ++ [10]) = .ub ∨ ∃ x, quickAtof (s ++ [10]) = .ok x := by
      cases hq : quickAtof (s ++ [10]) with
      | ok x => exact Or.inr ⟨x, rfl⟩
      | ub => exact Or.inl rfl
      | abort =>
        exfalso
        revert hq
        unfold quickAtof quickStrtod
        dsimp only
        split_ifs <;> simp [Outcome.bind]
    rcases this with h | ⟨x, h⟩
    · rw [h]; rfl
    · rw [h]
      simp only [Outcome.bind]
      rw [if_pos (by simp; omega)]
  · cases s with
    | nil => simp [at?]
    | cons c s => simpa [at?] using hc

theorem box_fgets {l text rest : List Nat} {r : Box} (h : BoxLine l r text) : fgets 89 (l ++ rest) = (l, rest) ∧ l ++ rest ≠ [] := by
  cases h with
  | @mk a b c d text r ha hb hc hd ht hl =>
    have la := cell_length ha
    have lb := cell_length hb
    have lc := cell_length hc
    have ld := cell_length hd
    have := fgets_line (s := a ++ (b ++ (c ++ (d ++ text)))) (rest := rest) (n := 89) (by
      intro q hq
      simp only [List.mem_append] at hq
      rcases hq with hq | hq | hq | hq | hq
      · exact (cell_head ha []).2 q hq
      · exact (cell_head hb []).2 q hq
      · exact (cell_head hc []).2 q hq
      · exact (cell_head hd []).2 q hq
      · have := ht q hq; omega) (by simp; omega)
    simpa using this

/-- C78: the text of the first region of the file that holds the place is found, and 0 returned; or nothing, and -2. -/
theorem C78_region {lon lat : ℚ} {file : List Nat} {o : Option (List Nat)} (h : FirstBox lon lat file o) :
    extractRegion file lat lon = .ok (o.elim ([], -2) fun text => (text, 0)) := by
  classical
  induction h with
  | nothing => unfold extractRegion; rfl
  | @here l text rest r hl hp hr hne =>
    obtain ⟨h1, h2⟩ := box_fgets (rest := rest) hl
    unfold extractRegion
    rw [dif_neg h2, h1, regionLine_box hl hp, if_pos hr]
    simp only [Outcome.bind]
    rw [if_pos hne]
    rfl
  | @other l text rest r o hl hp hr _ ih =>
    obtain ⟨h1, h2⟩ := box_fgets (rest := rest) hl
    unfold extractRegion
    rw [dif_neg h2, h1, regionLine_box hl hp, if_neg hr]
    simpa only [Outcome.bind, ne_eq, not_true_eq_false, if_false] using ih
  | @comment l rest o hl _ ih =>
    cases hl with
    | @mk s hs hlen =>
      have h1 := fgets_line (s := 35 :: s) (rest := rest) (n := 89) (by
        intro c hc
        rcases List.mem_cons.mp hc with hc | hc
        · omega
        · exact hs c hc) (by simp; omega)
      have e : 35 :: (s ++ [10]) ++ rest = 35 :: s ++ 10 :: rest := by simp
      rw [e]
      unfold extractRegion
      rw [dif_neg (by simp), h1]
      simpa [regionLine, at?, Outcome.bind] using ih

/-- A file with a comment and a region that reaches over the date line. -/
example : extractRegion (bytes "# regions\n" ++ (bytes "179.00    -20.0     -178.0    -10.0     Fiji\n" ++ [])) (-17) (-179) =
    .ok (bytes "Fiji", 0) := by
  have c1 : Cell (bytes "179.00    ") 179 := by
    have h : Written (bytes "179.00") (signed false ((179 : Nat) + ((0 : Nat) : ℚ) / 10 ^ 2)) :=
      .decimal (l := []) (ds := bytes "179") (fs := bytes "00") (.none 0) (by decide) (by decide) (by decide)
    have e : signed false ((179 : Nat) + ((0 : Nat) : ℚ) / 10 ^ 2) = 179 := by norm_num [signed]
    rw [e] at h
    exact .mk (k := 3) h rfl
  have c2 : Cell (bytes "-20.0     ") (-20) := by
    have h : Written (bytes "-20.0") (signed true ((20 : Nat) + ((0 : Nat) : ℚ) / 10 ^ 1)) :=
      .decimal (l := bytes "-") (ds := bytes "20") (fs := bytes "0") (.minus 0) (by decide) (by decide) (by decide)
    have e : signed true ((20 : Nat) + ((0 : Nat) : ℚ) / 10 ^ 1) = -20 := by norm_num [signed]
    rw [e] at h
    exact .mk (k := 4) h rfl
  have c3 : Cell (bytes "-178.0    ") (-178) := by
    have h : Written (bytes "-178.0") (signed true ((178 : Nat) + ((0 : Nat) : ℚ) / 10 ^ 1)) :=
      .decimal (l := bytes "-") (ds := bytes "178") (fs := bytes "0") (.minus 0) (by decide) (by decide) (by decide)
    have e : signed true ((178 : Nat) + ((0 : Nat) : ℚ) / 10 ^ 1) = -178 := by norm_num [signed]
    rw [e] at h
    exact .mk (k := 3) h rfl
  have c4 : Cell (bytes "-10.0     ") (-10) := by
    have h : Written (bytes "-10.0") (signed true ((10 : Nat) + ((0 : Nat) : ℚ) / 10 ^ 1)) :=
      .decimal (l := bytes "-") (ds := bytes "10") (fs := bytes "0") (.minus 0) (by decide) (by decide) (by decide)
    have e : signed true ((10 : Nat) + ((0 : Nat) : ℚ) / 10 ^ 1) = -10 := by norm_num [signed]
    rw [e] at h
    exact .mk (k := 4) h rfl
  have hl : BoxLine (bytes "179.00    -20.0     -178.0    -10.0     Fiji\n") ⟨179, -20, -178, -10⟩ (bytes "Fiji") :=
    .mk (a := bytes "179.00    ") (b := bytes "-20.0     ") (c := bytes "-178.0    ") (d := bytes "-10.0     ") (r := ⟨179, -20, -178, -10⟩) c1 c2 c3 c4 (text := bytes "Fiji") (by decide) (by decide)
  have hp : Box.Proper ⟨179, -20, -178, -10⟩ := by
    intro n h
    have h2 : ((-178 - 179 : ℤ) : ℚ) = ((180 + 360 * n : ℤ) : ℚ) := by
      push_cast
      rw [← h]
      norm_num
    have := Int.cast_injective h2
    omega
  have hh : Box.Holds ⟨179, -20, -178, -10⟩ (-179) (-17) := by
    refine ⟨⟨-1, 0, Or.inl ⟨by norm_num, by norm_num⟩, by norm_num [abs_lt]⟩, Or.inl ⟨by norm_num, by norm_num⟩⟩
  exact C78_region (.comment (.mk (s := bytes " regions") (by decide) (by decide)) (.here hl hp hh (by decide)))

end Verif.Props
