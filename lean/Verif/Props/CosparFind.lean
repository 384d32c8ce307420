import Verif.Props.Cospar

/-!
# C107: the lines of an object
-/

namespace Verif.Props

open Verif Verif.Spec Verif.Cospar
open Verif.GetTime (Run)
open Verif.Spec.Orientation (Kind Term NumberText SumText AngleText total)

/-- Lines begin with `Obj`, `Planet`, `Remap`. -/
def IsObject (l : List Nat) : Prop := Cospar.byte l 0 = 79
def IsPlanet (l : List Nat) : Prop := Cospar.byte l 0 = 80
def IsRemap (l : List Nat) : Prop := Cospar.byte l 0 = 82

/-- The line does not begin the object `n`. -/
def Other (n : Int) (l : List Nat) : Prop := IsObject l → atoi (l.drop 4) ≠ n

/-- The first of the angles of a planet. -/
def IsFirst (p : Nat) (l : List Nat) : Prop := Cospar.byte l 0 = p ∧ Cospar.byte l 1 = 49 ∧ Cospar.byte l 2 = 61

/-- A number that is none of those that older programs gave to satellites. -/
def Modern (n : Int) : Prop := n ≤ 9 ∨ 1000 ≤ n

/-- The object has not been found yet. -/
structure Idle (n : Int) (g : State) : Prop where
  object : g.object = n
  curr : g.curr ≠ n
  finished : g.finished = false
  gotOmega : g.gotOmega = false
  err : g.err = 0
  ra : g.ra = none
  dec : g.dec = none
  omega : g.omega = none
  radii : g.radii = (0, 0, 0)
  retro : g.retro = false

theorem step_remap {n : Int} (hn : Modern n) {l : List Nat} {g : State} (ho : g.object = n) :
    (if Cospar.byte l 0 = 82 ∧ 9 < g.object ∧ g.object < 1000 then { g with object := remap g.object l.length (l.drop 6) } else g) = g := by
  rw [if_neg]
  rintro ⟨_, h⟩
  unfold Modern at hn
  omega

theorem skip_before (q : Ask) (lines : List (List Nat)) {n : Int} (hn : Modern n) (hs : n ≠ planetSelected) (R : List (List Nat)) :
    ∀ (A : List (List Nat)) (g : State), (∀ l ∈ A, Other n l) → Idle n g →
      ∃ g', steps q lines (A ++ R) g = steps q lines R g' ∧ Idle n g' ∧ g'.line = g.line + A.length
  | [], g, _, h => ⟨g, rfl, h, rfl⟩
  | l :: A, g, hA, h => by
    have hl := hA l (by simp)
    rw [List.cons_append, steps, if_neg (by rw [h.finished, h.err]; simp)]
    unfold step
    rw [step_remap hn h.object]
    have hc : decide (g.curr = g.object) = false := by simp [h.object, h.curr]
    have key : ∀ g₁ : State, Idle n g₁ → g₁.line = g.line →
        ∃ g', steps q lines (A ++ R) { g₁ with line := g₁.line + 1 } = steps q lines R g' ∧ Idle n g' ∧ g'.line = g.line + (l :: A).length := by
      intro g₁ h₁ e
      obtain ⟨g', e1, e2, e3⟩ := skip_before q lines hn hs R A { g₁ with line := g₁.line + 1 } (fun x hx => hA x (by simp [hx]))
        ⟨h₁.object, h₁.curr, h₁.finished, h₁.gotOmega, h₁.err, h₁.ra, h₁.dec, h₁.omega, h₁.radii, h₁.retro⟩
      exact ⟨g', e1, e2, by rw [e3]; simp [e]; omega⟩
    by_cases h1 : Cospar.byte l 0 = 80
    · simp only [if_pos h1, Run.bind, hc, Bool.or_false]
      exact key { g with planet := Cospar.byte l 7, curr := planetSelected }
        ⟨h.object, Ne.symm hs, h.finished, h.gotOmega, h.err, h.ra, h.dec, h.omega, h.radii, h.retro⟩ rfl
    · by_cases h2 : Cospar.byte l 0 = 79
      · simp only [if_neg h1, if_pos h2, Run.bind, hc, Bool.or_false]
        exact key { g with curr := atoi (l.drop 4) } ⟨h.object, hl h2, h.finished, h.gotOmega, h.err, h.ra, h.dec, h.omega, h.radii, h.retro⟩ rfl
      · by_cases h3 : g.planet ≠ 0 ∧ g.curr = planetSelected ∧ Cospar.byte l 0 = g.planet ∧ Cospar.byte l 1 = 49 ∧ Cospar.byte l 2 = 61
        · simp only [if_neg h1, if_neg h2, if_pos h3, Run.bind]
          exact key { g with angular := g.line - 1 } ⟨h.object, h.curr, h.finished, h.gotOmega, h.err, h.ra, h.dec, h.omega, h.radii, h.retro⟩ rfl
        · have h4 : ¬ g.curr = g.object := by rw [h.object]; exact h.curr
          simp only [if_neg h1, if_neg h2, if_neg h3, if_neg h4, Run.bind]
          exact key g h rfl

/-- A line within the part of a planet that changes nothing. -/
def Passive (n : Int) (p : Nat) (l : List Nat) : Prop := ¬ IsPlanet l ∧ ¬ IsFirst p l ∧ Other n l

theorem skip_within (q : Ask) (lines : List (List Nat)) {n : Int} (hn : Modern n) {p k : Nat} (R : List (List Nat)) :
    ∀ (A : List (List Nat)) (g : State), (∀ l ∈ A, Passive n p l) → Idle n g → g.planet = p → g.angular = k →
      ∃ g', steps q lines (A ++ R) g = steps q lines R g' ∧ Idle n g' ∧ g'.line = g.line + A.length ∧ g'.planet = p ∧ g'.angular = k
  | [], g, _, h, hp, hk => ⟨g, rfl, h, rfl, hp, hk⟩
  | l :: A, g, hA, h, hp, hk => by
    obtain ⟨h1, h3, hl⟩ := hA l (by simp)
    rw [List.cons_append, steps, if_neg (by rw [h.finished, h.err]; simp)]
    unfold step
    rw [step_remap hn h.object]
    have hc : decide (g.curr = g.object) = false := by simp [h.object, h.curr]
    have key : ∀ g₁ : State, Idle n g₁ → g₁.line = g.line → g₁.planet = p → g₁.angular = k →
        ∃ g', steps q lines (A ++ R) { g₁ with line := g₁.line + 1 } = steps q lines R g' ∧ Idle n g' ∧ g'.line = g.line + (l :: A).length ∧ g'.planet = p ∧ g'.angular = k := by
      intro g₁ h₁ e hp hk
      obtain ⟨g', e1, e2, e3, e4⟩ := skip_within q lines hn (p := p) (k := k) R A { g₁ with line := g₁.line + 1 } (fun x hx => hA x (by simp [hx]))
        ⟨h₁.object, h₁.curr, h₁.finished, h₁.gotOmega, h₁.err, h₁.ra, h₁.dec, h₁.omega, h₁.radii, h₁.retro⟩ hp hk
      exact ⟨g', e1, e2, by rw [e3]; simp [e]; omega, e4⟩
    have h1' : ¬ Cospar.byte l 0 = 80 := h1
    by_cases h2 : Cospar.byte l 0 = 79
    · simp only [if_neg h1', if_pos h2, Run.bind, hc, Bool.or_false]
      exact key { g with curr := atoi (l.drop 4) } ⟨h.object, hl h2, h.finished, h.gotOmega, h.err, h.ra, h.dec, h.omega, h.radii, h.retro⟩ rfl hp hk
    · have h3' : ¬ (g.planet ≠ 0 ∧ g.curr = planetSelected ∧ Cospar.byte l 0 = g.planet ∧ Cospar.byte l 1 = 49 ∧ Cospar.byte l 2 = 61) := by
        rintro ⟨_, _, a, b⟩
        exact h3 ⟨a.trans hp, b⟩
      have h4 : ¬ g.curr = g.object := by rw [h.object]; exact h.curr
      simp only [if_neg h1', if_neg h2, if_neg h3', if_neg h4, Run.bind]
      exact key g h rfl hp hk

/-! ## Own lines -/

/-- The reader is within the object's lines. -/
structure Inside (n : Int) (p k : Nat) (g : State) : Prop where
  object : g.object = n
  curr : g.curr = n
  planet : g.planet = p
  angular : g.angular = k
  finished : g.finished = false
  err : g.err = 0

/-- A line that is the object's. -/
def Own (l : List Nat) : Prop := ¬ IsPlanet l ∧ ¬ IsObject l

theorem own_step (q : Ask) (lines : List (List Nat)) {n : Int} (hn : Modern n) (hs : n ≠ planetSelected) {p k : Nat} {l : List Nat} (hl : Own l)
    {g g' : State} (hg : Inside n p k g) (h : own q lines l g = .ok (.inl g')) (R : List (List Nat)) :
    steps q lines (l :: R) g = steps q lines R { g' with line := g'.line + 1 } := by
  rw [steps, if_neg (by rw [hg.finished, hg.err]; simp)]
  unfold step
  have h1 : ¬ Cospar.byte l 0 = 80 := hl.1
  have h2 : ¬ Cospar.byte l 0 = 79 := hl.2
  have h3 : ¬ (g.planet ≠ 0 ∧ g.curr = planetSelected ∧ Cospar.byte l 0 = g.planet ∧ Cospar.byte l 1 = 49 ∧ Cospar.byte l 2 = 61) := by
    rintro ⟨_, a, _⟩
    exact hs (hg.curr.symm.trans a)
  rw [step_remap hn hg.object]
  simp only [if_neg h1, if_neg h2, if_neg h3, if_pos (hg.curr.trans hg.object.symm), h, Run.bind]

/-- The next object or planet. -/
theorem own_end (q : Ask) (lines : List (List Nat)) {n : Int} (hn : Modern n) {p k : Nat} {l : List Nat} (hl : IsPlanet l ∨ IsObject l)
    {g : State} (hg : Inside n p k g) (R : List (List Nat)) :
    ∃ g', steps q lines (l :: R) g = .ok (.inl g') ∧ g'.finished = true ∧ g'.err = 0 ∧ g'.ra = g.ra ∧ g'.dec = g.dec ∧ g'.omega = g.omega ∧
      g'.radii = g.radii ∧ g'.retro = g.retro := by
  have stop : ∀ g₁ : State, g₁.finished = true → ∀ R, steps q lines R g₁ = .ok (.inl g₁) := by
    intro g₁ h R
    cases R with
    | nil => rfl
    | cons => rw [steps, if_pos (Or.inl h)]
  rw [steps, if_neg (by rw [hg.finished, hg.err]; simp)]
  unfold step
  rw [step_remap hn hg.object]
  have hc : decide (g.curr = g.object) = true := by simp [hg.object, hg.curr]
  rcases hl with h | h
  · have h1 : Cospar.byte l 0 = 80 := h
    simp only [if_pos h1, Run.bind, hc, Bool.or_true]
    rw [stop _ rfl]
    exact ⟨_, rfl, rfl, hg.err, rfl, rfl, rfl, rfl, rfl⟩
  · have h1 : Cospar.byte l 0 = 79 := h
    have h2 : ¬ Cospar.byte l 0 = 80 := by omega
    simp only [if_neg h2, if_pos h1, Run.bind, hc, Bool.or_true]
    rw [stop _ rfl]
    exact ⟨_, rfl, rfl, hg.err, rfl, rfl, rfl, rfl, rfl⟩

/-- Lines of the object that say nothing about what is asked for. -/
def Silent (q : Ask) (got : Bool) (l : List Nat) : Prop :=
  (Cospar.byte l 0 = 114 ∧ q.radii = false) ∨ (Cospar.byte l 0 = 87 ∧ (got = true ∨ ((Cospar.byte l 1 : Int) ≠ (q.system + 48) % 256 ∧ Cospar.byte l 1 ≠ 61)))

theorem own_silent (q : Ask) (lines : List (List Nat)) {n : Int} (hn : Modern n) (hs : n ≠ planetSelected) {p k : Nat} {got : Bool} (R : List (List Nat)) :
    ∀ (A : List (List Nat)) (g : State), (∀ l ∈ A, Silent q got l) → Inside n p k g → g.gotOmega = got →
      ∃ m, steps q lines (A ++ R) g = steps q lines R { g with line := m }
  | [], g, _, _, _ => ⟨g.line, rfl⟩
  | l :: A, g, hA, hg, hgot => by
    have hl := hA l (by simp)
    have ho : Own l := by
      unfold Own IsPlanet IsObject
      rcases hl with ⟨h, _⟩ | ⟨h, _⟩ <;> omega
    have e : own q lines l g = .ok (.inl g) := by
      unfold own
      rcases hl with ⟨h, h'⟩ | ⟨h, h'⟩
      · rw [if_pos h, h']; simp
      · rw [if_neg (by omega), if_neg (by omega), if_neg (by omega), if_neg]
        rintro ⟨h1, _, h2⟩
        rw [hgot] at h1
        rcases h' with h' | ⟨h3, h4⟩
        · rw [h1] at h'; simp at h'
        · exact h2.elim h3 h4
    rw [List.cons_append, own_step q lines hn hs ho hg e]
    obtain ⟨m, e2⟩ := own_silent q lines hn hs R A { g with line := g.line + 1 } (fun x hx => hA x (by simp [hx]))
      ⟨hg.object, hg.curr, hg.planet, hg.angular, hg.finished, hg.err⟩ hgot
    exact ⟨m, e2⟩

/-! ## Old numbers -/

/-- What the lines of old numbers make of a number. -/
def remapped (n : Int) (Rs : List (List Nat)) : Int := Rs.foldl (fun n l => if 9 < n ∧ n < 1000 then remap n l.length (l.drop 6) else n) n

theorem skip_remaps (q : Ask) (lines : List (List Nat)) (R : List (List Nat)) :
    ∀ (Rs : List (List Nat)) (n : Int) (m : Nat), (∀ l ∈ Rs, IsRemap l) →
      steps q lines (Rs ++ R) { begin_ n with line := m } = steps q lines R { begin_ (remapped n Rs) with line := m + Rs.length }
  | [], n, m, _ => rfl
  | l :: Rs, n, m, h => by
    have hl : Cospar.byte l 0 = 82 := h l (by simp)
    rw [List.cons_append, steps, if_neg (by simp [begin_])]
    have key : step q lines l { begin_ n with line := m } = .ok (.inl { begin_ (remapped n [l]) with line := m }) := by
      have e : (if Cospar.byte l 0 = 82 ∧ 9 < ({ begin_ n with line := m } : State).object ∧ ({ begin_ n with line := m } : State).object < 1000 then
          { ({ begin_ n with line := m } : State) with object := remap ({ begin_ n with line := m } : State).object l.length (l.drop 6) }
          else { begin_ n with line := m }) = { begin_ (remapped n [l]) with line := m } := by
        by_cases hh : 9 < n ∧ n < 1000
        · rw [if_pos ⟨hl, hh⟩]
          simp [remapped, if_pos hh, begin_]
        · rw [if_neg (by rintro ⟨_, h⟩; exact hh h)]
          simp [remapped, if_neg hh, begin_]
      unfold step
      rw [e]
      simp only [hl]
      have ho : own q lines l { begin_ (remapped n [l]) with line := m } = .ok (.inl { begin_ (remapped n [l]) with line := m }) := by
        unfold own
        simp only [hl]
        norm_num
      rw [ho]
      have hp : (begin_ (remapped n [l])).planet = 0 := rfl
      simp [hp]
    rw [key]
    simp only [Run.bind]
    rw [skip_remaps q lines R Rs (remapped n [l]) (m + 1) (fun x hx => h x (by simp [hx]))]
    have e1 : remapped (remapped n [l]) Rs = remapped n (l :: Rs) := rfl
    rw [e1]
    simp only [List.length_cons]
    congr 2
    omega

/-- Pairs of a new and an old number, with blanks before each. -/
inductive PairsText : List (Nat × Nat) → List Nat → Prop
  | nil {s : List Nat} (h : ∀ c ∈ s, c = 32) : PairsText [] s
  | cons {ps : List (Nat × Nat)} {ds es s : List Nat} {i j : Nat} (hd : AllDigits ds) (hdne : ds ≠ []) (he : AllDigits es) (hene : es ≠ []) (hj : 0 < j)
      (hs : PairsText ps s) (hh : isDigit (at? s 0) = false) :
      PairsText ((value ds, value es) :: ps) (List.replicate i 32 ++ ds ++ List.replicate j 32 ++ es ++ s)

theorem skip_blanks (i : Nat) (s : List Nat) : Scan.skipSpace (List.replicate i 32 ++ s) = Scan.skipSpace s := by
  induction i with
  | zero => rfl
  | succ i ih => rw [List.replicate_succ, List.cons_append, Scan.skipSpace, if_pos (by decide), ih]

theorem scanInt_blanks (i : Nat) (s : List Nat) : Scan.scanInt (List.replicate i 32 ++ s) = Scan.scanInt s := by
  unfold Scan.scanInt
  rw [skip_blanks]

theorem scanInt_empty {s : List Nat} (h : ∀ c ∈ s, c = 32) : Scan.scanInt s = none := by
  have : s = List.replicate s.length 32 ++ [] := by
    rw [List.append_nil]; exact List.eq_replicate_iff.2 ⟨rfl, h⟩
  rw [this, scanInt_blanks]
  rfl

/-- Old numbers are replaced by the new ones of their pairs, one pair after another. -/
theorem C107_old_numbers {ps : List (Nat × Nat)} {s : List Nat} (h : PairsText ps s) :
    ∀ (n : Int) (fuel : Nat), s.length ≤ fuel → remap n fuel s = ps.foldl (fun n p => if n = (p.2 : Int) then (p.1 : Int) else n) n := by
  induction h with
  | @nil s h =>
    intro n fuel _
    cases fuel with
    | zero => rfl
    | succ f => rw [remap, scanInt_empty h]; rfl
  | @cons ps ds es s i j hd hdne he hene hj hs hh ih =>
    intro n fuel hf
    have hl : 1 ≤ ds.length := by cases ds with | nil => exact absurd rfl hdne | cons => simp
    cases fuel with
    | zero => simp at hf; omega
    | succ f =>
      have e1 : List.replicate i 32 ++ ds ++ List.replicate j 32 ++ es ++ s = List.replicate i 32 ++ (ds ++ (List.replicate j 32 ++ (es ++ s))) := by simp
      have hb : isDigit (at? (List.replicate j 32 ++ (es ++ s)) 0) = false := by
        cases j with
        | zero => omega
        | succ j => simp [List.replicate_succ, at?, isDigit]
      rw [remap, e1, scanInt_blanks, Scan.scanInt_digits hd hdne hb]
      simp only
      rw [scanInt_blanks, Scan.scanInt_digits he hene hh]
      simp only
      rw [ih _ _ (by simp at hf; omega)]
      rfl

/-- A line of old numbers, as it is kept: pairs after `Remap:`. -/
theorem C107_old_number {ps : List (Nat × Nat)} {s : List Nat} (h : PairsText ps s) {n : Int} (hn : 9 < n ∧ n < 1000) :
    remapped n [[82, 101, 109, 97, 112, 58] ++ s] = ps.foldl (fun n p => if n = (p.2 : Int) then (p.1 : Int) else n) n := by
  unfold remapped
  simp only [List.foldl_cons, List.foldl_nil, if_pos hn]
  exact C107_old_numbers h n _ (by simp; omega)

/-! ## An object -/

/-- Where an object's lines are: after lines of old numbers, other planets, a line of its planet and the first of its angles if there are some;
    `after` are the lines after them.  `first` is the number of the line before the angles. -/
structure ObjectAt (n₀ n : Int) (p : Nat) (first : Option Nat) (lines body after : List (List Nat)) : Prop where
  ex : ∃ (Rs A : List (List Nat)) (P : List Nat) (F C : List (List Nat)) (O : List Nat),
    lines = Rs ++ (A ++ P :: (F ++ (C ++ O :: (body ++ after)))) ∧ (∀ l ∈ Rs, IsRemap l) ∧ remapped n₀ Rs = n ∧ (∀ l ∈ A, Other n l) ∧
      IsPlanet P ∧ Cospar.byte P 7 = p ∧ ((F = [] ∧ first = none) ∨ (∃ f, F = [f] ∧ IsFirst p f ∧ first = some (Rs.length + A.length))) ∧
      (∀ l ∈ C, Passive n p l) ∧ IsObject O ∧ atoi (O.drop 4) = n
  letter : 65 ≤ p ∧ p ≠ 79 ∧ p ≠ 80 ∧ p ≠ 82
  modern : Modern n
  number : n ≠ planetSelected ∧ n ≠ noObject

/-- The terms need no angles, or find them. -/
def AngledAt (d : ℝ) (lines : List (List Nat)) (first : Option Nat) (angle : Nat → ℝ) (ts : List Term) : Prop :=
  match first with
  | some k => Angled d lines k angle ts
  | none => ∀ t ∈ ts, ∀ n, ¬ t.Needs n

theorem angled_at {d : ℝ} {lines : List (List Nat)} {first : Option Nat} {angle : Nat → ℝ} {ts : List Term} (h : AngledAt d lines first angle ts) {k : Nat}
    (hk : ∀ k', first = some k' → k = k') : Angled d lines k angle ts := by
  cases first with
  | none => exact fun t ht n hn => absurd hn (h t ht n)
  | some k' => rw [hk k' rfl]; exact h

theorem begin_idle {n : Int} (hn : n ≠ noObject) (m : Nat) : Idle n { begin_ n with line := m } :=
  ⟨rfl, Ne.symm hn, rfl, rfl, rfl, rfl, rfl, rfl, rfl, rfl⟩

/-- The reader comes to the object's lines. -/
theorem reach (q : Ask) {n₀ n : Int} {p : Nat} {first : Option Nat} {lines body after : List (List Nat)} (h : ObjectAt n₀ n p first lines body after) :
    ∃ (k : Nat) (g : State), steps q lines lines (begin_ n₀) = steps q lines (body ++ after) g ∧ Inside n p k g ∧ (∀ k', first = some k' → k = k') ∧ g.gotOmega = false ∧ g.ra = none ∧ g.dec = none ∧ g.omega = none ∧
      g.radii = (0, 0, 0) ∧ g.retro = false := by
  obtain ⟨Rs, A, P, F, C, O, el, hRs, hre, hA, hP, hp, hF, hC, hO, hat⟩ := h.ex
  have hn := h.modern
  have hs := h.number.1
  have s0 : steps q lines lines (begin_ n₀) = steps q lines (A ++ P :: (F ++ (C ++ O :: (body ++ after)))) { begin_ n with line := 0 + Rs.length } := by
    conv_lhs => rw [show steps q lines lines (begin_ n₀) = steps q lines (Rs ++ (A ++ P :: (F ++ (C ++ O :: (body ++ after))))) { begin_ n₀ with line := 0 } by rw [← el]; rfl]
    rw [skip_remaps q lines _ Rs n₀ 0 hRs, hre]
  obtain ⟨g1, s1, i1, l1⟩ := skip_before q lines hn hs (P :: (F ++ (C ++ O :: (body ++ after)))) A _ hA (begin_idle h.number.2 (0 + Rs.length))
  have l1' : g1.line = Rs.length + A.length := by rw [l1]; simp
  -- the planet
  have hP' : Cospar.byte P 0 = 80 := hP
  have s2 : steps q lines (P :: (F ++ (C ++ O :: (body ++ after)))) g1 =
      steps q lines (F ++ (C ++ O :: (body ++ after))) { g1 with planet := p, curr := planetSelected, line := g1.line + 1 } := by
    rw [steps, if_neg (by rw [i1.finished, i1.err]; simp)]
    unfold step
    rw [step_remap hn i1.object]
    have hc : decide (g1.curr = g1.object) = false := by simp [i1.object, i1.curr]
    simp only [if_pos hP', Run.bind, hc, Bool.or_false, hp]
  -- the angles
  have s3 : ∃ g3, steps q lines (F ++ (C ++ O :: (body ++ after))) { g1 with planet := p, curr := planetSelected, line := g1.line + 1 } =
      steps q lines (C ++ O :: (body ++ after)) g3 ∧ Idle n g3 ∧ g3.planet = p ∧ (∀ k', first = some k' → g3.angular = k') := by
    rcases hF with ⟨rfl, rfl⟩ | ⟨f, rfl, hf, rfl⟩
    · exact ⟨_, rfl, ⟨i1.object, Ne.symm hs, i1.finished, i1.gotOmega, i1.err, i1.ra, i1.dec, i1.omega, i1.radii, i1.retro⟩, rfl, by simp⟩
    · refine ⟨{ g1 with planet := p, curr := planetSelected, line := g1.line + 1 + 1, angular := g1.line }, ?_,
        ⟨i1.object, Ne.symm hs, i1.finished, i1.gotOmega, i1.err, i1.ra, i1.dec, i1.omega, i1.radii, i1.retro⟩, rfl, ?_⟩
      · obtain ⟨f0, f1, f2⟩ := hf
        obtain ⟨hp1, hp2, hp3, hp4⟩ := h.letter
        rw [List.cons_append, List.nil_append, steps, if_neg (by simp [i1.finished, i1.err])]
        unfold step
        rw [step_remap hn (show ({ g1 with planet := p, curr := planetSelected, line := g1.line + 1 } : State).object = n from i1.object)]
        rw [if_neg (by omega), if_neg (by omega), if_pos ⟨show p ≠ 0 by omega, rfl, f0, f1, f2⟩]
        simp [Run.bind]
      · intro k' e
        rw [← Option.some.inj e, ← l1']
  obtain ⟨g3, s3, i3, p3, k3⟩ := s3
  obtain ⟨g4, s4, i4, -, p4, k4⟩ := skip_within q lines hn (p := p) (k := g3.angular) (O :: (body ++ after)) C g3 hC i3 p3 rfl
  have hO' : Cospar.byte O 0 = 79 := hO
  have s5 : steps q lines (O :: (body ++ after)) g4 = steps q lines (body ++ after) { g4 with curr := n, line := g4.line + 1 } := by
    rw [steps, if_neg (by rw [i4.finished, i4.err]; simp)]
    unfold step
    rw [step_remap hn i4.object]
    have hc : decide (g4.curr = g4.object) = false := by simp [i4.object, i4.curr]
    have h2 : ¬ Cospar.byte O 0 = 80 := by omega
    simp only [if_neg h2, if_pos hO', Run.bind, hc, Bool.or_false, hat]
  refine ⟨g3.angular, { g4 with curr := n, line := g4.line + 1 }, by rw [s0, s1, s2, s3, s4, s5], ⟨i4.object, rfl, p4, k4, i4.finished, i4.err⟩, k3, i4.gotOmega, i4.ra, i4.dec,
    i4.omega, i4.radii, i4.retro⟩

/-- The object's own lines: radii, the right ascension and the declination of the pole, the meridian for other systems, for this one, for
    others again. -/
structure ObjectLines (q : Ask) (p : Nat) (body : List (List Nat)) (al dl wl : List Nat) : Prop where
  ex : ∃ rs ws more : List (List Nat), body = rs ++ al :: dl :: (ws ++ wl :: more) ∧ (∀ l ∈ rs, Cospar.byte l 0 = 114) ∧
    (∀ l ∈ ws, Cospar.byte l 0 = 87 ∧ (Cospar.byte l 1 : Int) ≠ (q.system + 48) % 256 ∧ Cospar.byte l 1 ≠ 61) ∧ (∀ l ∈ more, Cospar.byte l 0 = 87)
  a : Cospar.byte al 0 = 97
  d : Cospar.byte dl 0 = 100
  w : Cospar.byte wl 0 = 87 ∧ ((Cospar.byte wl 1 : Int) = (q.system + 48) % 256 ∨ Cospar.byte wl 1 = 61)

/-- Another object or planet follows. -/
def OthersAfter (after : List (List Nat)) : Prop := ∃ (N : List Nat) (R : List (List Nat)), after = N :: R ∧ (IsPlanet N ∨ IsObject N)

theorem body_read {q : Ask} (hpole : q.pole = true) (homega : q.omega = true) (hradii : q.radii = false) {n₀ n : Int} {p : Nat} {first : Option Nat}
    {lines body after : List (List Nat)} {al dl wl : List Nat} (h : ObjectAt n₀ n p first lines body after) (hb : ObjectLines q p body al dl wl) {angle : Nat → ℝ}
    {ca cd cw : ℝ} {ta td tw : List Term} (ha : SumText p ca ta al) (hd : SumText p cd td dl) (hw : SumText p cw tw wl)
    (aa : AngledAt q.d lines first angle ta) (ad : AngledAt q.d lines first angle td) (aw : AngledAt q.d lines first angle tw) :
    ∃ (k : Nat) (g : State), steps q lines lines (begin_ n₀) = steps q lines after g ∧ Inside n p k g ∧ g.ra = some (total q.d angle ca ta) ∧
      g.dec = some (total q.d angle cd td) ∧ g.omega = some (total q.d angle cw tw) ∧ g.retro = goesDown tw := by
  obtain ⟨k, g, s0, hg, hk, g1, g2, g3, g4, g5, g6⟩ := reach q h
  obtain ⟨rs, ws, more, rfl, hrs, hws, hmore⟩ := hb.ex
  have hn := h.modern
  have hs := h.number.1
  have hp := h.letter.1
  have eo : ∀ l : List Nat, Cospar.byte l 0 = 97 ∨ Cospar.byte l 0 = 100 ∨ Cospar.byte l 0 = 87 → Own l := by
    intro l hl
    unfold Own IsPlanet IsObject
    omega
  obtain ⟨m1, s1⟩ := own_silent q lines hn hs (al :: dl :: (ws ++ wl :: more) ++ after) rs g (got := false) (fun l hl => Or.inl ⟨hrs l hl, hradii⟩) hg g1
  have s2 := own_step q lines hn hs (eo al (Or.inl hb.a)) (g := { g with line := m1 })
    (g' := { g with line := m1, ra := some (total q.d angle ca ta), retro := g.retro || (false && goesDown ta), err := 0 })
    ⟨hg.object, hg.curr, hg.planet, hg.angular, hg.finished, hg.err⟩ (by
      unfold own
      rw [if_neg (by rw [hb.a]; decide), if_pos hb.a, hpole, if_pos rfl]
      simp only [hg.planet, hg.angular]
      rw [C107_sum q lines hp false g.retro rfl ha (angled_at aa hk)]
      simp [Run.bind]) (dl :: (ws ++ wl :: more) ++ after)
  have s3 := own_step q lines hn hs (eo dl (Or.inr (Or.inl hb.d))) (g := { g with line := m1 + 1, ra := some (total q.d angle ca ta), retro := g.retro || (false && goesDown ta), err := 0 })
    (g' := { g with line := m1 + 1, ra := some (total q.d angle ca ta), dec := some (total q.d angle cd td), retro := g.retro || (false && goesDown ta) || (false && goesDown td), err := 0 })
    ⟨hg.object, hg.curr, hg.planet, hg.angular, hg.finished, rfl⟩ (by
      unfold own
      rw [if_neg (by rw [hb.d]; decide), if_neg (by rw [hb.d]; decide), if_pos hb.d, hpole, if_pos rfl]
      simp only [hg.planet, hg.angular]
      rw [C107_sum q lines hp false _ rfl hd (angled_at ad hk)]
      simp [Run.bind]) ((ws ++ wl :: more) ++ after)
  simp only [Bool.false_and, Bool.or_false, g6] at s2 s3
  obtain ⟨m4, s4⟩ := own_silent q lines hn hs (wl :: more ++ after) ws
    { g with line := m1 + 1 + 1, ra := some (total q.d angle ca ta), dec := some (total q.d angle cd td), retro := false, err := 0 } (got := false)
    (fun l hl => Or.inr ⟨(hws l hl).1, Or.inr (hws l hl).2⟩) ⟨hg.object, hg.curr, hg.planet, hg.angular, hg.finished, rfl⟩ g1
  have s5 := own_step q lines hn hs (eo wl (Or.inr (Or.inr hb.w.1)))
    (g := { g with line := m4, ra := some (total q.d angle ca ta), dec := some (total q.d angle cd td), retro := false, err := 0 })
    (g' := { g with line := m4, ra := some (total q.d angle ca ta), dec := some (total q.d angle cd td), omega := some (total q.d angle cw tw), retro := goesDown tw, gotOmega := true, err := 0 })
    ⟨hg.object, hg.curr, hg.planet, hg.angular, hg.finished, rfl⟩ (by
      unfold own
      rw [if_neg (by rw [hb.w.1]; decide), if_neg (by rw [hb.w.1]; decide), if_neg (by rw [hb.w.1]; decide), if_pos ⟨g1, hb.w⟩, homega, if_pos rfl]
      simp only [hg.planet, hg.angular]
      rw [C107_sum q lines hp true false (by simp [hpole]) hw (angled_at aw hk)]
      simp [Run.bind]) (more ++ after)
  obtain ⟨m6, s6⟩ := own_silent q lines hn hs (after) more
    { g with line := m4 + 1, ra := some (total q.d angle ca ta), dec := some (total q.d angle cd td), omega := some (total q.d angle cw tw), retro := goesDown tw, gotOmega := true, err := 0 } (got := true)
    (fun l hl => Or.inr ⟨hmore l hl, Or.inl rfl⟩) ⟨hg.object, hg.curr, hg.planet, hg.angular, hg.finished, rfl⟩ rfl
  simp only [g6] at s1
  refine ⟨k, { g with line := m6, ra := some (total q.d angle ca ta), dec := some (total q.d angle cd td), omega := some (total q.d angle cw tw), retro := goesDown tw, gotOmega := true, err := 0 },
    ?_, ⟨hg.object, hg.curr, hg.planet, hg.angular, hg.finished, rfl⟩, rfl, rfl, rfl, rfl⟩
  rw [s0, List.append_assoc, s1]
  simp only [List.cons_append, List.append_assoc] at s2 s3 s4 s5 s6 ⊢
  rw [s2, s3, s4, s5, s6]

/-- An object of the file: its sums give the pole and the meridian, and the sign of the rotation. -/
theorem C107_found {q : Ask} (hpole : q.pole = true) (homega : q.omega = true) (hradii : q.radii = false) {n₀ n : Int} {p : Nat} {first : Option Nat}
    {lines body after : List (List Nat)} {al dl wl : List Nat} (h : ObjectAt n₀ n p first lines body after) (hf : OthersAfter after) (hb : ObjectLines q p body al dl wl)
    {angle : Nat → ℝ} {ca cd cw : ℝ} {ta td tw : List Term} (ha : SumText p ca ta al) (hd : SumText p cd td dl) (hw : SumText p cw tw wl)
    (aa : AngledAt q.d lines first angle ta) (ad : AngledAt q.d lines first angle td) (aw : AngledAt q.d lines first angle tw) :
    search q n₀ lines = .ok ⟨0, some (total q.d angle ca ta), some (total q.d angle cd td), some (total q.d angle cw tw), none, some (goesDown tw)⟩ := by
  obtain ⟨k, g, s, hg, v1, v2, v3, v4⟩ := body_read hpole homega hradii h hb ha hd hw aa ad aw
  obtain ⟨N, R, rfl, hN⟩ := hf
  obtain ⟨g', s7, e1, e2, e3, e4, e5, e6, e7⟩ := own_end q lines h.modern hN hg R
  unfold search
  rw [s, s7]
  simp only [Run.bind, e2, e1, e3, e4, e5, e7, hradii, v1, v2, v3, v4]
  simp

/-- The last object of the file is taken for one that is not there: the pole is made of its number. -/
theorem C107_last {q : Ask} (hpole : q.pole = true) (homega : q.omega = true) (hradii : q.radii = false) {n₀ n : Int} {p : Nat} {first : Option Nat}
    {lines body : List (List Nat)} {al dl wl : List Nat} (h : ObjectAt n₀ n p first lines body []) (hb : ObjectLines q p body al dl wl)
    {angle : Nat → ℝ} {ca cd cw : ℝ} {ta td tw : List Term} (ha : SumText p ca ta al) (hd : SumText p cd td dl) (hw : SumText p cw tw wl)
    (aa : AngledAt q.d lines first angle ta) (ad : AngledAt q.d lines first angle td) (aw : AngledAt q.d lines first angle tw) :
    search q n₀ lines = .ok ⟨-1, some (n * 20), some (n * 20), some (q.d * 360 / 1.3), none, some (goesDown tw)⟩ := by
  obtain ⟨k, g, s, hg, v1, v2, v3, v4⟩ := body_read hpole homega hradii h hb ha hd hw aa ad aw
  unfold search
  rw [s, steps]
  simp [Run.bind, hg.err, hg.finished, hpole, homega, hradii, v4, hg.object]

/-- So is one that is not there. -/
theorem C107_not_there (q : Ask) {n : Int} (hn : Modern n) (hs : n ≠ planetSelected) (ho : n ≠ noObject) {lines : List (List Nat)} (h : ∀ l ∈ lines, Other n l) :
    search q n lines = .ok ⟨-1, if q.pole then some (n * 20) else none, if q.pole then some (n * 20) else none,
      if q.omega then some (q.d * 360 / 1.3) else none, if q.radii then some (0, 0, 0) else none, some false⟩ := by
  obtain ⟨g, e, i, -⟩ := skip_before q lines hn hs [] lines (begin_ n) h (begin_idle ho 0)
  rw [List.append_nil] at e
  unfold search
  rw [e, steps]
  simp [Run.bind, i.err, i.finished, i.object, i.radii, i.retro]

end Verif.Props
