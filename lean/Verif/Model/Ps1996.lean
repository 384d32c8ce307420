import Mathlib.Analysis.SpecialFunctions.Trigonometric.Basic
import Verif.Model.Bytes
import Verif.Model.GetBin

/-!
# Model of the planetary positions from PS-1996, /repo/de_plan.cpp:29-314

Real numbers for `double`; what number eight bytes of the file are is a parameter `real`.  The machine is little-endian, `char` is signed.
The file is the list of its bytes, it can be opened, and memory can be had; what `fread` leaves when the file ends too early is described
at `load`.  `planet_no` is at least 1.
-/

namespace Verif.Ps1996

open Verif Verif.GetBin

/-- A pointer into a list of bytes. -/
def ptr (s : List Nat) : Nat → Nat := fun i => s.getD i 0

/-- The bytes a number takes, by the two bits for it, lines 78-103. -/
def width : Nat → Nat
  | 0 => 1
  | 1 => 2
  | 2 => 4
  | _ => 8

/-- The number itself. -/
noncomputable def number (real : List Nat → ℝ) (kind : Nat) (s : List Nat) : ℝ :=
  match kind with
  | 0 => (schar (ptr s 0) : ℝ)
  | 1 => (get16sbits (ptr s) : ℝ)
  | 2 => (get32sbits (ptr s) : ℝ)
  | _ => real (s.take 8)

/-- The loop of `unpack_six_doubles`, lines 77-104: the numbers and what is left of the buffer. -/
noncomputable def unpack (real : List Nat → ℝ) : Nat → Nat → List Nat → Outcome (List ℝ × List Nat)
  | 0, _, s => .ok ([], s)
  | n + 1, flags, s =>
    if s.length < width (flags % 4) then .ub
    else (unpack real n (flags / 4) (s.drop (width (flags % 4)))).bind fun r => .ok (number real (flags % 4) s :: r.1, r.2)

/-- `unpack_six_doubles`, lines 71-106. -/
noncomputable def unpackSix (real : List Nat → ℝ) (s : List Nat) : Outcome (List ℝ × List Nat) :=
  if s.length < 2 then .ub else unpack real 6 (get16bits (ptr s)) (s.drop 2)

/-- The loop of lines 203-204: the six numbers of each frequency. -/
noncomputable def unpackAll (real : List Nat → ℝ) : Nat → List Nat → Outcome (List (List ℝ))
  | 0, _ => .ok []
  | n + 1, s => (unpackSix real s).bind fun r => (unpackAll real n r.2).bind fun rs => .ok (r.1 :: rs)

/-- A frequency, from `fqs`, and its six numbers, from `terms`. -/
structure Row where
  fq : ℝ
  c : List ℝ

/-- `struct poisson`, lines 32-39, as far as it is used; the arrays of `total_fqs` frequencies and as many sixes of numbers are a list. -/
structure Series where
  tzero : ℝ
  dt : ℝ
  secular : List ℝ
  nf : Nat → Int
  rows : List Row

/-- `struct poisson_header`, lines 43-48, of 26 bytes. -/
structure Header where
  tzero : ℝ
  dt : ℝ
  nf : Nat → Int
  nBlocks : Int
  totalFqs : Int

/-- The header from its bytes. -/
noncomputable def header (real : List Nat → ℝ) (s : List Nat) : Header :=
  { tzero := real (s.take 8)
    dt := real ((s.drop 8).take 8)
    nf := fun i => get16sbits (ptr (s.drop (16 + 2 * i)))
    nBlocks := get16sbits (ptr (s.drop 22))
    totalFqs := get16sbits (ptr (s.drop 24)) }

/-- `n` doubles one after another. -/
def doubles (real : List Nat → ℝ) : Nat → List Nat → List ℝ
  | 0, _ => []
  | n + 1, s => real (s.take 8) :: doubles real n (s.drop 8)

/-- `n` numbers of sixteen bits one after another. -/
def shorts : Nat → List Nat → List Int
  | 0, _ => []
  | n + 1, s => get16sbits (ptr s) :: shorts n (s.drop 2)

/-- `fseek`: a place before the beginning is refused, and the place stays. -/
def seek (stay : Nat) (there : Int) : Nat := if there < 0 then stay else there.toNat

/-- The part of `load_ps1996_series` after the header, lines 163-209; `pos` is the place after the header.  `ub` stands also for a result
    that depends on bytes never set. -/
noncomputable def loadBlock (real : List Nat → ℝ) (file : List Nat) (pos : Nat) (h : Header) (block : Nat) : Outcome (Option Series) :=
  if h.totalFqs < 0 then .ub
  else
    let t := h.totalFqs.toNat
    let n := h.nBlocks.toNat
    let s := file.drop pos
    if 30 < n ∧ 8 * t + 60 < s.length then .ub
    else if t = 0 ∨ s.length < 8 * t + n then .ok none
    else if s.length < 8 * t + 2 * n then .ub
    else
      let sizes := shorts n (s.drop (8 * t))
      let here := pos + 8 * t + 2 * n
      let tb := file.drop (seek here (here + (sizes.take block).sum))
      let size := sizes.getD block 0
      if size ≤ 0 then .ok none
      else if tb.length < size.toNat then .ok none
      else
        let tb := tb.take size.toNat
        if tb.length < 96 then .ub
        else (unpackAll real t (tb.drop 96)).bind fun terms =>
          .ok (some { tzero := h.tzero + (block : ℝ) * h.dt, dt := h.dt, secular := doubles real 12 tb, nf := h.nf
                      rows := List.zipWith Row.mk (doubles real t s) terms })

/-- `load_ps1996_series`, lines 132-210, for the planet `k + 1`; `none` for NULL.  `ub` if the header was not read: it is used before the
    error is looked at. -/
noncomputable def load (real : List Nat → ℝ) (file : List Nat) (jd : ℝ) (k : Nat) : Outcome (Option Series) :=
  let s := file.drop (4 * k)
  if s.length < 4 then .ub
  else
    let pos := seek (4 * k + 4) (get32sbits (ptr s))
    let s := file.drop pos
    if s.length < 26 then .ub
    else
      let h := header real s
      let block := ⌊(jd - h.tzero) / h.dt⌋
      if h.dt = 0 ∨ block < -2147483648 ∨ 2147483648 ≤ block then .ub
      else if block < 0 ∨ h.nBlocks ≤ block then .ok none
      else loadBlock real file (pos + 26) h block.toNat

/-! ## The position -/

/-- `xpower`, lines 249-251. -/
def xpower (x : ℝ) : Nat → ℝ
  | 0 => 1
  | 1 => 1
  | j + 2 => xpower x (j + 1) * x

/-- The loop of lines 256-268 after `j` numbers: `state_vect[i]`, `state_vect[i + 3]` and `wx`. -/
noncomputable def secularLoop (x : ℝ) (s : List ℝ) : Nat → ℝ × ℝ × ℝ
  | 0 => (0, 0, 1)
  | j + 1 =>
    let r := secularLoop x s j
    (r.1 + r.2.2 * s.getD j 0, if j = 0 then 0 else r.2.1 + (j : ℝ) * s.getD j 0 * xpower x j, r.2.2 * x)

/-- `state_vect` after the secular terms, lines 252-270. -/
noncomputable def secularPart (p : Series) (x : ℝ) : Nat → ℝ := fun i =>
  if i < 3 then (secularLoop x (p.secular.drop (4 * i)) 4).1
  else (secularLoop x (p.secular.drop (4 * (i - 3))) 4).2.1 * (2 / p.dt)

/-- One frequency is added to `new_sums`, lines 282-293. -/
noncomputable def addRow (fx : ℝ) (s : Nat → ℝ) (r : Row) : Nat → ℝ := fun i =>
  if i < 3 then s i + (r.c.getD (2 * i) 0 * Real.cos (r.fq * fx) + r.c.getD (2 * i + 1) 0 * Real.sin (r.fq * fx))
  else s i + r.fq * (r.c.getD (2 * (i - 3) + 1) 0 * Real.cos (r.fq * fx) - r.c.getD (2 * (i - 3)) 0 * Real.sin (r.fq * fx))

/-- `new_sums`, lines 278-294. -/
noncomputable def newSums (fx : ℝ) (rows : List Row) : Nat → ℝ := rows.foldl (addRow fx) fun _ => 0

/-- The state of the loop over `m`: `state_vect`, `wx`, and the frequencies from `fq_ptr` on. -/
structure Progress where
  vect : Nat → ℝ
  wx : ℝ
  rows : List Row

/-- One turn of the loop over `m`, lines 273-308. -/
noncomputable def turn (p : Series) (x fx : ℝ) (m : Nat) (g : Progress) : Outcome Progress :=
  let n := (p.nf m).toNat
  if g.rows.length < n then .ub
  else
    let s := newSums fx (g.rows.take n)
    .ok { vect := fun i => if i < 3 then g.vect i + s i * g.wx
                           else g.vect i + s i * g.wx + (if m = 0 then 0 else (((m * 2 : Nat) : ℝ) * xpower x m / p.dt) * s (i - 3))
          wx := g.wx * x
          rows := g.rows.drop n }

/-- `get_ps1996_position`, lines 231-313: `none` for the value -1, otherwise `state_vect`.  `old` is what was in it. -/
noncomputable def position (jd : ℝ) (p : Series) (old : Nat → ℝ) (velocity : Bool) : Outcome (Option (Nat → ℝ)) :=
  let x := 2 * (jd - p.tzero) / p.dt - 1
  let fx := x * p.dt / 2
  if jd < p.tzero ∨ jd > p.tzero + p.dt then .ok none
  else
    (turn p x fx 0 { vect := secularPart p x, wx := 1, rows := p.rows }).bind fun g =>
    (turn p x fx 1 g).bind fun g => (turn p x fx 2 g).bind fun g =>
    .ok (some fun i => if i < 3 ∨ (velocity = true ∧ i < 6) then g.vect i * 1e-10 else old i)

end Verif.Ps1996
