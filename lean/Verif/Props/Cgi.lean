import Verif.Model.Bytes
import Verif.Model.Cgi
import Verif.Spec.UrlForm
import Mathlib.Tactic.SplitIfs

/-!
# Property theorems: URL-encoded form data (C30)
-/

namespace Verif.Props

open Verif Verif.Cgi Verif.UrlForm

theorem hexDigit_hex (d : Nat) (h : d < 16) : hexDigit (hex d) = some d := by
  unfold hexDigit hex
  split
  · rw [if_pos (by omega)]; congr 1; omega
  · rw [if_neg (by omega), if_pos (by omega)]; congr 1; omega

theorem loop_step (stop n c : Nat) (tl buff t : List Nat) (b : Nat) (h1 : 14 ≤ c ∧ c ≤ 127) (h2 : c ≠ stop)
    (h3 : decode c tl = some (b, t)) : loop stop (n + 1) (c :: tl) buff = loop stop n t (buff ++ [b]) := by
  have h3' : decode (peek (c :: tl)) (c :: tl).tail = some (b, t) := h3
  have h1' : goesOn (peek (c :: tl)) = true := decide_eq_true ⟨show 13 < c by omega, show c < 128 by omega⟩
  have h2' : peek (c :: tl) ≠ stop := h2
  rw [loop, if_pos ⟨h1', h2'⟩, h3']

/-- Reading encoded text, when there is room for all of it. -/
theorem loop_encoded (stop : Nat) (raw text : List Nat) (h : Encodes stop raw text)
    (hstop : stop ≠ 43 ∧ stop ≠ 37) (n : Nat) (after buff : List Nat) :
    loop stop (n + raw.length) (text ++ after) buff = loop stop n after (buff ++ raw) := by
  induction h generalizing buff with
  | nil => simp
  | plain b raw text lo hi h1 h2 h3 h ih =>
    have e : decode b (text ++ after) = some (b, text ++ after) := by unfold decode; rw [if_neg h2, if_neg h3]
    rw [List.length_cons, ← Nat.add_assoc, List.cons_append, loop_step _ _ _ _ _ _ b (by omega) h1 e, ih]
    simp
  | plus raw text h ih =>
    rw [List.length_cons, ← Nat.add_assoc, List.cons_append,
      loop_step _ _ _ _ _ (text ++ after) 32 (by omega) (Ne.symm hstop.1) rfl, ih]
    simp
  | percent b raw text hb h ih =>
    have e : decode 37 (hex (b / 16) :: hex (b % 16) :: (text ++ after)) = some (b, text ++ after) := by
      unfold decode
      rw [if_neg (by decide), if_pos rfl]
      simp only [peek, List.tail_cons, hexDigit_hex _ (show b / 16 < 16 by omega), hexDigit_hex _ (show b % 16 < 16 by omega)]
      rw [show b / 16 * 16 + b % 16 = b by omega]
    rw [List.length_cons, ← Nat.add_assoc, List.cons_append, List.cons_append, List.cons_append,
      loop_step _ _ _ _ _ _ b (by omega) (Ne.symm hstop.2) e, ih]
    simp

theorem loop_stops (stop n : Nat) (after buff : List Nat) (h : peek after = stop ∨ goesOn (peek after) = false) :
    loop stop n after buff = Cgi.stop stop after buff := by
  cases n with
  | zero => rfl
  | succ n =>
    unfold loop
    rw [if_neg]
    rintro ⟨h1, h3⟩
    rcases h with h | h
    · exact h3 h
    · rw [h1] at h; cases h

theorem decr_of (n m : Nat) (h : n < m) : ∃ k, decr m = k + n := ⟨m - 1 - n, by unfold decr; split <;> omega⟩

theorem piece_encoded (stop : Nat) (raw text after : List Nat) (h : Encodes stop raw text)
    (hstop : stop ≠ 43 ∧ stop ≠ 37) (n : Nat) (hn : raw.length < n)
    (ha : peek after = stop ∨ goesOn (peek after) = false) :
    piece (text ++ after) n stop = .done (peek after) (raw ++ [0]) (if peek after ≠ stop then after else after.tail) := by
  obtain ⟨k, hk⟩ := decr_of _ _ hn
  unfold piece
  rw [hk, loop_encoded _ _ _ h hstop, loop_stops _ _ _ _ ha]
  rfl

/-- **C30.** A field written in any of the allowed ways, and followed by an ampersand or by the end of the
    text, is read back exactly if both buffers have room for it and for the closing NUL.  The pointer is left
    at the start of the next field. -/
theorem C30_field (name value tn tv after : List Nat) (maxField maxBuff : Nat)
    (hn : Encodes 61 name tn) (hv : Encodes 38 value tv) (h1 : name.length < maxField) (h2 : value.length < maxBuff) :
    formData (tn ++ 61 :: (tv ++ 38 :: after)) maxField maxBuff = ⟨0, name ++ [0], value ++ [0], after⟩ ∧
    formData (tn ++ 61 :: tv) maxField maxBuff = ⟨0, name ++ [0], value ++ [0], []⟩ := by
  have e1 : ∀ r, piece (tn ++ 61 :: r) maxField 61 = .done 61 (name ++ [0]) r := fun r =>
    piece_encoded _ _ _ (61 :: r) hn (by decide) _ h1 (Or.inl rfl)
  have e2 : piece (tv ++ 38 :: after) maxBuff 38 = .done 38 (value ++ [0]) after :=
    piece_encoded _ _ _ (38 :: after) hv (by decide) _ h2 (Or.inl rfl)
  have e3 : piece tv maxBuff 38 = .done 0 (value ++ [0]) [] := by
    have := piece_encoded _ _ _ [] hv (by decide) _ h2 (Or.inr rfl)
    rw [List.append_nil] at this
    exact this
  constructor
  · simp only [formData, e1, e2, ne_eq, not_true_eq_false, if_false, false_and]
  · simp only [formData, e1, e3, ne_eq, not_true_eq_false, if_false]
    rfl

/-- **C30.** A whole form is read back field by field, and then reading stops (here `n` is any number of calls
    allowed, above the number of fields). -/
theorem C30_form (fields : List (List Nat × List Nat)) (text : List Nat) (maxField maxBuff n : Nat)
    (h : EncodesForm fields text) (hroom : ∀ f ∈ fields, f.1.length < maxField ∧ f.2.length < maxBuff)
    (hn : fields.length < n) :
    readAll maxField maxBuff n text = fields.map fun f => (f.1 ++ [0], f.2 ++ [0]) := by
  induction h generalizing n with
  | one name value tn tv h1 h2 =>
    obtain ⟨r1, r2⟩ := hroom (name, value) (by simp)
    simp only [List.length_cons, List.length_nil] at hn
    obtain ⟨n, rfl⟩ : ∃ k, n = k + 2 := ⟨n - 2, by omega⟩
    simp only [readAll, (C30_field name value tn tv [] maxField maxBuff h1 h2 r1 r2).2, if_true]
    have : (formData [] maxField maxBuff).rval = -1 := by
      simp only [formData, piece]
      rw [loop_stops _ _ _ _ (Or.inr rfl)]
      rfl
    rw [this]
    rfl
  | more name value tn tv h1 h2 fields text h ih =>
    obtain ⟨r1, r2⟩ := hroom (name, value) (by simp)
    simp only [List.length_cons] at hn
    obtain ⟨n, rfl⟩ : ∃ k, n = k + 1 := ⟨n - 1, by omega⟩
    simp only [readAll, (C30_field name value tn tv text maxField maxBuff h1 h2 r1 r2).1, if_true]
    rw [ih n (fun f hf => hroom f (by simp [hf])) (by omega)]
    rfl

/-- **C30.** Every string of bytes has an encoding, the usual one, whatever ends the piece. -/
theorem C30_encode (raw : List Nat) (h : ∀ b ∈ raw, b < 256) : Encodes 61 raw (encode raw) ∧ Encodes 38 raw (encode raw) := by
  induction raw with
  | nil => exact ⟨.nil, .nil⟩
  | cons b raw ih =>
    obtain ⟨i1, i2⟩ := ih fun b hb => h b (by simp [hb])
    have hb := h b (by simp)
    unfold encode
    split
    · rename_i hc
      exact ⟨.plain b _ _ (by omega) (by omega) (by omega) (by omega) (by omega) i1,
        .plain b _ _ (by omega) (by omega) (by omega) (by omega) (by omega) i2⟩
    · split
      · rename_i e; subst e; exact ⟨.plus _ _ i1, .plus _ _ i2⟩
      · exact ⟨.percent b _ _ hb i1, .percent b _ _ hb i2⟩

theorem loop_bound (stop n : Nat) (tptr buff : List Nat) :
    (loop stop n tptr buff).stored.length ≤ buff.length + n + 1 := by
  induction n generalizing tptr buff with
  | zero => simp [loop, Cgi.stop, Piece.stored]
  | succ n ih =>
    unfold loop
    split
    · split
      · simp only [Piece.stored]; omega
      · rename_i b t _
        have := ih t (buff ++ [b])
        simp only [List.length_append, List.length_cons, List.length_nil] at this
        omega
    · simp only [Cgi.stop, Piece.stored, List.length_append, List.length_cons, List.length_nil]; omega

theorem piece_bound (idata : List Nat) (n stop : Nat) (h : n ≠ 0) : (piece idata n stop).stored.length ≤ n := by
  have := loop_bound stop (decr n) idata []
  unfold decr at this
  rw [if_neg h] at this
  unfold piece decr
  rw [if_neg h]
  simp only [List.length_nil] at this
  omega

/-- **C30.** Whatever the text, neither buffer overflows if its size is not zero. -/
theorem C30_no_overflow (idata : List Nat) (maxField maxBuff : Nat) (h1 : maxField ≠ 0) (h2 : maxBuff ≠ 0) :
    (formData idata maxField maxBuff).field.length ≤ maxField ∧ (formData idata maxField maxBuff).buff.length ≤ maxBuff := by
  have e1 := piece_bound idata maxField 61 h1
  unfold formData
  split
  · rename_i s hs
    rw [hs] at e1
    exact ⟨e1, Nat.zero_le _⟩
  · rename_i c s r hs
    rw [hs] at e1
    split
    · exact ⟨e1, Nat.zero_le _⟩
    · have e2 := piece_bound r maxBuff 38 h2
      split
      · rename_i s' hs'
        rw [hs'] at e2
        exact ⟨e1, e2⟩
      · rename_i c' s' r' hs'
        rw [hs'] at e2
        exact ⟨e1, e2⟩

theorem decode_tail (c : Nat) (t t' : List Nat) (b : Nat) (h : decode c t = some (b, t')) : ∃ u, t = u ++ t' := by
  unfold decode at h
  split at h
  · cases h; exact ⟨[], rfl⟩
  · split at h
    · split at h
      · rename_i x y hx hy
        cases h
        cases t with
        | nil => cases hx
        | cons a t =>
          cases t with
          | nil => cases hy
          | cons b t => exact ⟨[a, b], rfl⟩
      · cases h
    · cases h; exact ⟨[], rfl⟩

theorem loop_tail (stop n : Nat) (tptr buff : List Nat) (c : Nat) (s rest : List Nat)
    (h : loop stop n tptr buff = .done c s rest) :
    (∃ u, tptr = u ++ rest) ∧ (c = stop → 0 < stop → rest.length < tptr.length) := by
  have hs : ∀ buff tptr, Cgi.stop stop tptr buff = .done c s rest →
      (∃ u, tptr = u ++ rest) ∧ (c = stop → 0 < stop → rest.length < tptr.length) := by
    intro buff tptr h
    unfold Cgi.stop at h
    injection h with h1 h2 h3
    subst h1; subst h3
    split
    · rename_i hc; exact ⟨⟨[], rfl⟩, fun h => absurd h hc⟩
    · cases tptr with
      | nil => exact ⟨⟨[], rfl⟩, fun h h0 => by simp only [peek] at h; omega⟩
      | cons a t => exact ⟨⟨[a], rfl⟩, fun _ _ => by simp⟩
  induction n generalizing tptr buff with
  | zero => exact hs _ _ h
  | succ n ih =>
    unfold loop at h
    split at h
    · rename_i hg
      split at h
      · cases h
      · rename_i b t hd
        obtain ⟨⟨u, hu⟩, hl⟩ := ih t _ h
        obtain ⟨v, hv⟩ := decode_tail _ _ _ _ hd
        cases tptr with
        | nil => exact absurd hg.1 (by decide)
        | cons a w =>
          simp only [List.tail_cons] at hv
          subst hv
          refine ⟨⟨a :: (v ++ u), by rw [hu]; simp⟩, fun h1 h0 => ?_⟩
          have := hl h1 h0
          simp only [List.length_cons, List.length_append]
          omega
    · exact hs _ _ h

/-- **C30.** Whatever the text, what is left is a tail of it, and a call which returns a field or a cut-short
    field (0 or 1) has moved on.  So reading always comes to an end. -/
theorem C30_consumes (idata : List Nat) (maxField maxBuff : Nat) :
    (∃ u, idata = u ++ (formData idata maxField maxBuff).rest) ∧
    ((formData idata maxField maxBuff).rval ≠ -1 → (formData idata maxField maxBuff).rest.length < idata.length) := by
  unfold formData
  split
  · exact ⟨⟨[], rfl⟩, fun h => absurd rfl h⟩
  · rename_i c s r hs
    obtain ⟨⟨u, hu⟩, hl⟩ := loop_tail _ _ _ _ _ _ _ hs
    split
    · exact ⟨⟨u, hu⟩, fun h => absurd rfl h⟩
    · rename_i hc
      have hl := hl (by omega) (by omega)
      split
      · exact ⟨⟨u, hu⟩, fun _ => hl⟩
      · rename_i c' s' r' hs'
        obtain ⟨⟨v, hv⟩, -⟩ := loop_tail _ _ _ _ _ _ _ hs'
        refine ⟨⟨u ++ v, by rw [List.append_assoc, ← hv, ← hu]⟩, fun _ => ?_⟩
        have := congrArg List.length hv
        rw [List.length_append] at this
        simp only []
        omega

/-- **C30.** A caller's loop reads at most one field per byte of text, however many calls it is allowed. -/
theorem C30_stops (maxField maxBuff n : Nat) (idata : List Nat) :
    (readAll maxField maxBuff n idata).length ≤ idata.length := by
  induction n generalizing idata with
  | zero => exact Nat.zero_le _
  | succ n ih =>
    simp only [readAll]
    split
    · rename_i h
      have := (C30_consumes idata maxField maxBuff).2 (by omega)
      have := ih (formData idata maxField maxBuff).rest
      simp only [List.length_cons]
      omega
    · exact Nat.zero_le _

/-! ## Findings -/

/-- **C30.** A value too long for its buffer is cut to the room there is, with result 1, and the pointer is
    left inside the value: the rest of it is read as the name of the next field. -/
theorem C30_cut (name tn value rest tv after : List Nat) (maxField maxBuff c : Nat)
    (hn : Encodes 61 name tn) (hv : Encodes 38 value tv) (h1 : name.length < maxField)
    (h2 : value.length + 1 = maxBuff) (hc : 14 ≤ c ∧ c ≤ 127 ∧ c ≠ 38) (hr : rest = c :: after) :
    formData (tn ++ 61 :: (tv ++ rest)) maxField maxBuff = ⟨1, name ++ [0], value ++ [0], rest⟩ := by
  subst hr
  have e1 : ∀ r, piece (tn ++ 61 :: r) maxField 61 = .done 61 (name ++ [0]) r := fun r =>
    piece_encoded _ _ _ (61 :: r) hn (by decide) _ h1 (Or.inl rfl)
  have e2 : piece (tv ++ c :: after) maxBuff 38 = .done c (value ++ [0]) (c :: after) := by
    unfold piece decr
    rw [if_neg (by omega), show maxBuff - 1 = 0 + value.length by omega, loop_encoded _ _ _ hv (by decide)]
    simp only [loop, Cgi.stop, peek, List.nil_append, ne_eq, hc.2.2, not_false_eq_true, if_true]
  simp only [formData, e1, e2, ne_eq, not_true_eq_false, if_false]
  rw [if_pos ⟨hc.2.2, by simp [goesOn]; omega⟩]

/-- **C30.** Finding: a size of zero wraps around and then there is no limit: for every `n` there is a text
    which makes it store more than `n` bytes (up to the 64-bit range). -/
theorem C30_zero_size (n : Nat) (hn : n < 2 ^ 64) : ∃ idata, n < (formData idata 0 1).field.length := by
  refine ⟨List.replicate n 97, ?_⟩
  have he : ∀ k, Encodes 61 (List.replicate k 97) (List.replicate k 97) := by
    intro k
    induction k with
    | zero => exact .nil
    | succ k ih => exact .plain 97 _ _ (by decide) (by decide) (by decide) (by decide) (by decide) ih
  have : piece (List.replicate n 97) 0 61 = .done 0 (List.replicate n 97 ++ [0]) [] := by
    have h := loop_encoded 61 _ _ (he n) (by decide) (2 ^ 64 - 1 - n) [] []
    rw [List.append_nil, List.length_replicate, Nat.sub_add_cancel (by omega)] at h
    unfold piece decr
    rw [if_pos rfl, h, loop_stops _ _ _ _ (Or.inr rfl)]
    rfl
  unfold formData
  rw [this]
  simp

/-- **C30.** Finding: escapes in small letters, such as `%2f`, are refused.  In a name the result is -1; in a
    value it is 0, as if there had been a field, with the buffer left without its NUL and the pointer at the
    start of the value. -/
theorem C30_small_hex :
    formData (bytes "a%2fb=c") 30 30 = ⟨-1, bytes "a", [], bytes "a%2fb=c"⟩ ∧
    formData (bytes "a=b%2f&c=d") 30 30 = ⟨0, bytes "a" ++ [0], bytes "b", bytes "b%2f&c=d"⟩ := by
  decide +kernel

/-- **C30.** Finding: a byte above 127 which was not escaped ends the value, with result 0 (here "a=\xe9t&b=c"). -/
theorem C30_high_byte :
    formData (bytes "a=" ++ 233 :: bytes "t&b=c") 30 30 = ⟨0, bytes "a" ++ [0], [0], 233 :: bytes "t&b=c"⟩ := by
  decide +kernel

/-- Instance of the hypotheses of `C30_form`: "name=Bill+Gray&obj=1%2F%21". -/
example : EncodesForm [(bytes "name", bytes "Bill Gray"), (bytes "obj", bytes "1/!")] (bytes "name=Bill+Gray&obj=1%2F%21") := by
  refine .more (bytes "name") (bytes "Bill Gray") (bytes "name") (bytes "Bill+Gray") ?_ ?_ _ (bytes "obj=1%2F%21")
    (.one (bytes "obj") (bytes "1/!") (bytes "obj") (bytes "1%2F%21") ?_ ?_)
  · exact (C30_encode (bytes "name") (by decide)).1
  · exact (C30_encode (bytes "Bill Gray") (by decide)).2
  · exact (C30_encode (bytes "obj") (by decide)).1
  · exact (C30_encode (bytes "1/!") (by decide)).2

theorem hexDigit_some (c d : Nat) : hexDigit c = some d → c ∈ bytes "0123456789ABCDEF" := by
  unfold hexDigit
  intro h
  have h' : c ∈ List.range 128 := by
    rw [List.mem_range]; split_ifs at h <;> omega
  split_ifs at h with h1 h2
  · have : c = 48 ∨ c = 49 ∨ c = 50 ∨ c = 51 ∨ c = 52 ∨ c = 53 ∨ c = 54 ∨ c = 55 ∨ c = 56 ∨ c = 57 := by omega
    simp only [show bytes "0123456789ABCDEF" = [48, 49, 50, 51, 52, 53, 54, 55, 56, 57, 65, 66, 67, 68, 69, 70] from by decide +kernel]
    simp; omega
  · simp only [show bytes "0123456789ABCDEF" = [48, 49, 50, 51, 52, 53, 54, 55, 56, 57, 65, 66, 67, 68, 69, 70] from by decide +kernel]
    simp; omega

theorem loop_bad (stop n a c : Nat) (after buff : List Nat) (hstop : stop ≠ 37)
    (h : a ∉ bytes "0123456789ABCDEF" ∨ c ∉ bytes "0123456789ABCDEF") :
    loop stop (n + 1) (37 :: a :: c :: after) buff = .fail buff := by
  have e : decode (peek (37 :: a :: c :: after)) (37 :: a :: c :: after).tail = none := by
    unfold decode
    rw [if_neg (show ¬ peek (37 :: a :: c :: after) = 43 by simp [peek]), if_pos (show peek (37 :: a :: c :: after) = 37 from rfl)]
    simp only [peek, List.tail_cons]
    cases h1 : hexDigit a with
    | none => simp
    | some x =>
      cases h2 : hexDigit c with
      | none => simp
      | some y =>
        rcases h with h | h
        · exact absurd (hexDigit_some _ _ h1) h
        · exact absurd (hexDigit_some _ _ h2) h
  rw [loop, if_pos ⟨rfl, fun h => hstop h.symm⟩]
  rw [e]

/-- **C30.** A percent sign that is not followed by two of the digits 0-9 and A-F is an error: in the name of a field,
    -1 is returned and the pointer stays; in the value, it is left at the start of the value. -/
theorem C30_bad_escape (name nameText value valueText : List Nat) (a c : Nat) (after : List Nat) (maxField maxBuff : Nat)
    (hn : Encodes 61 name nameText) (hv : Encodes 38 value valueText)
    (hf : name.length < maxField) (hb : value.length + 1 < maxBuff) (hf2 : name.length + 1 < maxField)
    (h : a ∉ bytes "0123456789ABCDEF" ∨ c ∉ bytes "0123456789ABCDEF") :
    formData (nameText ++ 37 :: a :: c :: after) maxField maxBuff = ⟨-1, name, [], nameText ++ 37 :: a :: c :: after⟩ ∧
    formData (nameText ++ 61 :: (valueText ++ 37 :: a :: c :: after)) maxField maxBuff =
      ⟨0, name ++ [0], value, valueText ++ 37 :: a :: c :: after⟩ := by
  have p : ∀ stop raw text m, Encodes stop raw text → stop ≠ 43 ∧ stop ≠ 37 → raw.length + 1 < m →
      piece (text ++ 37 :: a :: c :: after) m stop = .fail raw := by
    intro stop raw text m he hs hm
    obtain ⟨k, hk⟩ := decr_of (raw.length + 1) m hm
    unfold piece
    rw [hk, show k + (raw.length + 1) = (k + 1) + raw.length by omega, loop_encoded _ _ _ he hs, loop_bad _ _ _ _ _ _ hs.2 h]
    rfl
  constructor
  · unfold formData
    rw [p 61 name nameText _ hn (by omega) hf2]
  · unfold formData
    rw [piece_encoded 61 name nameText _ hn (by omega) _ hf (Or.inl rfl)]
    simp only [peek, ne_eq, not_true_eq_false, if_false, List.tail_cons]
    rw [p 38 value valueText _ hv (by omega) hb]

example : Encodes 61 (bytes "ab") (bytes "ab") ∧ 71 ∉ bytes "0123456789ABCDEF" :=
  ⟨.plain 97 _ _ (by decide) (by decide) (by decide) (by decide) (by decide)
    (.plain 98 _ _ (by decide) (by decide) (by decide) (by decide) (by decide) .nil), by decide⟩

end Verif.Props
