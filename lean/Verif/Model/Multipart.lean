import Verif.Model.Bytes
import Verif.Model.Cgi

/-!
# Model of the reader of multipart forms, /repo/cgi_func.cpp:157-309

The standard input is the list of bytes still to be read.  `max_len` is at least 1.  `memcmp` is taken to look no
further than the first difference: the line compared ends with a NUL, which the boundary does not contain.
-/

namespace Verif.Multipart

/-- At most `n` bytes, up to the end of the line. -/
def takeLine : Nat → List Nat → List Nat × List Nat
  | 0, s => ([], s)
  | _ + 1, [] => ([], [])
  | n + 1, c :: s => if c = 10 then ([10], s) else (c :: (takeLine n s).1, (takeLine n s).2)

/-- `fgets` with a buffer of `n` bytes; `none` at the end of the input. -/
def fgets (n : Nat) (s : List Nat) : Option (List Nat × List Nat) := if s = [] then none else some (takeLine (n - 1) s)

/-- The C string at the start of a buffer. -/
def cstr (s : List Nat) : List Nat := s.takeWhile fun c => decide (c ≠ 0)

/-- `strstr`. -/
def findSub (p : List Nat) : List Nat → Option (List Nat)
  | [] => if p = [] then some [] else none
  | c :: s => if p.isPrefixOf (c :: s) then some (c :: s) else findSub p s

/-- `strchr( s, '"')`, and what is before it. -/
def quoted (s : List Nat) : Option (List Nat) := if 34 ∈ s then some (s.takeWhile fun c => decide (c ≠ 34)) else none

/-- The boundary up to the first control character, /repo/cgi_func.cpp:167-168; `char` is signed. -/
def boundaryOf (line : List Nat) : List Nat := line.takeWhile fun c => decide (32 ≤ c ∧ c < 128)

/-- The loop over the lines of the value, /repo/cgi_func.cpp:189-192: the bytes kept in `buff` and the input left.
    `fuel` is more than the bytes to read. -/
def dataLoop (b : List Nat) (maxLen : Nat) : Nat → List Nat → List Nat → List Nat × List Nat
  | 0, acc, inp => (acc, inp)
  | fuel + 1, acc, inp =>
    if acc.length < maxLen - 1 then
      match fgets (maxLen - acc.length) inp with
      | none => (acc, inp)
      | some (l, r) => if b.isPrefixOf l then (acc, r) else dataLoop b maxLen fuel (acc ++ cstr l) r
    else (acc, inp)

/-- Carriage returns and line feeds at the end are left off, /repo/cgi_func.cpp:196-198. -/
def stripEnd (s : List Nat) : List Nat := (s.reverse.dropWhile fun c => decide (c = 10 ∨ c = 13)).reverse

/-- The file name, /repo/cgi_func.cpp:174,180-185; `t` begins with `name="`.  The NUL stored at the end of the name comes before it. -/
def fileOf (t : List Nat) : List Nat :=
  match findSub (bytes "filename=\"") t with
  | none => []
  | some f => (quoted (f.drop 10)).getD []

/-- What a call leaves: the value returned, the texts stored in `field`, `filename` and `buff` (`none` if nothing was),
    and the input left. -/
structure Got where
  rval : Int
  field : Option (List Nat)
  filename : List Nat
  buff : Option (List Nat)
  rest : List Nat
  deriving DecidableEq

/-- `get_multipart_form_data`, /repo/cgi_func.cpp:159-202. -/
def getPart (boundary : List Nat) (maxLen : Nat) (inp : List Nat) : Got :=
  match fgets maxLen inp with
  | none => ⟨-1, none, [], none, inp⟩
  | some (l, r) =>
    match findSub (bytes "name=\"") (cstr l) with
    | none => ⟨-1, none, [], some (cstr l), r⟩
    | some t =>
      match quoted (t.drop 6) with
      | none => ⟨-1, none, [], some (cstr l), r⟩
      | some name =>
        if (cstr l).length = maxLen - 1 then ⟨-3, none, [], some (cstr l), r⟩
        else
          let file := fileOf t
          match fgets maxLen r with
          | none => ⟨0, some name, file, some [], r⟩
          | some (l2, r2) =>
            if (cstr l2).length = maxLen - 1 then ⟨-3, some name, file, some (cstr l2), r2⟩
            else
              let d := dataLoop (boundaryOf boundary) maxLen (r2.length + 1) [] r2
              ⟨(stripEnd d.1).length, some name, file, some (stripEnd d.1), d.2⟩

/-- How the data come, /repo/cgi_func.cpp:231-233. -/
inductive Method where
  | get | putUrl | putMultipart
  deriving DecidableEq

/-- The reader after `initialize_cgi_reading`. -/
structure Reader where
  method : Method
  /-- Text still to be read by `get_urlencoded_form_data`. -/
  url : List Nat
  boundary : List Nat
  /-- The standard input. -/
  inp : List Nat
  deriving DecidableEq

/-- What the environment says. -/
structure Env where
  query : Option (List Nat)
  contentType : Option (List Nat)
  /-- `atoi` of CONTENT_LENGTH. -/
  contentLength : Option Nat

/-- `initialize_cgi_reading`, /repo/cgi_func.cpp:235-274: the error, or the reader. -/
def start (e : Env) (inp : List Nat) : Outcome (Except Int Reader) :=
  match e.query with
  | some (c :: q) => .ok (.ok ⟨.get, c :: q, [], inp⟩)
  | _ =>
    match e.contentType with
    | none => .ok (.error (-1))
    | some t =>
      let put (m : Method) : Outcome (Except Int Reader) :=
        match e.contentLength with
        | none => .abort
        | some 0 => .abort
        | some n =>
          match fgets (n + 1) inp with
          | none => .ok (.error (-3))
          | some (l, r) => .ok (.ok (if m = .putUrl then ⟨m, cstr l, [], r⟩ else ⟨m, [], cstr l, r⟩))
      if (bytes "application/x-www-form-urlencoded").isPrefixOf t then put .putUrl
      else if (bytes "multipart/form-data;").isPrefixOf t then put .putMultipart
      else .ok (.error (-2))

/-- `get_cgi_data`, /repo/cgi_func.cpp:276-303: the value returned, the texts stored in `field` and `data`, and the
    reader after it. -/
def getData (r : Reader) (maxData : Nat) : Int × Option (List Nat) × Option (List Nat) × Reader :=
  match r.method with
  | .putMultipart =>
    let g := getPart r.boundary maxData r.inp
    (if g.rval > 0 then 0 else g.rval, g.field, g.buff, { r with inp := g.rest })
  | _ =>
    let f := Cgi.formData r.url 30 maxData
    (f.rval, some (cstr f.field), some (cstr f.buff), { r with url := f.rest })

/-- The callers' loop, /repo/parallax.cpp:334: fields are read as long as the result is zero, at most `n` of them. -/
def readFields (maxData : Nat) : Nat → Reader → List (List Nat × List Nat)
  | 0, _ => []
  | n + 1, r =>
    match getData r maxData with
    | (rval, field, data, r') => if rval = 0 then (field.getD [], data.getD []) :: readFields maxData n r' else []

end Verif.Multipart
