/-!
# Model of /repo/easter.cpp

`long` is `Int`; `/` and `%` truncate.  Results are `(month, day)`.
-/

namespace Verif.Easter

/-- `easter_date`, /repo/easter.cpp:91-101. -/
def easterDate (year : Int) : Int × Int :=
  let a := year.tmod 19
  let b := year.tdiv 100
  let c := year.tmod 100
  let d := b.tdiv 4
  let e := b.tmod 4
  let f := (b + 8).tdiv 25
  let g := (b - f + 1).tdiv 3
  let h := (19 * a + b - d - g + 15).tmod 30
  let i := c.tdiv 4
  let k := c.tmod 4
  let l := (32 + e + e + i + i - h - k).tmod 7
  let m := (a + 11 * h + 22 * l).tdiv 451
  let tval := h + l - 7 * m + 114
  (tval.tdiv 31, tval.tmod 31 + 1)

/-- `easter_date_julian`, /repo/easter.cpp:112-120. -/
def easterDateJulian (year : Int) : Int × Int :=
  let a := year.tmod 4
  let b := year.tmod 7
  let c := year.tmod 19
  let d := (19 * c + 15).tmod 30
  let e := (2 * a + 4 * b + 34 - d).tmod 7
  let tval := d + e + 114
  (tval.tdiv 31, tval.tmod 31 + 1)

end Verif.Easter
