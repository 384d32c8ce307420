import Verif.Model.Bytes

/-!
# ADES tags (`ades2mpc.cpp`, `adestags.c`)

`find_tag` and the loop of `xlate_ades2mpc` that follows the nesting of tags.

Simplifications: `memcmp` looks at the bytes one by one and stops at the first difference.  What `process_ades_tag`
does with the text of an element is a parameter; it returns a number and touches neither `depth` nor `tags`.  The
formats other than XML (PSV, 80-column lines) are left out.
-/

namespace Verif.Ades

/-- ades2mpc.cpp:273-303 `tags`. -/
def tagStrings : List String := [
  "Location", "MPCID", "OffsetVal", "OpticalID", "OpticalRes", "OpticalResMag", "OpticalResiduals",
  "Photometry", "Precision", "RadarID", "RadarResiduals", "RadarValue", "ades", "aperture", "arrayScale",
  "artSat", "astCat", "astrometry", "band", "biasDec", "biasMag", "biasRA", "biasTime", "coinvestigators",
  "collaborators", "com", "comment", "ctr", "dec", "decStar", "delay", "deltaDec", "deltaRA", "deprecated",
  "design", "detector", "disc", "dist", "doppler", "exp", "fRatio", "filter", "fitOrder", "frq",
  "fundingSource", "institution", "line", "localUse", "logSNR", "mag", "measurers", "mode", "mpcCode", "nStars",
  "name", "notes", "nucMag", "objectDetection", "obsBlock", "obsCenter", "obsContext", "obsData", "obsID",
  "obsSubID", "obsTime", "observatory", "observers", "occultation", "offset", "optical", "opticalResidual",
  "orbID", "orbProd", "pa", "permID", "photAp", "photCat", "photMod", "photProd", "photometry", "pixelScale",
  "pos1", "pos2", "pos3", "posCov11", "posCov12", "posCov13", "posCov22", "posCov23", "posCov33", "precDec",
  "precRA", "precTime", "prog", "provID", "ra", "raStar", "radar", "radarResidual", "rcv", "ref", "remarks",
  "resDec", "resDelay", "resDoppler", "resMag", "resRA", "rmsCorr", "rmsDec", "rmsDelay", "rmsDist",
  "rmsDoppler", "rmsFit", "rmsMag", "rmsPA", "rmsRA", "rmsTime", "seeing", "selAst", "selDelay", "selDoppler",
  "selPhot", "shapeOcc", "sigCorr", "sigDec", "sigDelay", "sigDoppler", "sigMag", "sigRA", "sigTime",
  "software", "stn", "subFmt", "subFrm", "submitter", "sys", "telescope", "trkID", "trkMPC", "trkSub", "trx",
  "uncTime", "vel1", "vel2", "vel3"]

/-- ades2mpc.cpp:273-303 `tags`, as bytes. -/
def tags : List (List Nat) := tagStrings.map bytes

/-- ades2mpc.cpp:122-266: the names and values of the `ADES_` macros. -/
def tagCodes : List (String × Int) := [
  ("Location", 1), ("MPCID", 2), ("OffsetVal", 3), ("OpticalID", 4), ("OpticalRes", 5), ("OpticalResMag", 6),
  ("OpticalResiduals", 7), ("Photometry", 8), ("Precision", 9), ("RadarID", 10), ("RadarResiduals", 11),
  ("RadarValue", 12), ("ades", 13), ("aperture", 14), ("arrayScale", 15), ("artSat", 16), ("astCat", 17),
  ("astrometry", 18), ("band", 19), ("biasDec", 20), ("biasMag", 21), ("biasRA", 22), ("biasTime", 23),
  ("coinvestigators", 24), ("collaborators", 25), ("com", 26), ("comment", 27), ("ctr", 28), ("dec", 29),
  ("decStar", 30), ("delay", 31), ("deltaDec", 32), ("deltaRA", 33), ("deprecated", 34), ("design", 35),
  ("detector", 36), ("disc", 37), ("dist", 38), ("doppler", 39), ("exp", 40), ("fRatio", 41), ("filter", 42),
  ("fitOrder", 43), ("frq", 44), ("fundingSource", 45), ("institution", 46), ("line", 47), ("localUse", 48),
  ("logSNR", 49), ("mag", 50), ("measurers", 51), ("mode", 52), ("mpcCode", 53), ("nStars", 54), ("name", 55),
  ("notes", 56), ("nucMag", 57), ("objectDetection", 58), ("obsBlock", 59), ("obsCenter", 60), ("obsContext",
  61), ("obsData", 62), ("obsID", 63), ("obsSubID", 64), ("obsTime", 65), ("observatory", 66), ("observers",
  67), ("occultation", 68), ("offset", 69), ("optical", 70), ("opticalResidual", 71), ("orbID", 72), ("orbProd",
  73), ("pa", 74), ("permID", 75), ("photAp", 76), ("photCat", 77), ("photMod", 78), ("photProd", 79),
  ("photometry", 80), ("pixelScale", 81), ("pos1", 82), ("pos2", 83), ("pos3", 84), ("posCov11", 85),
  ("posCov12", 86), ("posCov13", 87), ("posCov22", 88), ("posCov23", 89), ("posCov33", 90), ("precDec", 91),
  ("precRA", 92), ("precTime", 93), ("prog", 94), ("provID", 95), ("ra", 96), ("raStar", 97), ("radar", 98),
  ("radarResidual", 99), ("rcv", 100), ("ref", 101), ("remarks", 102), ("resDec", 103), ("resDelay", 104),
  ("resDoppler", 105), ("resMag", 106), ("resRA", 107), ("rmsCorr", 108), ("rmsDec", 109), ("rmsDelay", 110),
  ("rmsDist", 111), ("rmsDoppler", 112), ("rmsFit", 113), ("rmsMag", 114), ("rmsPA", 115), ("rmsRA", 116),
  ("rmsTime", 117), ("seeing", 118), ("selAst", 119), ("selDelay", 120), ("selDoppler", 121), ("selPhot", 122),
  ("shapeOcc", 123), ("sigCorr", 124), ("sigDec", 125), ("sigDelay", 126), ("sigDoppler", 127), ("sigMag", 128),
  ("sigRA", 129), ("sigTime", 130), ("software", 131), ("stn", 132), ("subFmt", 133), ("subFrm", 134),
  ("submitter", 135), ("sys", 136), ("telescope", 137), ("trkID", 138), ("trkMPC", 139), ("trkSub", 140),
  ("trx", 141), ("uncTime", 142), ("vel1", 143), ("vel2", 144), ("vel3", 145)]

/-- `!memcmp( a, b, len)` followed by `!a[len]`, for a string `a`. -/
def memEq (a b : List Nat) : Nat → Bool
  | 0 => at? a 0 == 0
  | n + 1 => match a, b with
    | x :: a', y :: b' => x == y && memEq a' b' n
    | _, _ => false

/-- ades2mpc.cpp:315-317: the first tag that fits. -/
def findFrom (buff : List Nat) (len : Nat) : List (List Nat) → Int → Int
  | [], _ => -1
  | t :: ts, i => if memEq t buff len then i + 1 else findFrom buff len ts (i + 1)

/-- ades2mpc.cpp:313-318, after the slash has been dealt with. -/
def findName (buff : List Nat) (len : Nat) : Int :=
  if buff.take 4 = bytes "ades" then 0 else findFrom buff len tags 0

/-- ades2mpc.cpp:271-319 `find_tag`. -/
def findTag (buff : List Nat) (len : Nat) : Int :=
  if at? buff 0 = 47 then findName (buff.drop 1) (len - 1) else findName buff len

/-- ades2mpc.cpp:40-57: the two members of `ades2mpc_t` that follow the nesting. -/
structure St where
  depth : Int
  tags : Int → Int

/-- ades2mpc.cpp:59-65 `init_ades2mpc`: everything zero. -/
def init : St := ⟨0, fun _ => 0⟩

/-- `cptr->tags[i] = t`. -/
def St.write (s : St) (i t : Int) : Outcome St :=
  if 0 ≤ i ∧ i < 20 then .ok ⟨s.depth, fun j => if j = i then t else s.tags j⟩ else .ub

/-- `cptr->tags[i]`. -/
def St.read (s : St) (i : Int) : Outcome Int := if 0 ≤ i ∧ i < 20 then .ok (s.tags i) else .ub

/-- `ADES_optical`, ades2mpc.cpp:191. -/
def optical : Int := 70

/-- ades2mpc.cpp:1177-1196: one tag with code `t`, opening or closing.  Gives the new state and `rval`. -/
def tagStep (s : St) (rval : Int) (closing : Bool) (t : Int) : Outcome (St × Int) :=
  if t < 0 then .ok (s, rval)
  else if closing then
    let s1 : St := ⟨s.depth - 1, s.tags⟩
    (if s1.depth < 0 then .ok (-2) else (s1.read s1.depth).bind fun u => .ok (if u ≠ t then -2 else rval)).bind fun r =>
      .ok (s1, if t = optical then 1 else r)
  else
    (s.write s.depth t).bind fun s1 => .ok (⟨s.depth + 1, s1.tags⟩, if s.depth + 1 = 20 then -3 else rval)

/-- What one pass of the loop leads to. -/
inductive Step where
  | next (rest : List Nat) (s : St) (rval : Int)
  | done (s : St) (rval : Int)

/-- ades2mpc.cpp:427-432 `skip_whitespace`. -/
def skipWs (l : List Nat) : List Nat := l.dropWhile isSpace

/-- ades2mpc.cpp:1204-1207: the length of a piece of text, without the spaces and control characters at its end. -/
def textLen (l : List Nat) : Nat := (((l.takeWhile (· ≠ 60)).reverse.dropWhile (· ≤ 32))).length

/-- ades2mpc.cpp:1164-1213: one pass of the `while` loop.  `P depth tag text` is what `process_ades_tag` does. -/
def stepLine (P : Int → Int → List Nat → Outcome Int) (line : List Nat) (s : St) (rval : Int) : Outcome Step :=
  if rval < 0 then .ok (.done s rval) else
  match line with
  | [] => .ok (.done s rval)
  | c :: cs =>
    if c = 60 then
      match cs.dropWhile (· ≠ 62) with
      | [] => .ok (.done s (-4))
      | _ :: rest =>
        (tagStep s rval (at? cs 0 == 47) (findTag cs (cs.takeWhile (· ≠ 62)).length)).bind fun r =>
          .ok (.next (skipWs rest) r.1 r.2)
    else if s.depth ≠ 0 then
      (s.read (s.depth - 1)).bind fun itag =>
        (P s.depth itag (line.take (textLen line))).bind fun r =>
          .ok (.next (skipWs (line.drop (textLen line))) s r)
    else .ok (.done s rval)

/-- At most `n` passes; `none` when the loop is still going. -/
def runLine (P : Int → Int → List Nat → Outcome Int) : Nat → List Nat → St → Int → Option (Outcome (St × Int))
  | 0, _, _, _ => none
  | n + 1, line, s, rval => match stepLine P line s rval with
    | .ok (.done s' r) => some (.ok (s', r))
    | .ok (.next rest s' r) => runLine P n rest s' r
    | .abort => some .abort
    | .ub => some .ub

/-- adestags.c:63-70: the inner loop of the exchange sort; gives the new `tags[i]` and the rest. -/
def exchangePass : List Nat → List (List Nat) → List Nat × List (List Nat)
  | x, [] => (x, [])
  | x, y :: ys =>
    if y < x then let r := exchangePass y ys; (r.1, x :: r.2)
    else let r := exchangePass x ys; (r.1, y :: r.2)

/-- adestags.c:62-70: the sort, `strcmp` being the order of byte lists. -/
def exchangeSort : Nat → List (List Nat) → List (List Nat)
  | 0, l => l
  | _ + 1, [] => []
  | n + 1, x :: xs => let r := exchangePass x xs; r.1 :: exchangeSort n r.2

/-- adestags.c:17-56: the tags in the order of the documentation. -/
def documentedTags : List String := [
  "permID", "provID", "artSat", "trkSub", "obsID", "obsSubID", "trkID", "trkMPC", "mode", "stn", "trx", "rcv",
  "sys", "ctr", "pos1", "pos2", "pos3", "posCov11", "posCov12", "posCov13", "posCov22", "posCov23", "posCov33",
  "prog", "obsTime", "ra", "dec", "raStar", "decStar", "obsCenter", "deltaRA", "deltaDec", "dist", "pa",
  "rmsRA", "rmsDec", "rmsDist", "rmsPA", "rmsCorr", "delay", "rmsDelay", "doppler", "rmsDoppler", "astCat",
  "mag", "rmsMag", "band", "photCat", "photAp", "nucMag", "logSNR", "shapeOcc", "seeing", "exp", "rmsFit",
  "nStars", "com", "frq", "ref", "disc", "subFmt", "subFrm", "precTime", "precRA", "precDec", "uncTime",
  "notes", "remarks", "deprecated", "localUse", "orbProd", "orbID", "resRA", "resDec", "selAst", "sigRA",
  "sigDec", "sigCorr", "sigTime", "biasRA", "biasDec", "biasTime", "photProd", "resMag", "selPhot", "sigMag",
  "biasMag", "photMod", "resDelay", "selDelay", "sigDelay", "resDoppler", "selDoppler", "sigDoppler",
  "observatory", "submitter", "observers", "measurers", "telescope", "software", "coinvestigators",
  "collaborators", "fundingSource", "comment", "optical", "offset", "occultation", "radar", "obsContext",
  "obsData", "obsBlock", "opticalResidual", "radarResidual", "ades", "MPCID", "OpticalID", "RadarID",
  "RadarValue", "Precision", "Location", "Photometry", "OffsetVal", "OpticalRes", "OpticalResMag",
  "OpticalResiduals", "RadarResiduals", "mpcCode", "institution", "design", "aperture", "detector", "fRatio",
  "filter", "arrayScale", "pixelScale", "astrometry", "fitOrder", "photometry", "objectDetection", "line",
  "name", "rmsTime", "vel1", "vel2", "vel3"]

end Verif.Ades
