import Verif.Model.Bytes

/-!
# Model of the catalogue (NET) codes, /repo/mpc_fmt.cpp:466-577

`char` is a `Nat` code.  The two functions are modelled with their buffers: `net1` has 80 bytes, a
longer reduced name is written past its end (`Outcome.ub`).
-/

namespace Verif.Net

open Verif

/-- `net_codes`, /repo/mpc_fmt.cpp:466-523: code letter, then name. -/
def netCodes : List (List Nat) := [
  bytes "aUSNO-A1",
  bytes "bUSNO-SA1",
  bytes "cUSNO-A2",
  bytes "dUSNO-SA2",
  bytes "eUCAC-1",
  bytes "fTycho-1",
  bytes "gTycho-2",
  bytes "hGSC-1.0",
  bytes "iGSC-1.1",
  bytes "jGSC-1.2",
  bytes "kGSC-2.2",
  bytes "lACT",
  bytes "mGSC-ACT",
  bytes "nSDSS-DR8",
  bytes "oUSNO-B1",
  bytes "pPPM",
  bytes "qUCAC-4",
  bytes "rUCAC-2",
  bytes "sUSNO-B2",
  bytes "tPPMXL",
  bytes "uUCAC-3",
  bytes "vNOMAD",
  bytes "wCMC-14",
  bytes "xHIP-2",
  bytes "yHIP-1",
  bytes "zGSC-?",
  bytes "AAC",
  bytes "BSAO 1984",
  bytes "CSAO",
  bytes "DAGK 3",
  bytes "EFK4",
  bytes "FACRS",
  bytes "GLick Gaspra Catalogue",
  bytes "HIda93 Catalogue",
  bytes "IPerth 70",
  bytes "JCOSMOS/UKST Southern Sky Catalogue",
  bytes "KYale",
  bytes "L2MASS",
  bytes "MGSC-2.3",
  bytes "NSDSS-DR7",
  bytes "OSST-RC1",
  bytes "PMPOSC3",
  bytes "QCMC-15",
  bytes "RSST-RC4",
  bytes "SURAT-1",
  bytes "TURAT-2",
  bytes "UGaia-DR1",
  bytes "VGaia-DR2",
  bytes "WGaia-DR3",
  bytes "XGaia-EDR3",
  bytes "XGaia-3E",
  bytes "YUCAC-5",
  bytes "ZATLAS-2"]

/-- `byte_code_to_net_name`, /repo/mpc_fmt.cpp:525-533; `none` is NULL. -/
def byteCodeToNetName (code : Nat) : Option (List Nat) :=
  (netCodes.find? fun e => at? e 0 == code).map (·.drop 1)

/-- `reduce_net_name`, /repo/mpc_fmt.cpp:548-560. -/
def reduceNetName : List Nat → List Nat
  | [] => []
  | [c] => if c = 45 ∨ c = 32 then [] else [toUpper c]
  | c :: d :: cs =>
    if c = 45 ∨ c = 32 then reduceNetName (d :: cs)          -- '-', ' '
    else if c = 46 ∧ d = 48 then reduceNetName cs            -- ".0"
    else if c = 68 ∧ d = 82 then reduceNetName cs            -- "DR"
    else toUpper c :: reduceNetName (d :: cs)

/-- The loop of `net_name_to_byte_code`: the last matching entry wins. -/
def netSearch (reduced : List Nat) : List (List Nat) → Nat → Nat
  | [], rval => rval
  | e :: es, rval =>
    netSearch reduced es (if reduced = reduceNetName (e.drop 1) then at? e 0 else rval)

/-- `net_name_to_byte_code`, /repo/mpc_fmt.cpp:562-577. -/
def netNameToByteCode (name : List Nat) : Outcome Nat :=
  let net1 := reduceNetName name
  if net1.length ≥ 80 then .ub
  else
    let rval := netSearch net1 netCodes 0
    .ok (if rval = 0 then 63 else rval)                       -- '?'

end Verif.Net
