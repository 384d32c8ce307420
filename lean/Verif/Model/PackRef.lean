import Verif.Model.MutantHex
import Verif.Model.Pack

/-!
# Model of `pack_mpc_reference`, /repo/ades2mpc.cpp:324-375

The result is the five bytes stored at `packed`, or `none` if nothing is stored.  Reference numbers are at most
2^31 - 1, so that `atoi` and the conversions between `int` and `unsigned` keep them.
-/

namespace Verif.Ades

open Verif Verif.Desig

/-- `pack_mpc_reference`. -/
def packMpcReference (ref : List Nat) : Option (List Nat) :=
  let len := ref.length
  if len ≥ 12 ∧ len ≤ 14 ∧ startsWith (bytes "MPEC ") ref = true ∧ at? ref 9 = 45 then
    let p := [69, at? ref 10, 48, 48, 0]
    some (put p (2 + (14 - len)) (ref.drop 11))
  else if startsWith (bytes "MPS ") ref then
    let n := (atoi (ref.drop 4)).toNat
    if n < 260000 then some ((97 + n / 10000) :: pad 4 (n % 10000))
    else some (126 :: (encodeMutantHex 4 (n - 260000)).1)
  else if startsWith (bytes "MPC ") ref then
    let n := (atoi (ref.drop 4)).toNat
    if n < 110000 then some (if n < 100000 then pad 5 (n % 100000) else 64 :: pad 4 (n % 100000))
    else some (35 :: (encodeMutantHex 4 (n - 110000)).1)
  else if at? ref 0 = 33 then some ((ref ++ List.replicate 5 32).take 5)
  else none

end Verif.Ades
