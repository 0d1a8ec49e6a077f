import Verif.Bits
/-!
Model of the Compact SSR mask helpers (`src/cssrlib/cssrlib.py` lines 490-494, 538-546,
1495-1502).
-/

namespace Verif.Mask

/-- `isset(mask, nbit, k)`: cssrlib.py lines 490-494 (`k < nbit`, otherwise the shift is negative
and Python raises). -/
def isset (mask nbit k : Nat) : Py Bool :=
  if k < nbit then .ok ((mask >>> (nbit - k - 1)) &&& 1 != 0) else .error .valueError

/-- `decode_mask(din, bitlen, ofst)`: cssrlib.py lines 538-546 -/
def decodeMask (din bitlen : Nat) (ofst : Nat := 1) : List Nat × Nat :=
  (List.range bitlen).foldl (fun (v, n) k =>
    if din &&& (1 <<< (bitlen - k - 1)) ≠ 0 then (v ++ [k + ofst], n + 1) else (v, n)) ([], 0)

/-- `encode_mask(v, bitlen, ofst)`: cssrlib.py lines 1495-1502; a negative shift count raises. -/
def encodeMask (v : List Int) (bitlen : Nat) (ofst : Int := 1) : Py Nat :=
  v.foldlM (fun d p =>
    let k := p - ofst
    let s := (bitlen : Int) - k - 1
    if s < 0 then .error .valueError else .ok (d ||| (1 <<< s.toNat))) 0

end Verif.Mask
