import Verif.Bits
/-! Model of `copy_buff` (`src/cssrlib/gnss.py` lines 1738-1748). -/

namespace Verif.CopyBuff

/-- one `unpack_from`/`pack_into` pair of `n` bits -/
def copyWord (src dst : BitBuf) (is id n : Nat) : Py BitBuf :=
  match readU src is n with
  | .error e => .error e
  | .ok d => writeU dst id n d

/-- the `for k in range(b)` loop, `k` counting up -/
def copyLoop (src : BitBuf) (os od : Nat) : (b k : Nat) → BitBuf → Py BitBuf
  | 0, _, dst => .ok dst
  | b + 1, k, dst =>
    match copyWord src dst (k * 32 + os) (k * 32 + od) 32 with
    | .error e => .error e
    | .ok dst => copyLoop src os od b (k + 1) dst

/-- `copy_buff(src, dst, ofst_s, ofst_d, blen)`; the result is the new content of `dst` (when
an exception is raised the partially written destination is not modelled). -/
def copyBuff (src dst : BitBuf) (os od blen : Nat) : Py BitBuf :=
  let b := blen / 32
  let r := blen - b * 32
  match copyLoop src os od b 0 dst with
  | .error e => .error e
  | .ok dst => if r > 0 then copyWord src dst (b * 32 + os) (b * 32 + od) r else .ok dst

end Verif.CopyBuff
