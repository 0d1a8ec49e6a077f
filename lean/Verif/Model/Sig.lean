import Verif.Model.Sat
/-!
Model of `rSigRnx` (`src/cssrlib/gnss.py` lines 188-555): RINEX signal codes.

Text is a list of characters.  `int(c)` of one character accepts ASCII digits only
(Python also accepts other Unicode decimal digits); `strip` removes ASCII white space.
-/

namespace Verif.Sig
open Verif.Sat

/-- `uTYP`: gnss.py lines 188-196 -/
inductive Typ where
  | none | C | L | D | S
  deriving DecidableEq, Repr

/-- `uSIG` values: gnss.py lines 199-316 -/
def uSIG : List Int :=
  [-1,
   100, 101, 102, 103, 104, 105, 112, 113, 114, 116, 119, 123, 124, 125, 126,
   200, 203, 204, 209, 212, 213, 214, 216, 217, 219, 223, 224, 225,
   300, 309, 317, 324,
   400, 401, 402, 424,
   500, 501, 502, 503, 504, 509, 516, 517, 524, 526,
   600, 601, 602, 603, 604, 605, 609, 612, 616, 617, 619, 624, 626,
   700, 704, 709, 716, 717, 724, 726,
   800, 804, 809, 816, 817, 824,
   900, 901, 902, 903, 924]

/-- `rSigRnx` object: gnss.py lines 352-411 -/
structure Sig where
  sys : Sys
  typ : Typ
  sig : Int
  deriving DecidableEq, Repr

def isSpace (c : Char) : Bool :=
  c == ' ' || c == '\t' || c == '\n' || c == '\r' || c.toNat == 11 || c.toNat == 12

/-- Python `str.strip()` -/
def strip (s : List Char) : List Char :=
  ((s.dropWhile isSpace).reverse.dropWhile isSpace).reverse

/-- membership `c in 'ABC'` for one character -/
def inStr (c : Char) (s : String) : Bool := s.toList.contains c

/-- The rejection condition of `str2sig` per constellation: gnss.py lines 480-517.  The GPS
branch compares `s[2]` with '2' and '5' exactly as the code does. -/
def badAtt (sys : Sys) (b c : Char) : Bool :=
  match sys with
  | .gps => (b == '1' && !inStr c "CSLXPWYM") || (c == '2' && !inStr c "CDSLXPWYMN") ||
      (c == '5' && !inStr c "IQX")
  | .glo => (b == '1' && !inStr c "CPX") || (b == '2' && !inStr c "CPX") ||
      (b == '3' && !inStr c "IQX") || (b == '4' && !inStr c "ABX") || (b == '6' && !inStr c "ABX")
  | .gal => (b == '1' && !inStr c "ABCXZ") || (b == '5' && !inStr c "IQX") ||
      (b == '6' && !inStr c "ABCXZ") || (b == '7' && !inStr c "IQX") || (b == '8' && !inStr c "IQX")
  | .sbs => (b == '1' && !inStr c "C") || (b == '5' && !inStr c "IQX")
  | .qzs => (b == '1' && !inStr c "CESLXZB") || (b == '2' && !inStr c "SLX") ||
      (b == '5' && !inStr c "IQXDPZ") || (b == '6' && !inStr c "SLXEZ")
  | .bds => (b == '2' && !inStr c "IQX") || (b == '1' && !inStr c "DPXSLZ") ||
      (b == '5' && !inStr c "DPX") || (b == '7' && !inStr c "IQXDPZ") ||
      (b == '8' && !inStr c "DPX") || (b == '6' && !inStr c "IQXDPZ")
  | .irn => (b == '1' && !inStr c "DPX") || (b == '5' && !inStr c "ABCX") ||
      (b == '9' && !inStr c "ABCX")
  | .none => false

/-- type letter: gnss.py lines 461-470 -/
def typOfChar (c : Char) : Option Typ :=
  if c = 'C' then some .C else if c = 'L' then some .L else if c = 'D' then some .D
  else if c = 'S' then some .S else Option.none

/-- `str2sig(sys, s)`: gnss.py lines 448-523 -/
def str2sig (sys : Sys) (s : List Char) : Py Sig :=
  match strip s with
  | t :: b :: r =>
    match typOfChar t with
    | Option.none => .error .valueError
    | some typ =>
      match digitVal? b with
      | Option.none => .error .valueError
      | some d =>
        let sig : Int := d * 100
        match r with
        | [c] =>
          if badAtt sys b c then .error .valueError
          else
            let sig := sig + c.toNat - 65 + 1
            if sig ∈ uSIG then .ok ⟨sys, typ, sig⟩ else .error .valueError
        | _ => if sig ∈ uSIG then .ok ⟨sys, typ, sig⟩ else .error .valueError
  | _ => .error .valueError

/-- letter of a type -/
def charOfTyp : Typ → Option Char
  | .C => some 'C' | .L => some 'L' | .D => some 'D' | .S => some 'S' | .none => Option.none

/-- `str()`: gnss.py lines 525-548.  `int(sig/100)` truncates; `%` is Python's. -/
def str (r : Sig) : List Char :=
  match charOfTyp r.typ with
  | Option.none => ['?', '?', '?']
  | some t =>
    let q := r.sig.tdiv 100
    let m := r.sig.fmod 100
    t :: ((if q < 0 then '-' :: digits q.natAbs else digits q.toNat) ++
      (if m = 0 then [' '] else [Char.ofNat (m + 65 - 1).toNat]))

/-- `toTyp(typ)`: gnss.py lines 427-432 -/
def toTyp (r : Sig) (t : Typ) : Sig := ⟨r.sys, t, r.sig⟩

/-- `rSigRnx(sys, s)`: gnss.py lines 381-392 -/
def ofSysStr (sys : Sys) (s : List Char) : Py Sig :=
  if 2 ≤ s.length ∧ s.length ≤ 3 then str2sig sys s else .error .valueError

/-- `rSigRnx(s)`: gnss.py lines 367-378 -/
def ofStr (s : List Char) : Py Sig :=
  if 3 ≤ s.length ∧ s.length ≤ 4 then
    match s with
    | c :: r => str2sig (char2sys c) r
    | [] => .error .valueError
  else .error .valueError

/-- `toAtt(att)`: gnss.py lines 434-439 -/
def toAtt (r : Sig) (att : List Char) : Py Sig := ofSysStr r.sys ((str r).take 2 ++ att)

/-- `__repr__`: gnss.py lines 413-415 -/
def repr (r : Sig) : List Char := sys2char r.sys :: str r

/-- `band()`: gnss.py lines 550-554 -/
def band (r : Sig) : Py Int :=
  let b := r.sig.fdiv 100 * 100
  if b ∈ uSIG then .ok b else .error .valueError

end Verif.Sig
