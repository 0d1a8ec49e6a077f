import Verif.Py
/-!
Model of the satellite numbering functions of `src/cssrlib/gnss.py`.

Satellite numbers and PRNs are Python integers (`Int`).  The `uGNSS` enumeration
values that occur as a system argument are the constructors of `Sys`.
-/

namespace Verif.Sat

/-- `uGNSS` system members; gnss.py lines 137-150.  `bds3` is a distinct enum
member only in name lists; it is not produced by the functions modelled here. -/
inductive Sys where
  | none | gps | gal | qzs | bds | glo | sbs | irn
  deriving DecidableEq, Repr

/-! `uGNSS.*MIN`, `uGNSS.MAXSAT`: gnss.py lines 151-169 -/
def galMin : Int := 32
def qzsMin : Int := 68
def bdsMin : Int := 85
def gloMin : Int := 148
def sbsMin : Int := 180
def irnMin : Int := 219
def maxSat : Int := 233

/-- `prn2sat(sys, prn)`: gnss.py lines 1194-1212. -/
def prn2sat : Sys → Int → Int
  | .gps, prn => prn
  | .gal, prn => prn + galMin
  | .qzs, prn => prn - 192 + qzsMin
  | .glo, prn => prn + gloMin
  | .bds, prn => prn + bdsMin
  | .sbs, prn => prn - 119 + sbsMin
  | .irn, prn => prn + irnMin
  | .none, _ => 0

/-- `sat2prn(sat)`: gnss.py lines 1214-1241. -/
def sat2prn (sat : Int) : Sys × Int :=
  if sat > maxSat then (.none, 0)
  else if sat > irnMin then (.irn, sat - irnMin)
  else if sat > sbsMin then (.sbs, sat + 119 - sbsMin)
  else if sat > gloMin then (.glo, sat - gloMin)
  else if sat > bdsMin then (.bds, sat - bdsMin)
  else if sat > qzsMin then (.qzs, sat + 192 - qzsMin)
  else if sat > galMin then (.gal, sat - galMin)
  else (.gps, sat)

/-- The `gnss_tbl` of `sat2id`, `sys2char` (gnss.py lines 1247, 1291). -/
def sysChar : Sys → Option Char
  | .gps => some 'G' | .glo => some 'R' | .gal => some 'E' | .bds => some 'C'
  | .qzs => some 'J' | .sbs => some 'S' | .irn => some 'I' | .none => Option.none

/-- `sys2char(sys)` for a single system: gnss.py lines 1289-1302. -/
def sys2char (s : Sys) : Char := (sysChar s).getD '?'

/-- `char2sys(c)` for a single character: gnss.py lines 1274-1286. -/
def char2sys (c : Char) : Sys :=
  if c = 'G' then .gps else if c = 'R' then .glo else if c = 'E' then .gal
  else if c = 'C' then .bds else if c = 'J' then .qzs else if c = 'S' then .sbs
  else if c = 'I' then .irn else .none

/-- decimal digit character -/
def digit (n : Nat) : Char := Char.ofNat (48 + n % 10)

/-- decimal digits of a natural number -/
def digits (n : Nat) : List Char :=
  if n < 10 then [digit n] else digits (n / 10) ++ [digit n]

/-- Python `'%02d' % n`. -/
def fmt02 (n : Int) : List Char :=
  if n < 0 then '-' :: digits n.natAbs
  else if n < 10 then ['0', digit n.toNat] else digits n.toNat

/-- value of an ASCII digit -/
def digitVal? (c : Char) : Option Nat :=
  if '0' ≤ c ∧ c ≤ '9' then some (c.toNat - 48) else Option.none

/-- unsigned decimal, at least one digit -/
def parseNat? : List Char → Option Nat
  | [] => Option.none
  | cs => cs.foldl (fun acc c => acc.bind fun a => (digitVal? c).map fun d => 10 * a + d) (some 0)

/-- Python `int(s)` on ASCII text: surrounding blanks and one sign allowed.
(Underscores between digits need three characters and cannot occur in the
two-character slices used by the callers.) -/
def pyInt (s : List Char) : Py Int :=
  let t := ((s.dropWhile (· == ' ')).reverse.dropWhile (· == ' ')).reverse
  match t with
  | '-' :: r => match parseNat? r with
    | some n => .ok (-(n : Int)) | Option.none => .error .valueError
  | '+' :: r => match parseNat? r with
    | some n => .ok (n : Int) | Option.none => .error .valueError
  | r => match parseNat? r with
    | some n => .ok (n : Int) | Option.none => .error .valueError

/-- `sat2id(sat)`: gnss.py lines 1244-1256.  `none` is the returned `-1`. -/
def sat2id (sat : Int) : Option (List Char) :=
  let (sys, prn) := sat2prn sat
  match sysChar sys with
  | Option.none => Option.none
  | some c =>
    let prn := match sys with
      | .qzs => prn - 192
      | .sbs => prn - 100
      | _ => prn
    some (c :: fmt02 prn)

/-- `id2sat(id_)`: gnss.py lines 1259-1271. -/
def id2sat (id : List Char) : Py Int :=
  match id with
  | [] => .error .indexError
  | c :: r =>
    let sys := char2sys c
    if sys = .none then .ok (-1)
    else
      match pyInt (r.take 2) with
      | .error e => .error e
      | .ok prn =>
        let prn := match sys with
          | .qzs => prn + 192
          | .sbs => prn + 100
          | _ => prn
        .ok (prn2sat sys prn)

end Verif.Sat
