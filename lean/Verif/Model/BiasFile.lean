import Verif.Model.Peph
import Verif.Model.Antex
/-!
# Bias files

Model of `biasdec.parse` (`src/cssrlib/peph.py`).  A line is given by its columns; the numbers of a record are those written in
it (exact rationals).  Not modelled: records whose date, value or deviation is not a number (`int`, `float` raise `ValueError`),
and records that contain the text of a block marker.
-/
namespace Verif.BiasFile
open Verif Verif.Sat Verif.Sig Verif.Time Verif.Peph

/-- the columns of a DSB or OSB record: lines 1331-1351 and 1385-1406 -/
structure Rec where
  /-- OSB (true) or DSB -/
  osb : Bool
  /-- column 6 -/
  c : Char
  /-- columns 11-13 -/
  prn : List Char
  /-- columns 15-23 -/
  site : List Char
  /-- columns 25-27 and 30-32 -/
  s1 : List Char
  s2 : List Char
  /-- year, day of year, second -/
  ep1 : Int × Int × Int
  ep2 : Int × Int × Int
  /-- columns 65-68 -/
  unit : List Char
  bias : ℚ
  std : ℚ

inductive Ln where
  /-- a line with `+BIAS/SOLUTION`, with `-BIAS/SOLUTION` -/
  | start | stop
  | data (r : Rec)
  /-- comments (lines with `*`) and everything else -/
  | other

/-- the lists `dcb` and `osb` of the decoder: lines 1256-1258 -/
structure St where
  dcb : List (Bias Sig) := []
  osb : List (Bias Sig) := []

/-- what a record does: `continue`, `return -1`, or an entry -/
inductive Act where
  | skip | bad
  | dcb (b : Bias Sig)
  | osb (b : Bias Sig)

/-- a DSB record: lines 1331-1377.  The constellation is compared with the text 'R', which is never true. -/
def dsbRec (r : Rec) : Py Act :=
  if strip r.site ≠ [] ∧ strip (r.prn.drop 1) = [] then .ok .skip
  else do
    let g1 ← ofSysStr (char2sys r.c) r.s1
    let g2 ← ofSysStr (char2sys r.c) r.s2
    let tst := doy2time r.ep1.1 r.ep1.2.1 r.ep1.2.2
    let ted := doy2time r.ep2.1 r.ep2.2.1 r.ep2.2.2
    if g1.typ ≠ g2.typ then pure .bad
    else if (g1.typ = .C ∧ r.unit.take 2 ≠ ['n', 's']) ∨ (g1.typ = .L ∧ r.unit.take 3 ≠ ['c', 'y', 'c']) then pure .bad
    else if g1 = Antex.noSig ∨ g2 = Antex.noSig then pure .bad
    else do
      let sat ← id2sat r.prn
      pure (.dcb ⟨sat, tst, ted, g1, g2, r.bias, r.std⟩)

/-- an OSB record: lines 1383-1421 -/
def osbRec (siteID : Option (List Char)) (r : Rec) : Py Act :=
  if strip r.site ≠ [] ∧ strip (r.prn.drop 1) = [] then .ok .skip
  else if char2sys r.c = .glo ∧ ¬ some (strip r.site) = siteID then .ok .skip
  else do
    let g1 ← ofSysStr (char2sys r.c) r.s1
    let tst := doy2time r.ep1.1 r.ep1.2.1 r.ep1.2.2
    let ted := doy2time r.ep2.1 r.ep2.2.1 r.ep2.2.2
    if g1.typ = .L ∧ r.unit.take 2 ≠ ['n', 's'] then pure .bad
    else do
      let sat ← id2sat r.prn
      pure (.osb ⟨sat, tst, ted, g1, Antex.noSig, r.bias, r.std⟩)

def record (siteID : Option (List Char)) (r : Rec) : Py Act := if r.osb then osbRec siteID r else dsbRec r

/-- `parse(fname, siteID)`: lines 1318-1421.  The lists left in the decoder, and what is returned (`none` is `None`) or raised;
`on` is `status`. -/
def parse (siteID : Option (List Char)) : St → Bool → List Ln → St × Py (Option Int)
  | st, _, [] => (st, .ok none)
  | st, _, .start :: ls => parse siteID st true ls
  | st, _, .stop :: ls => parse siteID st false ls
  | st, on, .other :: ls => parse siteID st on ls
  | st, on, .data r :: ls =>
    if on then
      match record siteID r with
      | .error e => (st, .error e)
      | .ok .bad => (st, .ok (some (-1)))
      | .ok .skip => parse siteID st on ls
      | .ok (.dcb b) => parse siteID { st with dcb := st.dcb ++ [b] } on ls
      | .ok (.osb b) => parse siteID { st with osb := st.osb ++ [b] } on ls
    else parse siteID st on ls

end Verif.BiasFile
