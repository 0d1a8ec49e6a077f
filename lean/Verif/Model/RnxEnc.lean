import Verif.Model.RnxObs
/-!
Model of the writer of observation records (`src/cssrlib/rinex.py`, `rnxenc.sval`, lines 1147-1152, and
`rnxenc.rnx_obs_body`, lines 1154-1186).

The formats of numbers with decimals, `{:14.3f}` and `{:010.7f}`, are parameters `txt` and `fsec`: the theorems hold whatever texts
they give.  A file is a list of lines without the line ends.
-/

namespace Verif.Rinex
open Verif.Sat Verif.Sig Verif.Time

/-- the format `{:Ns}`: filled with blanks on the right -/
def pad (n : Nat) (s : Line) : Line := s ++ List.replicate (n - s.length) ' '

/-- the formats `{:Nd}` (`c` a blank) and `{:0Nd}` (`c` a zero) of a number that is not negative -/
def ralign (n : Nat) (c : Char) (k : Nat) : Line :=
  let s := Nat.toDigits 10 k
  List.replicate (n - s.length) c ++ s

/-- one signal of one satellite: `P`, `L`, `D`, `S`, `lli` -/
structure Cell where
  p : ℚ
  l : ℚ
  d : ℚ
  s : ℚ
  lli : Nat
  deriving DecidableEq

/-- `sval(v)`: lines 1147-1152 -/
def sval (txt : ℚ → Line) (v : ℚ) : Line := if v = 0 then pad 14 [] else txt v

/-- signal strength indicator: line 1169 -/
def ssi (s : ℚ) : Nat := (min (max (truncQ (s / 6)) 1) 9).toNat

/-- the text of one signal: lines 1169-1184; `hd`, `hs` tell if Doppler and signal strength are written -/
def cellText (txt : ℚ → Line) (hd hs : Bool) (o : Cell) : Line :=
  pad 14 (sval txt o.p) ++ pad 2 []
    ++ (pad 14 (sval txt o.l) ++ (if o.l = 0 then pad 2 [] else ralign 1 ' ' o.lli ++ ralign 1 ' ' (ssi o.s)))
    ++ (if hd then pad 14 (sval txt o.d) ++ pad 2 [] else [])
    ++ (if hs then pad 14 (sval txt o.s) ++ pad 2 [] else [])

/-- the line of one satellite: lines 1166-1186.  `sat2id` gives -1 for an unknown satellite, which `{:3s}` refuses; the
table of signals is only looked at when there is a signal. -/
def satText (txt : ℚ → Line) (tab : Tab) (sat : Int) (os : List Cell) : Py Line :=
  match sat2id sat with
  | Option.none => .error .valueError
  | some id =>
    if os = [] then .ok (pad 3 id)
    else match tab.get? (sat2prn sat).1 with
      | Option.none => .error .keyError
      | some d => .ok (pad 3 id ++ os.flatMap (cellText txt (d.mem .D) (d.mem .S)))

/-- the epoch line: lines 1157-1163 -/
def epochText (fsec : ℚ → Line) (t : GTime) (nsat : Nat) : Line :=
  let ep := time2epoch t
  "> ".toList ++ ralign 4 ' ' ep.year.toNat ++ [' '] ++ ralign 2 '0' ep.mon.toNat ++ [' '] ++ ralign 2 '0' ep.day.toNat ++ [' ']
    ++ ralign 2 '0' ep.hour.toNat ++ [' '] ++ ralign 2 '0' ep.min.toNat ++ [' '] ++ fsec ep.sec
    ++ "  0".toList ++ ralign 3 ' ' nsat

/-- `rnx_obs_body(obs)`: lines 1154-1186.  `time` is the attribute `time` of the observations; the class `Obs` (gnss.py lines
686-697) has none, only `t`. -/
def obsBody (txt fsec : ℚ → Line) (tab : Tab) (time : Option GTime) (rows : List (Int × List Cell)) : Py (List Line) :=
  match time with
  | Option.none => .error .attributeError
  | some t => do
    let ls ← rows.mapM fun r => satText txt tab r.1 r.2
    pure (epochText fsec t rows.length :: ls)

end Verif.Rinex
