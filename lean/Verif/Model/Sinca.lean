import Verif.Model.Sat
import Verif.Model.Time
/-!
Model of the SISNeT text decoder `decode_sinca_line` (`src/cssrlib/cssr_pvs.py` lines 26-46).
Text is a list of ASCII characters.
-/

namespace Verif.Sinca
open Verif.Sat Verif.Time

/-- value of a hexadecimal digit -/
def hexVal? (c : Char) : Option Nat :=
  if '0' ≤ c ∧ c ≤ '9' then some (c.toNat - 48)
  else if 'a' ≤ c ∧ c ≤ 'f' then some (c.toNat - 87)
  else if 'A' ≤ c ∧ c ≤ 'F' then some (c.toNat - 55)
  else none

/-- the ASCII characters `int` strips from both ends -/
def isBlank (c : Char) : Bool := c.toNat == 32 || (9 ≤ c.toNat && c.toNat ≤ 13) || (28 ≤ c.toNat && c.toNat ≤ 31)

/-- Python `int(s, 16)` for text of at most two characters -/
def int16 (s : List Char) : Py Int :=
  match s with
  | [a] => match hexVal? a with
    | some x => .ok x
    | none => .error .valueError
  | [a, b] =>
    match hexVal? a, hexVal? b with
    | some x, some y => .ok (16 * x + y)
    | none, some y => if isBlank a ∨ a = '+' then .ok y else if a = '-' then .ok (-(y : Int))
        else .error .valueError
    | some x, none => if isBlank b then .ok x else .error .valueError
    | none, none => .error .valueError
  | _ => .error .valueError

/-- Python slice `s[i:j]` for integers `i`, `j ≥ 0` -/
def slice (s : List Char) (i : Int) (j : Nat) : List Char :=
  let i := if i < 0 then (i + s.length).toNat else i.toNat
  (s.take j).drop i

/-- `s.replace(pat, r, 1)` -/
def replace1 (pat r : List Char) : List Char → List Char
  | [] => if pat = [] then r else []
  | c :: s => if pat.isPrefixOf (c :: s) then r ++ (c :: s).drop pat.length
      else c :: replace1 pat r s

/-- `s.find(key)` for one character; `none` is -1 -/
def find (key : Char) : List Char → Option Nat
  | [] => none
  | c :: s => if c = key then some 0 else (find key s).map (· + 1)

/-- the `while True` loop for one escape character: cssr_pvs.py lines 36-43; `none` when it has not
ended after `fuel` iterations -/
def loop (key : Char) : (fuel : Nat) → List Char → Option (Py (List Char))
  | 0, _ => none
  | fuel + 1, s =>
    match find key s with
    | none => some (.ok s)
    | some pos =>
      match pyGetI s ((pos : Int) - 1) with
      | .error e => some (.error e)
      | .ok c =>
        let k := if key = '|' then 2 else 3
        match int16 (slice s (pos + 1 : Nat) (pos + k)) with
        | .error e => some (.error e)
        | .ok n => loop key fuel (replace1 (slice s ((pos : Int) - 1) (pos + k)) (List.replicate n.toNat c) s)

/-- both passes: cssr_pvs.py lines 34-43 -/
def expand (fuel : Nat) (s : List Char) : Option (Py (List Char)) :=
  match loop '|' fuel s with
  | none => none
  | some (.error e) => some (.error e)
  | some (.ok s) => loop '/' fuel s

/-- `s.split(sep)` for a one-character separator -/
def split (sep : Char) : List Char → List (List Char)
  | [] => [[]]
  | c :: s =>
    if c = sep then [] :: split sep s
    else match split sep s with
      | [] => [[c]]
      | w :: ws => (c :: w) :: ws

/-- `binascii.unhexlify` -/
def unhexlify : List Char → Py (List Nat)
  | [] => .ok []
  | [_] => .error .valueError
  | a :: b :: s =>
    match hexVal? a, hexVal? b with
    | some x, some y => match unhexlify s with
      | .ok r => .ok ((16 * x + y) :: r)
      | .error e => .error e
    | _, _ => .error .valueError

/-- `decode_sinca_line(line)`: cssr_pvs.py lines 26-46; the outer `none` means that the expansion
has not ended after `fuel` iterations, `ok none` is the returned `None` -/
def decodeSincaLine (fuel : Nat) (line : List Char) : Option (Py (Option (GTime × List Nat))) :=
  if slice line 0 4 ≠ ['*', 'M', 'S', 'G'] then some (.ok none)
  else
    let v := split ',' line
    match v[3]?, v[1]?, v[2]? with
    | some s, some w, some t =>
      match pyInt w, pyInt t with
      | .ok week, .ok tow =>
        match expand fuel s with
        | none => none
        | some (.error e) => some (.error e)
        | some (.ok s) =>
          match unhexlify ((split '*' s).headD []) with
          | .error e => some (.error e)
          | .ok sb => some (.ok (some (gpst2time week tow, sb)))
      | .error e, _ => some (.error e)
      | _, .error e => some (.error e)
    | _, _, _ => some (.error .indexError)

end Verif.Sinca
