import Verif.Model.Cssr
/-! Model of the Galileo HAS page collector, class `cnav_msg` (`src/cssrlib/cssr_has.py` lines
134-240, without the obsolete `decode_has_header`).

The Reed-Solomon decoding `decode_has_page` (lines 163-174) is a parameter `dec` of the model: it
is given the list of row numbers, the page store and the message size, as in the call at line
218.  Printing is left out. -/

namespace Verif.HasPage
open Verif.Cssr (readMany)

/-- the fields of `cnav_msg`; `got` is `rec`, `pages r` is row `r` of `has_pages` (255 rows of 53 bytes) -/
structure St where
  midDecoded : List Nat := []
  mid : Int := -1
  ms : Int := -1
  got : List Int := []
  pages : Nat → List Nat := fun _ => List.replicate 53 0
  icnt : Nat := 0
  msgtype : Int := -1

/-- row addressed by the Python index `r` (`-1` is the last row) -/
def row (r : Int) : Nat := if r < 0 then (r + 255).toNat else r.toNat

/-- loop body: lines 183-210 -/
def onPage (s : St) (b : BitBuf) : Py St := do
  let d ← readU b 14 24
  if d = 0xaf3bc3 then pure s
  else
    let hass ← readU b 14 2
    let _res ← readU b 16 2
    if hass ≥ 2 then pure s
    else
      let mt ← readU b 18 2
      let mid ← readU b 20 5
      let ms ← readU b 25 5
      let pid ← readU b 30 8
      let s := { s with msgtype := mt }
      let s := if s.mid = -1 ∧ mid ∉ s.midDecoded then { s with mid := mid, ms := ms + 1 } else s
      if (mid : Int) = s.mid ∧ (pid : Int) - 1 ∉ s.got then do
        let page ← readMany b 38 8 53
        pure { s with got := s.got ++ [(pid : Int) - 1],
                      pages := fun k => if k = row ((pid : Int) - 1) then page else s.pages k }
      else pure s

/-- end of the epoch: lines 212-238 -/
def finish {μ : Type} (dec : List Int → (Nat → List Nat) → Int → Py μ) (s : St) :
    Py (St × Option μ) :=
  if s.ms > 0 ∧ (s.got.length : Int) ≥ s.ms then do
    let m ← dec s.got s.pages s.ms
    let l := s.midDecoded ++ [s.mid.toNat]
    pure ({ s with got := [], mid := -1, midDecoded := if l.length > 10 then l.drop 1 else l }, some m)
  else
    let s := { s with icnt := s.icnt + 1 }
    if (s.icnt : Int) > 2 * s.ms ∧ s.mid ≠ -1 then
      pure ({ s with icnt := 0, got := [], mid := -1 }, none)
    else pure (s, none)

/-- `decode_cnav(tow, vi)`: lines 176-240 -/
def decodeCnav {μ : Type} (dec : List Int → (Nat → List Nat) → Int → Py μ) (s : St)
    (vi : List BitBuf) : Py (St × Option μ) := do
  let s ← vi.foldlM onPage s
  finish dec s

end Verif.HasPage
