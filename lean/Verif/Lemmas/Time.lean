import Verif.Model.Time
import Mathlib.Tactic.Linarith
import Mathlib.Tactic.Ring
/-! Helper lemmas about `GTime`. -/

namespace Verif.Time

/-- the real instant of a `GTime`, in seconds -/
def GTime.tot (t : GTime) : ℚ := t.time + t.sec

/-- a normalised time has its fraction in [0,1) -/
def GTime.Norm (t : GTime) : Prop := 0 ≤ t.sec ∧ t.sec < 1

theorem tot_timeadd (t : GTime) (s : ℚ) : (timeadd t s).tot = t.tot + s := by
  simp only [GTime.tot, timeadd]; push_cast; ring

theorem timediff_tot (a b : GTime) : timediff a b = a.tot - b.tot := by
  simp only [GTime.tot, timediff]; push_cast; ring

theorem norm_timeadd (t : GTime) (s : ℚ) : (timeadd t s).Norm := by
  simp only [GTime.Norm, timeadd]
  constructor
  · linarith [Int.floor_le (t.sec + s)]
  · linarith [Int.lt_floor_add_one (t.sec + s)]

theorem ext_tot {a b : GTime} (ha : a.Norm) (hb : b.Norm) (h : a.tot = b.tot) : a = b := by
  obtain ⟨ta, sa⟩ := a
  obtain ⟨tb, sb⟩ := b
  simp only [GTime.Norm, GTime.tot] at *
  have h1 : (ta : ℚ) - tb < 1 := by linarith
  have h2 : (tb : ℚ) - ta < 1 := by linarith
  have h1' : ta - tb < 1 := by exact_mod_cast h1
  have h2' : tb - ta < 1 := by exact_mod_cast h2
  have e : ta = tb := by omega
  subst e
  simp only [GTime.mk.injEq, true_and]; linarith

end Verif.Time
