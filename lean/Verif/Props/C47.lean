import Verif.Model.Pppssr
/-!
# C47  State vector slots
-/

namespace Verif.C47
open Verif.Ppp

/-- The states the filter uses with given options. -/
inductive State where
  /-- position and (unless static) velocity component -/
  | pv (k : Nat)
  | ztd
  | iono (s : Nat)
  | amb (s f : Nat)
  deriving DecidableEq, Repr

/-- the state exists with these options -/
def Has (o : Opt) : State → Prop
  | .pv k => k < 3 ∨ (k < 6 ∧ o.pmode ≠ 0)
  | .ztd => o.trop = 1
  | .iono s => o.iono = 1 ∧ 1 ≤ s ∧ s ≤ 233
  | .amb s f => 1 ≤ s ∧ s ≤ 233 ∧ f < o.nf

/-- the index by which the code addresses it -/
def index (o : Opt) : State → Int
  | .pv k => k
  | .ztd => IT o.na
  | .iono s => II s o.na
  | .amb s f => IB s f o.na

theorem mul_step (f nf : Nat) (h : f < nf) : 233 * f + 233 ≤ 233 * nf := by
  have : f + 1 ≤ nf := h
  omega

/-- **No overlap**: unless the troposphere is estimated without the ionosphere, every state has
its own place inside the state vector, and the places fill the vector. -/
theorem layout (o : Opt) (h : o.trop = 1 → o.iono = 1) :
    (∀ a, Has o a → 0 ≤ index o a ∧ index o a < o.nx) ∧
    (∀ a b, Has o a → Has o b → index o a = index o b → a = b) ∧
    (∀ i < o.nx, ∃ a, Has o a ∧ index o a = i) := by
  have hn : (nsat : Int) = 233 := rfl
  have hn' : nsat = 233 := rfl
  have hbase : o.base = 3 ∧ o.pmode = 0 ∨ o.base = 6 ∧ o.pmode ≠ 0 := by
    unfold Opt.base; by_cases hp : o.pmode = 0 <;> simp [hp]
  have htr : o.ntrop = 1 ∧ o.trop = 1 ∨ o.ntrop = 0 ∧ o.trop ≠ 1 := by
    unfold Opt.ntrop; by_cases hp : o.trop = 1 <;> simp [hp]
  have hio : o.niono = 233 ∧ o.iono = 1 ∨ o.niono = 0 ∧ o.iono ≠ 1 := by
    unfold Opt.niono; by_cases hp : o.iono = 1 <;> simp [hp, hn']
  have hna : o.na = o.base + o.ntrop + o.niono := rfl
  have hnx : o.nx = o.na + 233 * o.nf := rfl
  refine ⟨?_, ?_, ?_⟩
  · intro a ha
    cases a with
    | pv k => simp only [Has, index] at *; omega
    | ztd => simp only [Has, index, IT] at *; omega
    | iono s => simp only [Has, index, II] at *; omega
    | amb s f =>
      simp only [Has, index, IB, hn] at *
      have := mul_step f o.nf ha.2.2
      omega
  · intro a b ha hb e
    cases a <;> cases b <;> simp only [Has, index, IT, II, IB, hn] at ha hb e
    case pv.pv => congr; omega
    case ztd.ztd => rfl
    case iono.iono => congr 1; omega
    case amb.amb s f s' f' =>
      have : f = f' := by omega
      subst this
      congr 1
      omega
    all_goals exfalso; omega
  · intro i hi
    by_cases h1 : i < o.base
    · exact ⟨.pv i, by simp only [Has]; omega, rfl⟩
    by_cases h2 : i < o.base + o.ntrop
    · exact ⟨.ztd, by simp only [Has]; omega, by simp only [index, IT]; omega⟩
    by_cases h3 : i < o.na
    · refine ⟨.iono (i - (o.base + o.ntrop) + 1), ?_, ?_⟩
      · simp only [Has]; omega
      · simp only [index, II]; omega
    · refine ⟨.amb ((i - o.na) % 233 + 1) ((i - o.na) / 233), ?_, ?_⟩
      · simp only [Has]
        refine ⟨by omega, by omega, ?_⟩
        omega
      · simp only [index, IB, hn]; omega

/-- the second place the initial variance and noise of the troposphere is put (`dP[6]`/`dP[3]`,
lines 179-183) is its state -/
theorem ztd_variance (o : Opt) (h : o.trop = 1) (hi : o.iono = 1) (hp : 0 ≤ o.pmode) :
    index o .ztd = if o.pmode ≥ 1 then 6 else 3 := by
  have hna : o.na = o.base + o.ntrop + o.niono := rfl
  have h1 : o.ntrop = 1 := by unfold Opt.ntrop; rw [if_pos h]
  have h2 : o.niono = 233 := by unfold Opt.niono; rw [if_pos hi]; rfl
  have hn : (nsat : Int) = 233 := rfl
  simp only [index, IT]
  unfold Opt.base at hna
  split at hna <;> split <;> omega

/-- **Process noise**: with troposphere and ionosphere estimated, every state below the
ambiguities receives the noise of its own kind. -/
theorem noise (o : Opt) (h : o.trop = 1) (hi : o.iono = 1) (hp : 0 ≤ o.pmode) :
    (∀ k, Has o (.pv k) → o.q k = if k < 3 then .pos else .vel) ∧
    o.q (index o .ztd).toNat = .ztd ∧
    (∀ s, Has o (.iono s) → o.q (index o (.iono s)).toNat = .ion) ∧
    ∀ i, o.na ≤ i → o.q i = .zero := by
  have hna : o.na = o.base + o.ntrop + o.niono := rfl
  have h1 : o.ntrop = 1 := by unfold Opt.ntrop; rw [if_pos h]
  have h2 : o.niono = 233 := by unfold Opt.niono; rw [if_pos hi]; rfl
  have hn : (nsat : Int) = 233 := rfl
  have hn' : nsat = 233 := rfl
  have hq : ∀ i, o.q i = if o.na ≤ i then .zero else if i < 3 then .pos
      else if i < o.base then .vel else if i = o.base then .ztd else .ion := by
    intro i
    unfold Opt.q Opt.base at *
    by_cases hp0 : o.pmode = 0
    · rw [if_pos hp0] at hna ⊢
      have e1 : ¬ o.pmode ≥ 1 := by omega
      simp only [h, hi, e1, if_true, if_false, assignSlice, hn']
      repeat' split
      all_goals first | rfl | omega
    · rw [if_neg hp0] at hna ⊢
      have e1 : o.pmode ≥ 1 := by omega
      simp only [h, hi, e1, if_true, assignSlice, hn']
      repeat' split
      all_goals first | rfl | omega
  have hb : 3 ≤ o.base := by unfold Opt.base; split <;> omega
  refine ⟨fun k ha => ?_, ?_, fun s ha => ?_, fun i hi => ?_⟩
  · have hk : k < o.base := by
      unfold Opt.base
      simp only [Has] at ha
      split <;> omega
    rw [hq, if_neg (by omega), if_pos hk]
  · have : (index o .ztd).toNat = o.base := by simp only [index, IT]; omega
    rw [this, hq, if_neg (by omega), if_neg (by omega), if_neg (by omega), if_pos rfl]
  · simp only [Has] at ha
    have : (index o (.iono s)).toNat = o.base + s := by simp only [index, II]; omega
    rw [this, hq, if_neg (by omega), if_neg (by omega), if_neg (by omega), if_neg (by omega)]
  · rw [hq, if_pos hi]

/-- **Exception**: with the troposphere estimated and the ionosphere not, the troposphere state
is addressed by a negative index, which is the ambiguity of GPS satellite 4 (static) or 7
(kinematic) on the last frequency. -/
theorem trop_alias (o : Opt) (h : o.trop = 1) (hi : o.iono ≠ 1) (hf : 0 < o.nf) :
    let s := if o.pmode = 0 then 4 else 7
    Has o .ztd ∧ Has o (.amb s (o.nf - 1)) ∧ index o .ztd < 0 ∧
    pyIdx o.nx (index o .ztd) = pyIdx o.nx (index o (.amb s (o.nf - 1))) ∧
    (pyIdx o.nx (index o .ztd)).isSome := by
  have hn : (nsat : Int) = 233 := rfl
  have hna : o.na = o.base + o.ntrop + o.niono := rfl
  have hnx : o.nx = o.na + 233 * o.nf := rfl
  have h1 : o.ntrop = 1 := by unfold Opt.ntrop; rw [if_pos h]
  have h2 : o.niono = 0 := by unfold Opt.niono; rw [if_neg hi]
  have hb : o.base = if o.pmode = 0 then 3 else 6 := rfl
  intro s
  have hs : s = o.base + 1 := by
    show (if o.pmode = 0 then 4 else 7) = _
    rw [hb]; split <;> rfl
  have hb2 : o.base ≤ 6 := by rw [hb]; split <;> omega
  have hz : index o .ztd = (o.base : Int) - 233 := by simp only [index, IT]; omega
  have ha : index o (.amb s (o.nf - 1)) = (o.base : Int) - 233 + o.nx := by
    simp only [index, IB, hs, hn]; push_cast; omega
  have h3 : 233 ≤ o.nx := by omega
  refine ⟨h, ⟨by omega, by omega, by omega⟩, by omega, ?_, ?_⟩
  · rw [hz, ha]
    unfold pyIdx
    rw [if_neg (by omega), if_pos (by omega), if_pos (by omega)]
  · rw [hz]
    unfold pyIdx
    rw [if_neg (by omega), if_pos (by omega)]
    rfl

/-- **Exception**: with the ionosphere estimated and the troposphere not, the noise is shifted
by one place and the first satellite (GPS 1) gets none. -/
theorem iono_noise_shifted (o : Opt) (h : o.trop ≠ 1) (hi : o.iono = 1) (hp : 0 ≤ o.pmode) (s : Nat)
    (hs : 1 ≤ s ∧ s ≤ 233) :
    o.q (index o (.iono s)).toNat = if s = 1 then .zero else .ion := by
  have hna : o.na = o.base + o.ntrop + o.niono := rfl
  have h1 : o.ntrop = 0 := by unfold Opt.ntrop; rw [if_neg h]
  have h2 : o.niono = 233 := by unfold Opt.niono; rw [if_pos hi]; rfl
  have hn : (nsat : Int) = 233 := rfl
  have hn' : nsat = 233 := rfl
  have hx : (index o (.iono s)).toNat = o.base + (s - 1) := by simp only [index, II]; omega
  rw [hx]
  unfold Opt.q Opt.base at *
  by_cases hp0 : o.pmode = 0
  · rw [if_pos hp0] at hna ⊢
    have e1 : ¬ o.pmode ≥ 1 := by omega
    simp only [h, hi, e1, if_true, if_false, assignSlice, hn']
    repeat' split
    all_goals first | rfl | omega
  · rw [if_neg hp0] at hna ⊢
    have e1 : o.pmode ≥ 1 := by omega
    simp only [h, hi, e1, if_true, if_false, assignSlice, hn']
    repeat' split
    all_goals first | rfl | omega

/-- kinematic, both estimated, two frequencies -/
example : (index ⟨1, 1, 1, 2⟩ .ztd, index ⟨1, 1, 1, 2⟩ (.iono 1), index ⟨1, 1, 1, 2⟩ (.iono 233),
    index ⟨1, 1, 1, 2⟩ (.amb 1 0), index ⟨1, 1, 1, 2⟩ (.amb 233 1), Opt.nx ⟨1, 1, 1, 2⟩) =
    (6, 7, 239, 240, 705, 706) := by decide

/-- the overlap, kinematic and one frequency: both are element 13 -/
example : pyIdx (Opt.nx ⟨1, 1, 0, 1⟩) (index ⟨1, 1, 0, 1⟩ .ztd) = some 13 ∧
    index ⟨1, 1, 0, 1⟩ (.amb 7 0) = 13 := by decide

end Verif.C47
