import Verif.Model.NgsAnt
import Verif.Lemmas.Post
/-!
# C117 Antenna files of NGS
-/
namespace Verif.C117
open Verif Verif.NgsAnt Verif.Sig
open Verif.Antex (Pcv)

/-! ## Specification -/

/-- phase of the first and of the second GPS frequency -/
def L1 : Sig := ⟨.gps, .L, 100⟩
def L2 : Sig := ⟨.gps, .L, 200⟩

/-- a block of the file: a line with the antenna type, and the lines behind it, which begin with a blank -/
structure Block where
  head : Ln
  body : List Ln

structure Block.Ok (b : Block) : Prop where
  head : b.head.head = true
  headc : b.head.cmt = false
  body : ∀ l ∈ b.body, l.head = false ∧ l.cmt = false
  /-- the lines of the offsets have north, east and up -/
  off : ∀ k, k = 0 ∨ k = 3 → ∀ l, b.body[k]? = some l → 3 ≤ l.neu.length

def Block.lines (b : Block) : List Ln := b.head :: b.body

/-- the antenna a block stands for -/
structure IsAnt (b : Block) (p : Pcv) : Prop where
  receiver : p.sat = none
  typ : p.typ = b.head.text.take 20
  zen : p.zen = [0, 90, 5] ∧ p.nv = 19
  off1 : ∀ (l : Ln) (n e u : ℚ), b.body[0]? = some l → (∃ r, l.neu = n :: e :: u :: r) → p.off.get? L1 = some (e, n, u)
  off2 : ∀ (l : Ln) (n e u : ℚ), b.body[3]? = some l → (∃ r, l.neu = n :: e :: u :: r) → p.off.get? L2 = some (e, n, u)
  var1 : ∀ (l l' : Ln), b.body[1]? = some l → b.body[2]? = some l' → p.var.get? L1 = some (l.nums ++ l'.nums)
  var2 : ∀ (l l' : Ln), b.body[4]? = some l → b.body[5]? = some l' → p.var.get? L2 = some (l.nums ++ l'.nums)
  rest : ∀ g, g ≠ L1 → g ≠ L2 → p.off.get? g = none ∧ p.var.get? g = none

/-! ## Lemmas -/

theorem sigs : sig1 = .ok L1 ∧ sig2 = .ok L2 := by decide +kernel

theorem ne12 : L1 ≠ L2 := by decide

theorem enu_of {v : List ℚ} (h : 3 ≤ v.length) : ∃ n e u r, v = n :: e :: u :: r ∧ enu v = .ok (e, n, u) := by
  match v, h with
  | n :: e :: u :: r, _ => exact ⟨n, e, u, r, rfl, rfl⟩

theorem read_eq (R : List Pcv) (ls : List Ln) :
    readngspcv R ls = (ls.foldlM (step L1 L2) { pcvr := R }).map St.pcvr := by
  unfold readngspcv
  rw [sigs.1, sigs.2]
  simp only [Py.okBind]
  cases ls.foldlM (step L1 L2) { pcvr := R } <;> rfl

/-- lines behind the seventh do nothing -/
theorem tail_step (ds : List Ln) : ∀ s : St, 7 ≤ s.n → (∀ l ∈ ds, l.head = false ∧ l.cmt = false) →
    ∃ s', ds.foldlM (step L1 L2) s = .ok s' ∧ s'.pcvr = s.pcvr := by
  induction ds with
  | nil => intro s _ _; exact ⟨s, rfl, rfl⟩
  | cons l ds ih =>
    intro s hn h
    obtain ⟨h1, h2⟩ := h l (by simp)
    have e : step L1 L2 s l = .ok { s with n := s.n + 1 } := by
      unfold step
      rw [h2, h1]
      obtain ⟨n, pcv, var, R⟩ := s
      simp only at hn
      obtain ⟨k, rfl⟩ : ∃ k, n = k + 7 := ⟨n - 7, by omega⟩
      simp
    rw [List.foldlM_cons, e, Py.okBind]
    obtain ⟨s', e', p⟩ := ih { s with n := s.n + 1 } (by simp only; omega) fun x hx => h x (by simp [hx])
    exact ⟨s', e', p⟩

theorem block_step (b : Block) (hb : b.Ok) (s : St) : ∃ s', b.lines.foldlM (step L1 L2) s = .ok s' ∧
    (b.body.length < 6 → s'.pcvr = s.pcvr) ∧ (6 ≤ b.body.length → ∃ p, IsAnt b p ∧ s'.pcvr = s.pcvr ++ [p]) := by
  obtain ⟨h, ds⟩ := b
  obtain ⟨h1, h2, h3, h4⟩ := hb
  simp only at h1 h2 h3 h4
  simp only [Block.lines]
  have e0 : step L1 L2 s h = .ok { s with n := 1, pcv := { sat := none, code := [], typ := h.text.take 20, zen := [0, 90, 5], nv := 19 } } := by
    unfold step
    rw [h2, h1]
    simp
  rw [List.foldlM_cons, e0, Py.okBind]
  match ds, h3, h4 with
  | [], _, _ => exact ⟨_, rfl, fun _ => rfl, fun x => absurd x (by simp)⟩
  | a :: ds, h3, h4 =>
  obtain ⟨a1, a2⟩ := h3 a (by simp)
  obtain ⟨n, e, u, r, en, eo⟩ := enu_of (h4 0 (.inl rfl) a rfl)
  rw [List.foldlM_cons]
  rw [show ∀ s : St, s.n = 1 → step L1 L2 s a = .ok { s with n := 2, pcv := { s.pcv with off := s.pcv.off.set L1 (e, n, u) } } by
    intro s hs; unfold step; rw [a2, a1, hs]; simp [eo]]
  swap
  · rfl
  rw [Py.okBind]
  match ds, h3, h4 with
  | [], _, _ => exact ⟨_, rfl, fun _ => rfl, fun x => absurd x (by simp)⟩
  | b :: ds, h3, h4 =>
  obtain ⟨b1, b2⟩ := h3 b (by simp)
  rw [List.foldlM_cons]
  rw [show ∀ s : St, s.n = 2 → step L1 L2 s b = .ok { s with n := 3, var := b.nums } by
    intro s hs; unfold step; rw [b2, b1, hs]; simp]
  swap
  · rfl
  rw [Py.okBind]
  match ds, h3, h4 with
  | [], _, _ => exact ⟨_, rfl, fun _ => rfl, fun x => absurd x (by simp)⟩
  | c :: ds, h3, h4 =>
  obtain ⟨c1, c2⟩ := h3 c (by simp)
  rw [List.foldlM_cons]
  rw [show ∀ s : St, s.n = 3 → step L1 L2 s c = .ok { s with n := 4, var := s.var ++ c.nums, pcv := { s.pcv with var := s.pcv.var.set L1 (s.var ++ c.nums) } } by
    intro s hs; unfold step; rw [c2, c1, hs]; simp]
  swap
  · rfl
  rw [Py.okBind]
  match ds, h3, h4 with
  | [], _, _ => exact ⟨_, rfl, fun _ => rfl, fun x => absurd x (by simp)⟩
  | d :: ds, h3, h4 =>
  obtain ⟨d1, d2⟩ := h3 d (by simp)
  obtain ⟨n', e', u', r', en', eo'⟩ := enu_of (h4 3 (.inr rfl) d rfl)
  rw [List.foldlM_cons]
  rw [show ∀ s : St, s.n = 4 → step L1 L2 s d = .ok { s with n := 5, pcv := { s.pcv with off := s.pcv.off.set L2 (e', n', u') } } by
    intro s hs; unfold step; rw [d2, d1, hs]; simp [eo']]
  swap
  · rfl
  rw [Py.okBind]
  match ds, h3, h4 with
  | [], _, _ => exact ⟨_, rfl, fun _ => rfl, fun x => absurd x (by simp)⟩
  | f :: ds, h3, h4 =>
  obtain ⟨f1, f2⟩ := h3 f (by simp)
  rw [List.foldlM_cons]
  rw [show ∀ s : St, s.n = 5 → step L1 L2 s f = .ok { s with n := 6, var := f.nums } by
    intro s hs; unfold step; rw [f2, f1, hs]; simp]
  swap
  · rfl
  rw [Py.okBind]
  match ds, h3, h4 with
  | [], _, _ => exact ⟨_, rfl, fun _ => rfl, fun x => absurd x (by simp)⟩
  | g :: ds, h3, h4 =>
  obtain ⟨g1, g2⟩ := h3 g (by simp)
  rw [List.foldlM_cons]
  rw [show ∀ s : St, s.n = 6 → step L1 L2 s g = .ok { s with n := 7, var := s.var ++ g.nums, pcv := { s.pcv with var := s.pcv.var.set L2 (s.var ++ g.nums) }, pcvr := s.pcvr ++ [{ s.pcv with var := s.pcv.var.set L2 (s.var ++ g.nums) }] } by
    intro s hs; unfold step; rw [g2, g1, hs]; simp]
  swap
  · rfl
  rw [Py.okBind]
  have ht := tail_step ds
  simp only at ht ⊢
  generalize hs7 : (St.mk 7 _ _ _) = s7
  obtain ⟨s', es, p⟩ := ht s7 (by rw [← hs7]) fun x hx => h3 x (by simp [hx])
  rw [← hs7] at p
  refine ⟨s', es, fun x => absurd x (by simp), fun _ => ⟨_, ?_, p⟩⟩
  have n12 := ne12
  refine ⟨rfl, rfl, ⟨rfl, rfl⟩, ?_, ?_, ?_, ?_, ?_⟩
  · rintro l n0 e0 u0 hl ⟨r0, hr⟩
    simp only [List.getElem?_cons_zero, Option.some.injEq] at hl
    subst hl
    rw [en] at hr
    simp only [List.cons.injEq] at hr
    obtain ⟨rfl, rfl, rfl, -⟩ := hr
    rw [Dict.get?_set_ne _ _ (by first | exact n12 | exact n12.symm), Dict.get?_set_self]
  · rintro l n0 e0 u0 hl ⟨r0, hr⟩
    simp only [List.getElem?_cons_succ, List.getElem?_cons_zero, Option.some.injEq] at hl
    subst hl
    rw [en'] at hr
    simp only [List.cons.injEq] at hr
    obtain ⟨rfl, rfl, rfl, -⟩ := hr
    rw [Dict.get?_set_self]
  · intro l l' hl hl'
    simp only [List.getElem?_cons_succ, List.getElem?_cons_zero, Option.some.injEq] at hl hl'
    subst hl hl'
    rw [Dict.get?_set_ne _ _ (by first | exact n12 | exact n12.symm), Dict.get?_set_self]
  · intro l l' hl hl'
    simp only [List.getElem?_cons_succ, List.getElem?_cons_zero, Option.some.injEq] at hl hl'
    subst hl hl'
    rw [Dict.get?_set_self]
  · intro g k1 k2
    constructor
    · rw [Dict.get?_set_ne _ _ (by first | exact k2 | exact k2.symm), Dict.get?_set_ne _ _ (by first | exact k1 | exact k1.symm)]
      rfl
    · rw [Dict.get?_set_ne _ _ (by first | exact k2 | exact k2.symm), Dict.get?_set_ne _ _ (by first | exact k1 | exact k1.symm)]
      rfl

/-! ## Properties -/

/-- **The heading** of the file (lines with a bar in column 61) does not matter, wherever it stands -/
theorem heading (R : List Pcv) (ls : List Ln) : readngspcv R ls = readngspcv R (ls.filter fun l => !l.cmt) := by
  rw [read_eq, read_eq]
  congr 1
  have : ∀ (ls : List Ln) (s : St), ls.foldlM (step L1 L2) s = (ls.filter fun l => !l.cmt).foldlM (step L1 L2) s := by
    intro ls
    induction ls with
    | nil => intro s; rfl
    | cons l ls ih =>
      intro s
      cases hc : l.cmt
      · rw [List.filter_cons_of_pos (by simp [hc]), List.foldlM_cons, List.foldlM_cons]
        congr 1
        funext s'
        exact ih s'
      · rw [List.filter_cons_of_neg (by simp [hc]), List.foldlM_cons, show step L1 L2 s l = .ok s by unfold step; rw [hc]; simp, Py.okBind]
        exact ih s
  exact this _ _

theorem blocks_step (bs : List Block) (h : ∀ b ∈ bs, b.Ok) : ∀ s : St, ∃ s' P,
    (bs.flatMap Block.lines).foldlM (step L1 L2) s = .ok s' ∧ s'.pcvr = s.pcvr ++ P ∧
      List.Forall₂ IsAnt (bs.filter fun b => decide (6 ≤ b.body.length)) P := by
  induction bs with
  | nil => intro s; exact ⟨s, [], rfl, by simp, .nil⟩
  | cons b bs ih =>
    intro s
    obtain ⟨s1, e1, p1, q1⟩ := block_step b (h b (by simp)) s
    obtain ⟨s2, P, e2, p2, q2⟩ := ih (fun x hx => h x (by simp [hx])) s1
    rw [List.flatMap_cons, List.foldlM_append, e1, Py.okBind]
    by_cases hl : 6 ≤ b.body.length
    · obtain ⟨p, hp, ep⟩ := q1 hl
      refine ⟨s2, p :: P, e2, by rw [p2, ep]; simp, ?_⟩
      rw [List.filter_cons_of_pos (by simp [hl])]
      exact .cons hp q2
    · refine ⟨s2, P, e2, by rw [p2, p1 (by omega)], ?_⟩
      rw [List.filter_cons_of_neg (by simp [hl])]
      exact q2

/-- **Antennas**: every block with at least six lines behind the type is stored once as receiver antenna, in the order of the file
and behind the antennas of files read before; shorter blocks are not stored and do not harm their neighbours. -/
theorem file_read (bs : List Block) (h : ∀ b ∈ bs, b.Ok) (R : List Pcv) :
    ∃ P, readngspcv R (bs.flatMap Block.lines) = .ok (R ++ P) ∧
      List.Forall₂ IsAnt (bs.filter fun b => decide (6 ≤ b.body.length)) P := by
  obtain ⟨s', P, e, p, q⟩ := blocks_step bs h { pcvr := R }
  refine ⟨P, ?_, q⟩
  rw [read_eq, e]
  simp [Except.map, p]

/-- **A short offset**: when the line behind an antenna type has less than three offsets, the reading raises, whatever was read
before and whatever follows -/
theorem short_offset (bs : List Block) (hb : ∀ b ∈ bs, b.Ok) (R : List Pcv) (h a : Ln) (rest : List Ln) (h1 : h.head = true)
    (h2 : h.cmt = false) (a1 : a.head = false) (a2 : a.cmt = false) (hs : a.neu.length < 3) :
    readngspcv R (bs.flatMap Block.lines ++ h :: a :: rest) = .error .indexError := by
  obtain ⟨s', P, e, -, -⟩ := blocks_step bs hb { pcvr := R }
  rw [read_eq, List.foldlM_append, e, Py.okBind]
  rw [List.foldlM_cons, show step L1 L2 _ h = .ok _ by unfold step; rw [h2, h1]; simp; rfl, Py.okBind, List.foldlM_cons]
  have : enu a.neu = .error .indexError := by
    match hn : a.neu, hs with
    | [], _ => rfl
    | [_], _ => rfl
    | [_, _], _ => rfl
  rw [show step L1 L2 _ a = .error .indexError by unfold step; rw [a2, a1]; simp [this]]
  rfl

/-! ## Cases -/

def exH : Ln := ⟨false, true, "AOAD/M_T        NONE  extra".toList, [], []⟩
def exO : Ln := ⟨false, false, [], [1 / 2, 2 / 3, 91], []⟩
def exV : Ln := ⟨false, false, [], [], [0, 1, 2]⟩

example : (⟨exH, [exO, exV, exV, exO, exV, exV]⟩ : Block).Ok ∧ (⟨exH, [exO, exV]⟩ : Block).Ok := by
  constructor
  · refine ⟨rfl, rfl, by decide +kernel, ?_⟩
    rintro k (rfl | rfl) l hl <;> (simp only [List.getElem?_cons_succ, List.getElem?_cons_zero, Option.some.injEq] at hl; subst hl; decide)
  · refine ⟨rfl, rfl, by decide +kernel, ?_⟩
    rintro k (rfl | rfl) l hl
    · simp only [List.getElem?_cons_zero, Option.some.injEq] at hl; subst hl; decide
    · simp at hl

example : ((readngspcv [] [exH, exO, exV, exH, exO, exV, exV, exO, exV, exV]).toOption.map fun p => p.map fun x => x.typ) =
    some ["AOAD/M_T        NONE".toList] := by decide +kernel

end Verif.C117
