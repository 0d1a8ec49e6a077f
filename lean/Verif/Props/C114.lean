import Verif.Model.Antex
import Verif.Lemmas.Post
import Mathlib.Data.List.Forall2
import Mathlib.Data.List.Nodup
/-!
# C114 Antenna files
-/
namespace Verif.C114
open Verif Verif.Antex Verif.Sat Verif.Sig Verif.Time

/-! ## Lines that do not matter -/

theorem other_step (only : Bool) (s : St) : step only s .other = .ok s := by
  cases h : s.on <;> simp [step, h, inside]

def isOther : Ln → Bool
  | .other => true
  | _ => false

/-- **other lines** (comments, variations by azimuth, short lines) anywhere in the file do not matter -/
theorem other_lines (only : Bool) (S R : List Pcv) (ls : List Ln) :
    readpcv only S R ls = readpcv only S R (ls.filter fun l => !isOther l) := by
  have : ∀ (ls : List Ln) (s : St), ls.foldlM (step only) s = (ls.filter fun l => !isOther l).foldlM (step only) s := by
    intro ls
    induction ls with
    | nil => intro s; rfl
    | cons l ls ih =>
      intro s
      cases l with
      | other =>
        rw [List.foldlM_cons, other_step, Py.okBind, ih]
        rfl
      | _ =>
        simp only [List.filter_cons, isOther, Bool.not_false, if_true, List.foldlM_cons]
        congr 1
        funext s'
        exact ih s'
  unfold readpcv
  rw [this]

/-! ## Sections -/

/-- the data of one frequency: constellation and band, offsets north, east, up (satellites: x, y, z), variations -/
structure Freq where
  c : Char
  b : Char
  n : ℚ
  e : ℚ
  u : ℚ
  v : List ℚ

/-- the data of an antenna; `rms`: accuracies, with the labels of the offsets but outside the frequencies -/
structure Sec where
  typ : List Char
  code : List Char
  z0 : ℚ
  z1 : ℚ
  dz : ℚ
  since : Option GTime
  upto : Option GTime
  freqs : List Freq
  rms : List (ℚ × ℚ × ℚ × List ℚ)

def Freq.lines (f : Freq) : List Ln := [.freq f.c f.b, .neu [f.n, f.e, f.u], .noazi f.v, .endFreq]
def rmsLines (r : ℚ × ℚ × ℚ × List ℚ) : List Ln := [.neu [r.1, r.2.1, r.2.2.1], .noazi r.2.2.2]

def Sec.lines (a : Sec) : List Ln :=
  [.start, .typ a.typ a.code, .zen [a.z0, a.z1, a.dz]] ++ (a.since.map Ln.since).toList ++ (a.upto.map Ln.upto).toList ++
    a.freqs.flatMap Freq.lines ++ a.rms.flatMap rmsLines ++ [.stop]

/-- the signal of a frequency -/
def Freq.Is (f : Freq) (g : Sig) : Prop := ofSysStr (char2sys f.c) ['L', f.b] = .ok g

/-- number of zenith angles -/
def Sec.count (a : Sec) : Int := truncQ ((a.z1 - a.z0) / a.dz) + 1

structure Good (a : Sec) : Prop where
  dz : a.dz ≠ 0
  /-- the serial number is blank, or that of a satellite, or begins with another letter -/
  code : strip a.code ≠ [] → ∃ n, id2sat (strip a.code) = .ok n
  known : ∀ f ∈ a.freqs, ∃ g, f.Is g
  once : ∀ (i j : Nat) (f h : Freq) (g : Sig), a.freqs[i]? = some f → a.freqs[j]? = some h → f.Is g → h.Is g → i = j
  len : ∀ f ∈ a.freqs, (f.v.length : Int) = a.count

/-- specification: what is stored for an antenna -/
structure Read (a : Sec) (p : Pcv) : Prop where
  typ : p.typ = a.typ
  code : p.code = strip a.code
  receiver : p.sat = none ↔ strip a.code = []
  sat : ∀ n, p.sat = some n → id2sat (strip a.code) = .ok n
  ts : p.ts = a.since.getD ⟨0, 0⟩
  te : p.te = a.upto.getD ⟨0, 0⟩
  zen : p.zen = [a.z0, a.z1, a.dz]
  off : ∀ f ∈ a.freqs, ∀ g, f.Is g → p.off.get? g = some (if strip a.code = [] then (f.e, f.n, f.u) else (f.n, f.e, f.u))
  var : ∀ f ∈ a.freqs, ∀ g, f.Is g → p.var.get? g = some f.v
  rest : ∀ g, g ≠ noSig → (∀ f ∈ a.freqs, ¬ f.Is g) → p.off.get? g = none ∧ p.var.get? g = none

theorem Is.unique {f : Freq} {g h : Sig} (a : f.Is g) (b : f.Is h) : g = h := by
  unfold Freq.Is at a b
  rw [a] at b
  exact Except.ok.inj b

theorem str2sig_typ {s : Sys} {b : Char} {g : Sig} (h : ofSysStr s ['L', b] = .ok g) : g ≠ noSig := by
  have hl : 2 ≤ ['L', b].length ∧ ['L', b].length ≤ 3 := by simp
  unfold ofSysStr at h
  rw [if_pos hl] at h
  intro e
  subst e
  unfold str2sig at h
  by_cases hb : isSpace b = true
  · have : strip ['L', b] = ['L'] := by simp [strip, hb, List.dropWhile, show isSpace 'L' = false by decide]
    rw [this] at h
    simp at h
  · have : strip ['L', b] = ['L', b] := by simp [strip, hb, List.dropWhile, show isSpace 'L' = false by decide]
    rw [this] at h
    simp only [show typOfChar 'L' = some Typ.L by decide] at h
    split at h
    · simp at h
    · split at h
      · injection h with h
        simp [noSig] at h
      · simp at h

/-- what the frequencies read so far have stored -/
structure Stored (sw : Bool) (fs : List Freq) (p : Pcv) : Prop where
  off : ∀ (i : Nat) (f : Freq) (g : Sig), fs[i]? = some f → f.Is g → (∀ (j : Nat) (h : Freq), i < j → fs[j]? = some h → ¬ h.Is g) →
    p.off.get? g = some (if sw then (f.e, f.n, f.u) else (f.n, f.e, f.u))
  var : ∀ (i : Nat) (f : Freq) (g : Sig), fs[i]? = some f → f.Is g → (∀ (j : Nat) (h : Freq), i < j → fs[j]? = some h → ¬ h.Is g) → p.var.get? g = some f.v
  rest : ∀ g, g ≠ noSig → (∀ f ∈ fs, ¬ f.Is g) → p.off.get? g = none ∧ p.var.get? g = none

/-- two antennas that differ in offsets and variations only -/
structure Same (p q : Pcv) : Prop where
  sat : q.sat = p.sat
  code : q.code = p.code
  typ : q.typ = p.typ
  ts : q.ts = p.ts
  te : q.te = p.te
  zen : q.zen = p.zen
  nv : q.nv = p.nv

theorem Same.trans {p q r : Pcv} (h : Same p q) (k : Same q r) : Same p r :=
  ⟨k.1.trans h.1, k.2.trans h.2, k.3.trans h.3, k.4.trans h.4, k.5.trans h.5, k.6.trans h.6, k.7.trans h.7⟩

theorem freq_step (only : Bool) {s : St} (hon : s.on = true) {f : Freq} {g : Sig} (hf : f.Is g) (hv : (f.v.length : Int) = s.pcv.nv) :
    f.lines.foldlM (step only) s = .ok { s with sig := noSig, pcv := { s.pcv with
      off := s.pcv.off.set g (if s.pcv.sat.isSome then (f.n, f.e, f.u) else (f.e, f.n, f.u)), var := s.pcv.var.set g f.v } } := by
  have hn : ¬ s.pcv.nv > s.pcv.nv := by omega
  unfold Freq.Is at hf
  simp [Freq.lines, List.foldlM_cons, step, hon, inside, hf, Py.okBind, pyGet, hv]

theorem freqs_step (only : Bool) : ∀ (fs : List Freq) (s : St), s.on = true → (∀ f ∈ fs, ∃ g, f.Is g) →
    (∀ f ∈ fs, (f.v.length : Int) = s.pcv.nv) → ∀ pre, Stored (!s.pcv.sat.isSome) pre s.pcv →
    ∃ s', (fs.flatMap Freq.lines).foldlM (step only) s = .ok s' ∧ s'.on = true ∧ (fs ≠ [] ∨ s.sig = noSig → s'.sig = noSig) ∧
      s'.pcvs = s.pcvs ∧ s'.pcvr = s.pcvr ∧ Same s.pcv s'.pcv ∧ Stored (!s.pcv.sat.isSome) (pre ++ fs) s'.pcv
  | [], s, hon, _, _, pre, hp => ⟨s, rfl, hon, by simp, rfl, rfl, ⟨rfl, rfl, rfl, rfl, rfl, rfl, rfl⟩, by simpa using hp⟩
  | f :: fs, s, hon, hk, hv, pre, hp => by
    obtain ⟨g, hg⟩ := hk f (by simp)
    have hs := freq_step only hon hg (hv f (by simp))
    rw [List.flatMap_cons, List.foldlM_append, hs, Py.okBind]
    generalize e : ({ s with sig := noSig, pcv := { s.pcv with
      off := s.pcv.off.set g (if s.pcv.sat.isSome then (f.n, f.e, f.u) else (f.e, f.n, f.u)), var := s.pcv.var.set g f.v } } : St) = s1
    have e1 : s1.sig = noSig := by rw [← e]
    have e2 : s1.on = true := by rw [← e]; exact hon
    have e3 : Same s.pcv s1.pcv := by rw [← e]; exact ⟨rfl, rfl, rfl, rfl, rfl, rfl, rfl⟩
    have e4 : s1.pcvs = s.pcvs ∧ s1.pcvr = s.pcvr := by rw [← e]; exact ⟨rfl, rfl⟩
    have hst : Stored (!s1.pcv.sat.isSome) (pre ++ [f]) s1.pcv := by
      have key : ∀ {i : Nat} {f' : Freq} {g' : Sig}, (pre ++ [f])[i]? = some f' → f'.Is g' →
          (∀ (j : Nat) (h : Freq), i < j → (pre ++ [f])[j]? = some h → ¬ h.Is g') →
          (f' = f ∧ g' = g) ∨ (g' ≠ g ∧ pre[i]? = some f' ∧ ∀ (j : Nat) (h : Freq), i < j → pre[j]? = some h → ¬ h.Is g') := by
        intro i f' g' hi h1 h2
        rw [List.getElem?_append] at hi
        split at hi
        · rename_i hlt
          right
          refine ⟨?_, hi, fun j h hj hjj => h2 j h hj ?_⟩
          · rintro rfl
            exact h2 pre.length f hlt (by simp) hg
          · rw [List.getElem?_append_left (List.getElem?_eq_some_iff.mp hjj).1]
            exact hjj
        · left
          rename_i hge
          have h0 : i - pre.length = 0 := by
            by_contra hne
            rw [List.getElem?_eq_none (by simp; omega)] at hi
            simp at hi
          rw [h0] at hi
          have : f = f' := by simpa using hi
          subst this
          exact ⟨rfl, Is.unique h1 hg⟩
      rw [e3.sat]
      constructor
      · intro i f' g' hi h1 h2
        rcases key hi h1 h2 with ⟨rfl, rfl⟩ | ⟨hne, h3, h4⟩
        · rw [← e]
          simp only [Dict.get?_set_self]
          cases s.pcv.sat <;> rfl
        · rw [← e]
          simp only [Dict.get?_set_ne _ _ hne]
          exact hp.off i f' g' h3 h1 h4
      · intro i f' g' hi h1 h2
        rcases key hi h1 h2 with ⟨rfl, rfl⟩ | ⟨hne, h3, h4⟩
        · rw [← e]
          simp only [Dict.get?_set_self]
        · rw [← e]
          simp only [Dict.get?_set_ne _ _ hne]
          exact hp.var i f' g' h3 h1 h4
      · intro g' hn h1
        have hne : g' ≠ g := fun h => h1 f (by simp) (h ▸ hg)
        rw [← e]
        simp only [Dict.get?_set_ne _ _ hne]
        exact hp.rest g' hn fun f' hf' => h1 f' (by simp [hf'])
    obtain ⟨s', h1, h2, h3, h4, h5, h6, h7⟩ := freqs_step only fs s1 e2 (fun f' hf' => hk f' (by simp [hf']))
      (fun f' hf' => by rw [e3.nv]; exact hv f' (by simp [hf'])) (pre ++ [f]) hst
    refine ⟨s', h1, h2, fun _ => h3 (.inr e1), h4.trans e4.1, h5.trans e4.2, e3.trans h6, ?_⟩
    rw [e3.sat] at h7
    simpa using h7

theorem rms_step (only : Bool) : ∀ (l : List (ℚ × ℚ × ℚ × List ℚ)) (s : St), s.on = true → s.sig = noSig →
    ∃ s', (l.flatMap rmsLines).foldlM (step only) s = .ok s' ∧ s'.on = true ∧ s'.sig = noSig ∧ s'.pcvs = s.pcvs ∧ s'.pcvr = s.pcvr ∧
      Same s.pcv s'.pcv ∧ ∀ g, g ≠ noSig → s'.pcv.off.get? g = s.pcv.off.get? g ∧ s'.pcv.var.get? g = s.pcv.var.get? g
  | [], s, hon, hs => ⟨s, rfl, hon, hs, rfl, rfl, ⟨rfl, rfl, rfl, rfl, rfl, rfl, rfl⟩, fun _ _ => ⟨rfl, rfl⟩⟩
  | r :: l, s, hon, hsig => by
    have hs : ∃ o v, (rmsLines r).foldlM (step only) s = .ok { s with pcv := { s.pcv with off := s.pcv.off.set noSig o, var := s.pcv.var.set noSig v } } := by
      refine ⟨if s.pcv.sat.isSome then (r.1, r.2.1, r.2.2.1) else (r.2.1, r.1, r.2.2.1),
        if (r.2.2.2.length : Int) > s.pcv.nv then cut r.2.2.2 s.pcv.nv else r.2.2.2, ?_⟩
      simp [rmsLines, List.foldlM_cons, step, hon, inside, Py.okBind, pyGet, hsig]
    obtain ⟨o, v, hs⟩ := hs
    rw [List.flatMap_cons, List.foldlM_append, hs, Py.okBind]
    generalize e : ({ s with pcv := { s.pcv with off := s.pcv.off.set noSig o, var := s.pcv.var.set noSig v } } : St) = s1
    have e1 : Same s.pcv s1.pcv := by rw [← e]; exact ⟨rfl, rfl, rfl, rfl, rfl, rfl, rfl⟩
    have e2 : s1.on = true := by rw [← e]; exact hon
    have e3 : s1.sig = noSig := by rw [← e]; exact hsig
    have e4 : s1.pcvs = s.pcvs ∧ s1.pcvr = s.pcvr := by rw [← e]; exact ⟨rfl, rfl⟩
    obtain ⟨s', h1, h2, h0, h3, h4, h5, h6⟩ := rms_step only l s1 e2 e3
    refine ⟨s', h1, h2, h0, h3.trans e4.1, h4.trans e4.2, e1.trans h5, fun g hg => ?_⟩
    have := h6 g hg
    rw [← e] at this
    simpa only [Dict.get?_set_ne _ _ hg] using this

theorem head_step (only : Bool) {a : Sec} (h : Good a) (s : St) : ∃ n, (n = none ↔ strip a.code = []) ∧
    (∀ k, n = some k → id2sat (strip a.code) = .ok k) ∧
    [Ln.start, .typ a.typ a.code, .zen [a.z0, a.z1, a.dz]].foldlM (step only) s =
      .ok { s with on := true, pcv := { sat := n, code := strip a.code, typ := a.typ, zen := [a.z0, a.z1, a.dz], nv := a.count } } := by
  by_cases hc : strip a.code = []
  · refine ⟨none, by simp [hc], by simp, ?_⟩
    simp [List.foldlM_cons, step, inside, hc, Py.okBind, pyGet, h.dz, Sec.count]
  · obtain ⟨n, hn⟩ := h.code hc
    refine ⟨some n, by simp [hc], fun k hk => by rw [← Option.some.inj hk]; exact hn, ?_⟩
    simp [List.foldlM_cons, step, inside, hc, hn, Py.okBind, pyGet, h.dz, Sec.count]

theorem dates_step (only : Bool) (x y : Option GTime) {s : St} (hon : s.on = true) (h1 : s.pcv.ts = ⟨0, 0⟩) (h2 : s.pcv.te = ⟨0, 0⟩) :
    ((x.map Ln.since).toList ++ (y.map Ln.upto).toList).foldlM (step only) s =
      .ok { s with pcv := { s.pcv with ts := x.getD ⟨0, 0⟩, te := y.getD ⟨0, 0⟩ } } := by
  obtain ⟨on, sig, ⟨sat, code, typ, ts, te, off, var, zen, nv⟩, S, R⟩ := s
  simp only at hon h1 h2
  subst hon h1 h2
  cases x <;> cases y <;> rfl

/-- **an antenna** -/
theorem section_read (only : Bool) {a : Sec} (h : Good a) (s : St) (hs : s.sig = noSig) : ∃ s' p, a.lines.foldlM (step only) s = .ok s' ∧
    Read a p ∧ s'.sig = noSig ∧ s'.pcvr = s.pcvr ++ (if strip a.code = [] then [p] else []) ∧
    s'.pcvs = s.pcvs ++ (if strip a.code = [] ∨ only = true then [] else [p]) := by
  obtain ⟨n, n1, n2, e1⟩ := head_step only h s
  unfold Sec.lines
  rw [List.append_assoc, List.append_assoc, List.append_assoc, List.append_assoc, List.foldlM_append, e1, Py.okBind, ← List.append_assoc,
    List.foldlM_append, dates_step only a.since a.upto rfl rfl rfl, Py.okBind]
  generalize e : ({ s with on := true, pcv := { sat := n, code := strip a.code, typ := a.typ, zen := [a.z0, a.z1, a.dz], nv := a.count, ts := a.since.getD ⟨0, 0⟩, te := a.upto.getD ⟨0, 0⟩ } } : St) = s1
  have hon : s1.on = true := by rw [← e]
  have hsig : s1.sig = noSig := by rw [← e]; exact hs
  have hl : s1.pcvs = s.pcvs ∧ s1.pcvr = s.pcvr := by rw [← e]; exact ⟨rfl, rfl⟩
  have hnv : s1.pcv.nv = a.count := by rw [← e]
  have hp0 : Stored (!s1.pcv.sat.isSome) [] s1.pcv := by
    rw [← e]
    exact ⟨by simp, by simp, fun g _ _ => ⟨rfl, rfl⟩⟩
  obtain ⟨s2, f1, f2, f3, f4, f5, f6, f7⟩ := freqs_step only a.freqs s1 hon h.known (fun f hf => by rw [hnv]; exact h.len f hf) [] hp0
  rw [List.foldlM_append, f1, Py.okBind, List.foldlM_append]
  obtain ⟨s3, r1, r2, r0, r3, r4, r5, r6⟩ := rms_step only a.rms s2 f2 (f3 (.inr hsig))
  rw [r1, Py.okBind]
  have hS := f6.trans r5
  have hsat : s3.pcv.sat = n := by rw [hS.sat, ← e]
  have hsw : ((!s1.pcv.sat.isSome) = true) ↔ strip a.code = [] := by
    rw [← n1, ← e]
    cases n <;> simp
  have hR : Read a s3.pcv := by
    refine ⟨by rw [hS.typ, ← e], by rw [hS.code, ← e], by rw [hsat, n1], fun k hk => n2 k (hsat ▸ hk), by rw [hS.ts, ← e], by rw [hS.te, ← e],
      by rw [hS.zen, ← e], ?_, ?_, ?_⟩
    · intro f hf g hg
      obtain ⟨i, hi⟩ := List.mem_iff_getElem?.mp hf
      rw [(r6 g (str2sig_typ hg)).1, f7.off i f g (by simpa using hi) hg]
      · simp only [hsw]
      · intro j k hj hk hkg
        have := h.once i j f k g hi (by simpa using hk) hg hkg
        omega
    · intro f hf g hg
      obtain ⟨i, hi⟩ := List.mem_iff_getElem?.mp hf
      rw [(r6 g (str2sig_typ hg)).2, f7.var i f g (by simpa using hi) hg]
      intro j k hj hk hkg
      have := h.once i j f k g hi (by simpa using hk) hg hkg
      omega
    · intro g hg hn
      rw [(r6 g hg).1, (r6 g hg).2]
      exact f7.rest g hg (by simpa using hn)
  by_cases hc : strip a.code = []
  · have : s3.pcv.sat = none := hsat.trans (n1.mpr hc)
    refine ⟨{ s3 with pcvr := s3.pcvr ++ [s3.pcv], on := false }, s3.pcv, ?_, hR, r0, ?_, ?_⟩
    · simp [List.foldlM_cons, step, this]
    · simp [hc, r4, f5, hl]
    · simp [hc, r3, f4, hl]
  · have : s3.pcv.sat ≠ none := fun h => hc (n1.mp (hsat ▸ h))
    cases only with
    | true =>
      refine ⟨{ s3 with on := false }, s3.pcv, ?_, hR, r0, ?_, ?_⟩
      · simp [List.foldlM_cons, step, this]
      · simp [hc, r4, f5, hl]
      · simp [r3, f4, hl]
    | false =>
      refine ⟨{ s3 with pcvs := s3.pcvs ++ [s3.pcv], on := false }, s3.pcv, ?_, hR, r0, ?_, ?_⟩
      · simp [List.foldlM_cons, step, this]
      · simp [hc, r4, f5, hl]
      · simp [hc, r3, f4, hl]

/-- **a file**: every antenna of the file is stored once, in the order of the file, after those read before: antennas without
serial number as receiver antennas, the others as satellite antennas -/
theorem file_read (only : Bool) (S R : List Pcv) (as : List Sec) (h : ∀ a ∈ as, Good a) : ∃ ps, List.Forall₂ Read as ps ∧
    readpcv only S R (as.flatMap Sec.lines) =
      .ok (S ++ (if only then [] else ps.filter fun p => p.sat.isSome), R ++ ps.filter fun p => p.sat.isNone) := by
  have key : ∀ (as : List Sec), (∀ a ∈ as, Good a) → ∀ s : St, s.sig = noSig → ∃ s' ps, (as.flatMap Sec.lines).foldlM (step only) s = .ok s' ∧
      List.Forall₂ Read as ps ∧ s'.pcvs = s.pcvs ++ (if only then [] else ps.filter fun p => p.sat.isSome) ∧
      s'.pcvr = s.pcvr ++ ps.filter fun p => p.sat.isNone := by
    intro as
    induction as with
    | nil => intro _ s _; exact ⟨s, [], rfl, .nil, by simp, by simp⟩
    | cons a as ih =>
      intro hg s hs
      obtain ⟨s1, p, h1, h2, h3, h4, h5⟩ := section_read only (hg a (by simp)) s hs
      obtain ⟨s2, ps, k1, k2, k3, k4⟩ := ih (fun b hb => hg b (by simp [hb])) s1 h3
      refine ⟨s2, p :: ps, ?_, .cons h2 k2, ?_, ?_⟩
      · rw [List.flatMap_cons, List.foldlM_append, h1]
        exact k1
      · rw [k3, h5]
        by_cases hc : strip a.code = []
        · have : p.sat = none := h2.receiver.mpr hc
          simp [hc, this]
        · have : p.sat ≠ none := fun e => hc (h2.receiver.mp e)
          have : p.sat.isSome = true := Option.isSome_iff_ne_none.mpr this
          cases only <;> simp [hc, this]
      · rw [k4, h4]
        by_cases hc : strip a.code = []
        · have : p.sat = none := h2.receiver.mpr hc
          simp [hc, this]
        · have : p.sat ≠ none := fun e => hc (h2.receiver.mp e)
          have h' : p.sat.isNone = false := by
            cases hps : p.sat with
            | none => exact absurd hps this
            | some n => rfl
          simp [hc, h']
  obtain ⟨s', ps, h1, h2, h3, h4⟩ := key as h { pcvs := S, pcvr := R } rfl
  refine ⟨ps, h2, ?_⟩
  unfold readpcv
  rw [h1, Py.okBind, h3, h4]
  rfl

/-- **serial numbers of receiver antennas**: a serial number that does not begin with the letter of a constellation gives an
antenna of satellite -1, not a receiver antenna -/
theorem serial_lost {a : Sec} {p : Pcv} (h : Read a p) {c : Char} {r : List Char} (hc : strip a.code = c :: r) (hs : char2sys c = .none) :
    p.sat = some (-1) := by
  cases hp : p.sat with
  | none => rw [h.receiver.mp hp] at hc; simp at hc
  | some n =>
    have := h.sat n hp
    rw [hc] at this
    simp only [id2sat, hs, if_true] at this
    rw [Except.ok.inj this]

/-- a serial number with the letter of a constellation and anything but digits stops the reading -/
theorem serial_raises (only : Bool) {s : St} (hon : s.on = true) {ty code : List Char} {c : Char} {r : List Char} {x : PyErr}
    (hc : strip code = c :: r) (hs : char2sys c ≠ .none) (hr : pyInt (r.take 2) = .error x) :
    step only s (.typ ty code) = .error x := by
  simp [step, hon, inside, hc, id2sat, hs, hr]

/-- G01: satellite 1 with two frequencies; the accuracies do not matter -/
def sat0 : Sec := ⟨"BLOCK IIA           ".toList, "G01                 ".toList, 0, 17, 1, some ⟨100, 0⟩, none,
  [⟨'G', '1', 279, 0, 2319, List.replicate 18 (-8 / 10)⟩, ⟨'G', '2', 279, 0, 2319, List.replicate 18 (-8 / 10)⟩], [(1, 2, 3, [1])]⟩
def rcv0 : Sec := ⟨"AOAD/M_T        NONE".toList, "                    ".toList, 0, 90, 5, none, none,
  [⟨'G', '1', 58 / 100, -37 / 100, 9185 / 100, List.replicate 19 0⟩], []⟩

def offs (l : List Pcv) : List (Option Int × Option (ℚ × ℚ × ℚ)) := l.map fun p => (p.sat, p.off.get? ⟨.gps, .L, 100⟩)
example : (readpcv false [] [] (sat0.lines ++ rcv0.lines)).toOption.map (fun r => offs r.1) = some [(some 1, some (279, 0, 2319))] := by
  decide +kernel
example : (readpcv false [] [] (sat0.lines ++ rcv0.lines)).toOption.map (fun r => offs r.2) =
    some [(none, some (-37 / 100, 58 / 100, 9185 / 100))] := by decide +kernel
example : Good rcv0 := by
  have hz : rcv0.dz ≠ 0 := by decide +kernel
  have hc : strip rcv0.code = [] := by decide +kernel
  have hn : (19 : Int) = rcv0.count := by decide +kernel
  refine ⟨hz, fun h => absurd hc h, ?_, ?_, ?_⟩
  · intro f hf
    obtain rfl := List.mem_singleton.mp hf
    exact ⟨⟨.gps, .L, 100⟩, by unfold Freq.Is; decide +kernel⟩
  · intro i j f h g h1 h2 _ _
    have hl : rcv0.freqs.length = 1 := rfl
    have a := (List.getElem?_eq_some_iff.mp h1).1
    have b := (List.getElem?_eq_some_iff.mp h2).1
    clear h1 h2 hz hc hn
    generalize rcv0.freqs.length = n at hl a b
    omega
  · intro f hf
    obtain rfl := List.mem_singleton.mp hf
    rw [← hn, List.length_replicate]
    rfl
/-- the serial number of a receiver antenna taken for a satellite: C12345 is BeiDou satellite 12 -/
example : id2sat (strip "C12345              ".toList) = .ok (prn2sat .bds 12) := by decide +kernel

/-- **variations before the grid**: a line of variations that precedes the zenith angles of its antenna is stored empty -/
theorem no_grid (only : Bool) (s : St) (v : List ℚ) (h : s.on = true) (hn : s.pcv.nv = 0) :
    ∃ s', step only s (.noazi v) = .ok s' ∧ s'.pcv.var.get? s.sig = some [] := by
  refine ⟨_, by simp only [step, h, if_true, inside]; rfl, ?_⟩
  simp only [hn]
  rw [Dict.get?_set_self]
  cases v with
  | nil => simp
  | cons a v => simp [cut]

example : ({ on := true } : St).pcv.nv = 0 := rfl

end Verif.C114
