import Verif.Lemmas.Osnma
import Mathlib.Data.List.Induction
/-! Histories of calls of the OSNMA decoder, and byte-slot lemmas. -/

namespace Verif.Osnma
variable {PK : Type}

/-- what a program using the decoder can do between construction and a query -/
inductive Op (PK : Type) where
  /-- `decode(nma_b, wn, tow, prn)` -/
  | page (nma : BitBuf) (wn tow prn : Nat)
  /-- `save_gal_inav(nav, prn, tow)` -/
  | nav (word : BitBuf) (prn tow : Nat)
  /-- `osnma.prn_a = prn` -/
  | setPrn (prn : Nat)
  /-- `osnma.flg_slowmac = b` -/
  | setSlow (b : Bool)
  /-- `load_pubkey_pkid(path, pkid)` of a file holding `pk` -/
  | loadKey (pk : PK) (pkid : Nat)

def step (p : Prim PK) (s : St PK) : Op PK → Py (St PK)
  | .page nma wn tow prn => do
    let (s, _) ← decode p s nma wn tow prn
    pure s
  | .nav w prn tow => saveGalInav s w prn tow
  | .setPrn a => pure { s with prnA := some a }
  | .setSlow b => pure { s with flgSlow := b }
  | .loadKey pk i => pure (loadPubkey s pk i)

/-- a history of calls, none of which raised -/
def run (p : Prim PK) (s : St PK) (h : List (Op PK)) : Py (St PK) := h.foldlM (step p) s

theorem run_append (p : Prim PK) (s : St PK) (h1 h2 : List (Op PK)) :
    run p s (h1 ++ h2) = run p s h1 >>= fun t => run p t h2 := by
  simp [run, List.foldlM_append]

theorem run_snoc (p : Prim PK) {s t : St PK} {h : List (Op PK)} {o : Op PK}
    (hr : run p s (h ++ [o]) = .ok t) : ∃ m, run p s h = .ok m ∧ step p m o = .ok t := by
  rw [run_append] at hr
  obtain ⟨m, hm, h2⟩ := Py.bind_ok.1 hr
  refine ⟨m, hm, ?_⟩
  simp only [run, List.foldlM_cons, List.foldlM_nil] at h2
  obtain ⟨x, hx, h3⟩ := Py.bind_ok.1 h2
  rw [Py.pure_ok] at h3
  rw [hx, h3]

/-- induction over the calls of a history -/
theorem run_induction (p : Prim PK) (s0 : St PK) (I : List (Op PK) → St PK → Prop) (h0 : I [] s0)
    (hs : ∀ h s o t, run p s0 h = .ok s → I h s → step p s o = .ok t → I (h ++ [o]) t) :
    ∀ h s, run p s0 h = .ok s → I h s := by
  intro h
  induction h using List.reverseRecOn with
  | nil =>
    intro s hr
    simp only [run, List.foldlM_nil] at hr
    rw [Py.pure_ok] at hr
    exact hr ▸ h0
  | append_singleton h o ih =>
    intro s hr
    obtain ⟨m, hm, h2⟩ := run_snoc p hr
    exact hs h m o s hm (ih m hm) h2

/-! ### slots of a buffer -/

theorem splice_slot (b f : BitBuf) (i n : Nat) (hf : f.length = n) (h : i + n ≤ b.length) :
    ((splice b i f).drop i).take n = f := by
  unfold splice
  rw [List.append_assoc, List.drop_left' (by simp; omega), List.take_left' hf]

theorem splice_other (b f : BitBuf) (i n j m : Nat) (hf : f.length = n) (h : i + n ≤ b.length)
    (hd : j + m ≤ i ∨ i + n ≤ j) :
    ((splice b i f).drop j).take m = (b.drop j).take m := by
  apply List.ext_getElem?
  intro k
  rw [List.getElem?_take, List.getElem?_take]
  split
  · rename_i hk
    rw [List.getElem?_drop, List.getElem?_drop, splice_getElem? b i f (by omega)]
    have : ¬ (i ≤ j + k ∧ j + k < i + f.length) := by omega
    simp [this]
  · rfl

/-- a buffer of `m` slots of `n` bits is the concatenation of its slots -/
theorem slots_concat (n : Nat) : ∀ (m : Nat) (b : BitBuf), b.length = n * m →
    b = (List.range m).flatMap fun k => (b.drop (n * k)).take n := by
  intro m
  induction m with
  | zero => intro b h; simpa using h
  | succ m ih =>
    intro b h
    rw [List.range_succ, List.flatMap_append]
    have h1 := ih (b.take (n * m)) (by rw [List.length_take, h]; exact Nat.min_eq_left (Nat.mul_le_mul_left n (Nat.le_succ m)))
    have h2 : (List.range m).flatMap (fun k => ((b.take (n * m)).drop (n * k)).take n)
        = (List.range m).flatMap fun k => (b.drop (n * k)).take n := by
      have : ∀ k ∈ List.range m, ((b.take (n * m)).drop (n * k)).take n = (b.drop (n * k)).take n := by
        intro k hk
        rw [List.mem_range] at hk
        rw [List.drop_take, List.take_take]
        congr 1
        have : n * (k + 1) ≤ n * m := Nat.mul_le_mul_left n hk
        rw [Nat.mul_add] at this
        omega
      simp only [List.flatMap_def]
      rw [List.map_congr_left this]
    rw [h2] at h1
    rw [← h1]
    simp only [List.flatMap_cons, List.flatMap_nil, List.append_nil]
    have h3 : (b.drop (n * m)).take n = b.drop (n * m) := by
      apply List.take_of_length_le
      rw [List.length_drop, h, Nat.mul_add]; omega
    rw [h3, List.take_append_drop]

end Verif.Osnma
