import Verif.Model.Osnma
import Verif.Lemmas.Post
/-! Which fields of the OSNMA decoder state each stage can change.  `erase… s` replaces the fields
a stage may change by constants; a stage that satisfies `erase… s' = erase… s` leaves every other
field alone. -/

namespace Verif.Osnma
variable {PK : Type}

/-- fields written while decoding the HKROOT message -/
def eraseHk (s : St PK) : St PK :=
  { s with rootLoaded := false, pkrUpdated := false, cid0 := 0, dsm := [], flgDsm := [], nb := [],
           did0 := 0, nmaHeader := 0, pkid := 0, hf := 0, mf := 0, ks := 0, ts := 0, maclt := 0,
           wn := 0, towh := 0, alp := [], ds := [], kroot := [], pkList := [] }

/-- fields written by the tag verification -/
def eraseTag (s : St PK) : St PK :=
  { s with vstatus := [], tagList := [], prnA := none, utcVerified := false, posAuth := false,
           nsat := 0, cnt := fun _ => 0 }

theorem decodeDsmKroot_erase (p : Prim PK) (s : St PK) (did : Nat) :
    Post (decodeDsmKroot p s did) (fun r => eraseHk r.1 = eraseHk s) := by
  unfold decodeDsmKroot
  refine Post.bind_any fun d => ?_
  refine Post.bind_any fun nb => ?_
  refine Post.bind_any fun pkid => ?_
  refine Post.bind_any fun hf => ?_
  refine Post.bind_any fun mf => ?_
  refine Post.bind_any fun ks => ?_
  refine Post.bind_any fun ts => ?_
  refine Post.bind_any fun maclt => ?_
  refine Post.bind_any fun wn => ?_
  refine Post.bind_any fun towh => ?_
  refine Post.bind_any fun lk => ?_
  refine Post.ite (fun _ => Post.pure rfl) fun _ => ?_
  refine Post.bind_any fun r => ?_
  exact Post.ite (fun _ => Post.pure rfl) fun _ => Post.pure rfl

theorem decodeDsmPkr_erase (p : Prim PK) (s : St PK) (did : Nat) :
    Post (decodeDsmPkr p s did) (fun r => eraseHk r.1 = eraseHk s) := by
  unfold decodeDsmPkr
  refine Post.bind_any fun d => ?_
  refine Post.bind_any fun nb => ?_
  refine Post.bind_any fun mid => ?_
  refine Post.ite (fun _ => Post.pure rfl) fun _ => ?_
  refine Post.bind_any fun npkt => ?_
  refine Post.bind_any fun npkid => ?_
  refine Post.ite (fun _ => Post.pure rfl) fun _ => ?_
  refine Post.bind_any fun lnpk => ?_
  refine Post.ite (fun _ => Post.pure rfl) fun _ => ?_
  refine Post.bind_any fun m0 => ?_
  refine Post.bind_any fun ok => ?_
  refine Post.ite (fun _ => Post.pure rfl) fun _ => ?_
  refine Post.bind_any fun x => ?_
  refine Post.bind_any fun x => ?_
  refine Post.ite (fun _ => Post.pure rfl) fun _ => ?_
  refine Post.bind_any fun pk => ?_
  exact Post.pure rfl

/-- the decoder proper leaves the block store alone -/
def SameStore (s t : St PK) : Prop :=
  t.dsm = s.dsm ∧ t.flgDsm = s.flgDsm ∧ t.nb = s.nb ∧ t.cid0 = s.cid0

theorem decodeDsmKroot_store (p : Prim PK) (s : St PK) (did : Nat) :
    Post (decodeDsmKroot p s did) (fun r => SameStore s r.1) := by
  unfold decodeDsmKroot
  refine Post.bind_any fun d => ?_
  refine Post.bind_any fun nb => ?_
  refine Post.bind_any fun pkid => ?_
  refine Post.bind_any fun hf => ?_
  refine Post.bind_any fun mf => ?_
  refine Post.bind_any fun ks => ?_
  refine Post.bind_any fun ts => ?_
  refine Post.bind_any fun maclt => ?_
  refine Post.bind_any fun wn => ?_
  refine Post.bind_any fun towh => ?_
  refine Post.bind_any fun lk => ?_
  refine Post.ite (fun _ => Post.pure ⟨rfl, rfl, rfl, rfl⟩) fun _ => ?_
  refine Post.bind_any fun r => ?_
  exact Post.ite (fun _ => Post.pure ⟨rfl, rfl, rfl, rfl⟩) fun _ => Post.pure ⟨rfl, rfl, rfl, rfl⟩

theorem decodeDsmPkr_store (p : Prim PK) (s : St PK) (did : Nat) :
    Post (decodeDsmPkr p s did) (fun r => SameStore s r.1) := by
  unfold decodeDsmPkr
  refine Post.bind_any fun d => ?_
  refine Post.bind_any fun nb => ?_
  refine Post.bind_any fun mid => ?_
  refine Post.ite (fun _ => Post.pure ⟨rfl, rfl, rfl, rfl⟩) fun _ => ?_
  refine Post.bind_any fun npkt => ?_
  refine Post.bind_any fun npkid => ?_
  refine Post.ite (fun _ => Post.pure ⟨rfl, rfl, rfl, rfl⟩) fun _ => ?_
  refine Post.bind_any fun lnpk => ?_
  refine Post.ite (fun _ => Post.pure ⟨rfl, rfl, rfl, rfl⟩) fun _ => ?_
  refine Post.bind_any fun m0 => ?_
  refine Post.bind_any fun ok => ?_
  refine Post.ite (fun _ => Post.pure ⟨rfl, rfl, rfl, rfl⟩) fun _ => ?_
  refine Post.bind_any fun x => ?_
  refine Post.bind_any fun x => ?_
  refine Post.ite (fun _ => Post.pure ⟨rfl, rfl, rfl, rfl⟩) fun _ => ?_
  refine Post.bind_any fun pk => ?_
  exact Post.pure ⟨rfl, rfl, rfl, rfl⟩

theorem hkInit_erase (s : St PK) (did : Nat) : eraseHk (hkInit s did) = eraseHk s := by
  unfold hkInit; split <;> rfl

theorem hkChain_erase (s : St PK) (cid did : Nat) : eraseHk (hkChain s cid did) = eraseHk s := by
  unfold hkChain; split <;> dsimp only <;> split <;> rfl

theorem hkPut_erase (s : St PK) (did bid : Nat) (data : BitBuf) :
    Post (hkPut s did bid data) (fun r => eraseHk r.1 = eraseHk s) := by
  unfold hkPut
  refine Post.bind_any fun d => ?_
  refine Post.bind_any fun f => ?_
  refine Post.bind_any fun h2 => ?_
  refine Post.bind_any fun nb => ?_
  refine Post.pure ?_
  dsimp only
  split <;> rfl

theorem hkStore_erase (s : St PK) (hk : BitBuf) :
    Post (hkStore s hk) (fun r => eraseHk r.1 = eraseHk s) := by
  unfold hkStore
  refine Post.bind_any fun h0 => ?_
  refine Post.bind_any fun nmas => ?_
  refine Post.bind_any fun cid => ?_
  refine Post.bind_any fun cpks => ?_
  refine Post.bind_any fun did => ?_
  refine Post.bind_any fun bid => ?_
  refine Post.ite (fun _ => Post.pure rfl) fun _ => ?_
  refine Post.ite (fun _ => Post.pure rfl) fun _ => ?_
  refine (hkPut_erase _ did bid _).mono fun r hr => ?_
  rw [hr, hkChain_erase, hkInit_erase]
  rfl

theorem decodeHk_erase (p : Prim PK) (s : St PK) (hk : BitBuf) :
    Post (decodeHk p s hk) (fun r => eraseHk r.1 = eraseHk s) := by
  unfold decodeHk
  refine Post.bind (hkStore_erase s hk) fun r hr => ?_
  obtain ⟨t, o⟩ := r
  cases o with
  | none => exact Post.pure hr
  | some did =>
    refine Post.bind (Q := fun r : St PK × Bool => eraseHk r.1 = eraseHk s) ?_ fun r hr => ?_
    · exact Post.ite (fun _ => (decodeDsmKroot_erase p _ did).mono fun a ha => ha.trans hr)
        (fun _ => (decodeDsmPkr_erase p _ did).mono fun a ha => ha.trans hr)
    · obtain ⟨t, b⟩ := r
      exact Post.ite (fun _ => Post.pure hr) fun _ => Post.pure hr

theorem verifyRootKey_cases (p : Prim PK) (s : St PK) :
    Post (verifyRootKey p s) (fun r => r.1 = s ∧ r.2 = false ∨
      (r.1 = { s with rootVerified := true } ∧ r.2 = true ∧ s.rootLoaded = true ∧
        ∃ lk d pk, pyGetI klenT s.ks = .ok lk ∧ s.dsm.get? s.did0 = some d ∧
          s.pkList.get? s.pkid = some (some pk) ∧
          p.sig pk s.ds (rootMsg s (lk / 8) d) s.hf = .ok true)) := by
  unfold verifyRootKey
  refine Post.ite (fun _ => Post.pure (Or.inl ⟨rfl, rfl⟩)) fun hl => ?_
  refine Post.bind (Q := fun lk => pyGetI klenT s.ks = .ok lk) ⟨fun _ h => h⟩ fun lk hlk => ?_
  refine Post.bind (Q := fun d => s.dsm.get? s.did0 = some d)
    ⟨fun d h => (Dict.getItem_ok_iff _ _ _).1 h⟩ fun d hd => ?_
  refine Post.ite (fun _ => Post.throw) fun _ => ?_
  split
  · exact Post.pure (Or.inl ⟨rfl, rfl⟩)
  · exact Post.throw
  · rename_i pk hpk
    refine Post.bind (Q := fun r => p.sig pk s.ds (rootMsg s (lk / 8) d) s.hf = .ok r)
      ⟨fun _ h => h⟩ fun r hr => ?_
    refine Post.ite (fun h => Post.pure (Or.inr ?_)) fun _ => Post.pure (Or.inl ⟨rfl, rfl⟩)
    refine ⟨rfl, rfl, by simpa using hl, lk, d, pk, hlk, hd, hpk, ?_⟩
    rw [hr, h]

theorem rootStage_cases (p : Prim PK) (s : St PK) :
    Post (rootStage p s) (fun t => t = s ∨
      (t = { s with rootVerified := true } ∧ s.rootLoaded = true ∧
        ∃ lk d pk, pyGetI klenT s.ks = .ok lk ∧ s.dsm.get? s.did0 = some d ∧
          s.pkList.get? s.pkid = some (some pk) ∧
          p.sig pk s.ds (rootMsg s (lk / 8) d) s.hf = .ok true)) := by
  unfold rootStage
  refine Post.ite (fun _ => ?_) fun _ => Post.pure (Or.inl rfl)
  refine Post.bind (verifyRootKey_cases p s) fun r hr => ?_
  obtain ⟨t, b⟩ := r
  refine Post.pure ?_
  rcases hr with h | h
  · exact Or.inl h.1
  · exact Or.inr ⟨h.1, h.2.2⟩

theorem decodeMack_eq (s : St PK) (prn : Nat) :
    Post (decodeMack s prn) (fun t => ∃ lt lk, pyGetI tagLenT s.ts = .ok lt ∧
      pyGetI klenT s.ks = .ok lk ∧
      t = { s with nt := (480 - lk) / (lt + 16),
                   tag := slice (s.mackP prn) 0 ((lt + 16) / 8 * ((480 - lk) / (lt + 16))),
                   keyP := slice (s.mackP prn) ((lt + 16) / 8 * ((480 - lk) / (lt + 16)))
                     ((lt + 16) / 8 * ((480 - lk) / (lt + 16)) + lk / 8),
                   keyC := slice (s.mackC prn) ((lt + 16) / 8 * ((480 - lk) / (lt + 16)))
                     ((lt + 16) / 8 * ((480 - lk) / (lt + 16)) + lk / 8) }) := by
  unfold decodeMack
  refine Post.bind (Q := fun lt => pyGetI tagLenT s.ts = .ok lt) ⟨fun _ h => h⟩ fun lt hlt => ?_
  refine Post.bind (Q := fun lk => pyGetI klenT s.ks = .ok lk) ⟨fun _ h => h⟩ fun lk hlk => ?_
  exact Post.pure ⟨lt, lk, hlt, hlk, rfl⟩

/-- key chain stage: either nothing to do, or failure clears the flag, or success installs the key -/
theorem chainStage_cases (p : Prim PK) (s : St PK) (gw : Int) :
    Post (chainStage p s gw) (fun t =>
      (t = s ∧ (s.rootVerified = false ∨ s.gstSf = s.gstSfC)) ∨
      (t = { s with chainVerified := false }) ∨
      (t = { s with chainVerified := true, gstSfC := s.gstSf, key := s.keyC } ∧
        s.rootVerified = true ∧
        (s.chainVerified = true ∧ updateKeyChain p s s.keyC gw s.gstTow 1 = .ok s.keyP ∨
         s.chainVerified = false ∧
          updateKeyChain p s s.keyC gw s.gstTow (stepsToRoot s gw) = .ok s.kroot))) := by
  unfold chainStage
  refine Post.ite (fun hc => ?_) fun hc => Post.pure (Or.inl ⟨rfl, ?_⟩)
  · obtain ⟨h1, h2⟩ := hc
    unfold verifyKeyChain
    rw [if_neg (by simpa using h1)]
    refine Post.bind (Q := fun r : St PK × Bool => r.1 = { s with chainVerified := r.2 } ∧
        (r.2 = true → (s.chainVerified = true ∧ updateKeyChain p s s.keyC gw s.gstTow 1 = .ok s.keyP ∨
         s.chainVerified = false ∧
          updateKeyChain p s s.keyC gw s.gstTow (stepsToRoot s gw) = .ok s.kroot))) ?_ fun r hr => ?_
    · refine Post.bind (Q := fun r : Bool => r = true →
        (s.chainVerified = true ∧ updateKeyChain p s s.keyC gw s.gstTow 1 = .ok s.keyP ∨
         s.chainVerified = false ∧
          updateKeyChain p s s.keyC gw s.gstTow (stepsToRoot s gw) = .ok s.kroot)) ?_ fun r hr => ?_
      · refine Post.ite (fun hv => ?_) fun hv => ?_
        · refine Post.bind (Q := fun k => updateKeyChain p s s.keyC gw s.gstTow 1 = .ok k)
            ⟨fun _ h => h⟩ fun k hk => Post.pure fun h => Or.inl ⟨hv, ?_⟩
          rw [hk, of_decide_eq_true h]
        · refine Post.bind (Q := fun k =>
            updateKeyChain p s s.keyC gw s.gstTow (stepsToRoot s gw) = .ok k)
            ⟨fun _ h => h⟩ fun k hk => Post.pure fun h => Or.inr ⟨by simpa using hv, ?_⟩
          rw [hk, of_decide_eq_true h]
      · exact Post.pure ⟨rfl, hr⟩
    · obtain ⟨t, b⟩ := r
      refine Post.pure ?_
      obtain ⟨e, hr⟩ := hr
      simp only at e hr
      subst e
      cases b with
      | false => exact Or.inr (Or.inl rfl)
      | true => exact Or.inr (Or.inr ⟨rfl, h1, hr rfl⟩)
  · by_cases h1 : s.rootVerified = true
    · right
      by_contra h2
      exact hc ⟨h1, h2⟩
    · left; simpa using h1

theorem saveAuthNav_erase (s : St PK) (r : Bool) (t : Tag) :
    eraseTag (saveAuthNav s r t).1 = eraseTag s ∧ (saveAuthNav s r t).1.cnt = s.cnt := by
  unfold saveAuthNav; split <;> exact ⟨rfl, rfl⟩

theorem slowAppend_erase (s : St PK) (k : Nat) (tag : BitBuf) (prnD adkd : Nat) :
    Post (slowAppend s k tag prnD adkd) (fun t => eraseTag t = eraseTag s ∧ t.cnt = s.cnt) := by
  unfold slowAppend
  refine Post.ite (fun _ => ?_) fun _ => Post.pure ⟨rfl, rfl⟩
  refine Post.bind_any fun _ => ?_
  refine Post.bind_any fun _ => ?_
  refine Post.bind_any fun _ => ?_
  exact Post.pure ⟨rfl, rfl⟩

theorem tagStep_erase (p : Prim PK) (r : St PK × Bool) (k : Nat) :
    Post (tagStep p r k) (fun t => eraseTag t.1 = eraseTag r.1 ∧ t.1.cnt = r.1.cnt) := by
  unfold tagStep
  obtain ⟨s, st⟩ := r
  refine Post.bind_any fun a => ?_
  obtain ⟨tag, prnD, adkd⟩ := a
  refine Post.bind (slowAppend_erase s k tag prnD adkd) fun s1 h1 => ?_
  refine Post.bind_any fun nav => ?_
  split
  · exact Post.pure h1
  · refine Post.bind_any fun a => ?_
    refine Post.bind_any fun t => ?_
    refine Post.bind_any fun res => ?_
    have h2 := saveAuthNav_erase s1 res t
    generalize saveAuthNav s1 res t = x at h2 ⊢
    obtain ⟨s2, st2⟩ := x
    refine Post.pure ?_
    simp only
    split
    · exact ⟨h2.1.trans h1.1, h2.2.trans h1.2⟩
    · exact ⟨h2.1.trans h1.1, h2.2.trans h1.2⟩

theorem slowLoop_erase (p : Prim PK) : ∀ (n : Nat) (l : List Tag) (s : St PK) (st : Bool),
    l.length ≤ n →
    Post (slowLoop p l s st) (fun r => eraseTag r.1 = eraseTag s ∧ r.1.cnt = s.cnt) := by
  intro n
  induction n with
  | zero =>
    intro l s st hl
    rw [List.length_eq_zero_iff.1 (by omega : l.length = 0)]
    exact Post.pure ⟨rfl, rfl⟩
  | succ n ih =>
    intro l s st hl
    match l with
    | [] => exact Post.pure ⟨rfl, rfl⟩
    | t :: rest =>
      unfold slowLoop
      refine Post.bind_any fun dt => ?_
      refine Post.ite (fun _ => ?_) fun _ => ?_
      · refine Post.bind_any fun res => ?_
        have h2 := saveAuthNav_erase { s with prnA := some t.prnA } res t
        refine Post.bind (ih rest _ _ (by simpa using hl)) fun r hr => ?_
        exact Post.pure ⟨hr.1.trans h2.1, hr.2.trans h2.2⟩
      · refine Post.ite (fun _ => ?_) fun _ => ?_
        · match rest with
          | [] => exact Post.pure ⟨rfl, rfl⟩
          | y :: rest' =>
            exact Post.bind (ih rest' _ _ (by simp at hl ⊢; omega)) fun r hr => Post.pure hr
        · exact Post.bind (ih rest _ _ (by simpa using hl)) fun r hr => Post.pure hr

theorem tagStage_erase (p : Prim PK) (s : St PK) (prn : Nat) :
    Post (tagStage p s prn) (fun r => eraseTag r.1 = eraseTag s ∧
      r.1.cnt = fun k => if k = prn then 0 else s.cnt k) := by
  unfold tagStage
  refine Post.bind (Q := fun r : St PK × Bool => eraseTag r.1 = eraseTag s ∧ r.1.cnt = s.cnt)
    ?_ fun r hr => ?_
  · refine Post.foldlM (I := fun r : St PK × Bool => eraseTag r.1 = eraseTag s ∧ r.1.cnt = s.cnt) ?_
      ⟨rfl, rfl⟩
    intro a k _ ha
    exact (tagStep_erase p a k).mono fun b hb => ⟨hb.1.trans ha.1, hb.2.trans ha.2⟩
  · obtain ⟨s1, st⟩ := r
    refine Post.bind (Q := fun r : St PK × Bool => eraseTag r.1 = eraseTag s ∧ r.1.cnt = s.cnt)
      ?_ fun r2 hr2 => ?_
    · refine Post.ite (fun _ => ?_) fun _ => Post.pure hr
      refine Post.bind (slowLoop_erase p _ _ _ _ (Nat.le_refl _)) fun r3 hr3 => ?_
      exact Post.pure ⟨hr3.1.trans hr.1, hr3.2.trans hr.2⟩
    · refine Post.pure ⟨hr2.1, ?_⟩
      simp only [hr2.2]

theorem authStage_erase (p : Prim PK) (s : St PK) (gw : Int) (prn : Nat) :
    Post (authStage p s gw prn) (fun r => ∃ sf, eraseTag r.1 = eraseTag { s with gstSfP := sf } ∧
      (r.1.cnt = s.cnt ∨ r.1.cnt = fun k => if k = prn then 0 else s.cnt k)) := by
  unfold authStage
  refine Post.bind_any fun sf => ?_
  refine Post.bind_any fun r => ?_
  refine Post.ite (fun _ => Post.pure ⟨sf, rfl, Or.inl rfl⟩) fun _ => ?_
  refine Post.bind_any fun r => ?_
  refine Post.ite (fun _ => Post.pure ⟨sf, rfl, Or.inl rfl⟩) fun _ => ?_
  exact (tagStage_erase p { s with gstSfP := sf } prn).mono fun r hr => ⟨sf, hr.1, Or.inr hr.2⟩

/-- a processed sub-frame leaves the page buffers alone -/
theorem subframe_pages (p : Prim PK) (s : St PK) (gw : Int) (prn : Nat) :
    Post (subframe p s gw prn) (fun r => r.1.hk = s.hk ∧ r.1.mack = s.mack ∧
      (r.1.cnt = s.cnt ∨ r.1.cnt = fun k => if k = prn then 0 else s.cnt k)) := by
  unfold subframe
  refine Post.bind (Q := fun t : St PK => t.hk = s.hk ∧ t.mack = s.mack ∧ t.cnt = s.cnt) ?_
    fun t1 h1 => ?_
  · unfold subframe1
    refine Post.bind (decodeHk_erase p (saveMack s prn) _) fun r hr => ?_
    obtain ⟨t, b⟩ := r
    have e1 := congrArg St.hk hr
    have e2 := congrArg St.mack hr
    have e3 := congrArg St.cnt hr
    exact Post.pure ⟨e1, e2, e3⟩
  · refine Post.bind (Q := fun t : St PK => t.hk = s.hk ∧ t.mack = s.mack ∧ t.cnt = s.cnt)
      ((rootStage_cases p t1).mono ?_) fun t2 h2 => ?_
    · rintro t (rfl | ⟨rfl, _⟩) <;> exact h1
    · refine Post.ite (fun _ => Post.pure ⟨h2.1, h2.2.1, Or.inl h2.2.2⟩) fun _ => ?_
      refine Post.bind (Q := fun t : St PK => t.hk = s.hk ∧ t.mack = s.mack ∧ t.cnt = s.cnt)
        ((decodeMack_eq t2 prn).mono ?_) fun t3 h3 => ?_
      · rintro t ⟨lt, lk, _, _, rfl⟩; exact h2
      · refine Post.bind (Q := fun t : St PK => t.hk = s.hk ∧ t.mack = s.mack ∧ t.cnt = s.cnt)
          ((chainStage_cases p t3 gw).mono ?_) fun t4 h4 => ?_
        · rintro t (⟨rfl, _⟩ | rfl | ⟨rfl, _⟩) <;> exact h3
        · refine Post.ite (fun _ => Post.pure ⟨h4.1, h4.2.1, Or.inl h4.2.2⟩) fun _ => ?_
          refine (authStage_erase p t4 gw prn).mono ?_
          rintro r ⟨sf, he, hc⟩
          have e1 := congrArg St.hk he
          have e2 := congrArg St.mack he
          refine ⟨Eq.trans e1 h4.1, Eq.trans e2 h4.2.1, ?_⟩
          rw [← h4.2.2]; exact hc

end Verif.Osnma
