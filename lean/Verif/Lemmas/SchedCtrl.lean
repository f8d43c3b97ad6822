import Verif.Lemmas.Sched
/-!
# Lemmas about the choice of the control message
-/

namespace Verif.Sched

open Verif.Cs

/-- TBFs are told apart by direction and identifier. -/
def Ids (e : Env) : Prop :=
  ∀ a ∈ refs e.trxUl e.trxDl, ∀ b ∈ refs e.trxUl e.trxDl, a.up = b.up → a.t.id = b.t.id → a = b

theorem foldl_last (p : Ref → Bool) : ∀ (l : List Ref) (a : Option Ref),
    (l.foldl (fun a r => if p r then some r else a) a = a ∧ ∀ r ∈ l, p r = false) ∨
    ∃ l1 r l2, l = l1 ++ r :: l2 ∧ p r = true ∧ (∀ x ∈ l2, p x = false) ∧
      l.foldl (fun a r => if p r then some r else a) a = some r := by
  intro l
  induction l with
  | nil => intro a; exact .inl ⟨rfl, fun r hr => by cases hr⟩
  | cons b l ih =>
    intro a
    rw [List.foldl_cons]
    rcases ih (if p b then some b else a) with ⟨h1, h2⟩ | ⟨l1, r, l2, h1, h2, h3, h4⟩
    · rw [h1]
      cases hb : p b with
      | true => exact .inr ⟨[], b, l, rfl, hb, h2, by simp⟩
      | false =>
        refine .inl ⟨by simp, fun r hr => ?_⟩
        rcases List.mem_cons.1 hr with rfl | h
        · exact hb
        · exact h2 r h
    · exact .inr ⟨b :: l1, r, l2, by rw [h1]; rfl, h2, h3, h4⟩

theorem cand_some {ul dl : List CtlT} {k : CK} {r : Ref} (h : cand ul dl k = some r) :
    ∃ l1 l2, refs ul dl = l1 ++ r :: l2 ∧ r.rts k = true ∧ ∀ x ∈ l2, x.rts k = false := by
  unfold cand at h
  rcases foldl_last (Ref.rts k) (refs ul dl) none with ⟨h1, _⟩ | ⟨l1, r', l2, h1, h2, h3, h4⟩
  · rw [h1] at h; cases h
  · rw [h4] at h; cases h
    exact ⟨l1, l2, h1, h2, h3⟩

theorem cand_mem {ul dl : List CtlT} {k : CK} {r : Ref} (h : cand ul dl k = some r) :
    r ∈ refs ul dl ∧ r.rts k = true := by
  obtain ⟨l1, l2, h1, h2, _⟩ := cand_some h
  exact ⟨by rw [h1]; simp, h2⟩

theorem cand_none {ul dl : List CtlT} {k : CK} (h : cand ul dl k = none) : ∀ r ∈ refs ul dl, r.rts k = false := by
  unfold cand at h
  rcases foldl_last (Ref.rts k) (refs ul dl) none with ⟨_, h2⟩ | ⟨_, r', _, _, _, _, h4⟩
  · exact h2
  · rw [h4] at h; cases h

theorem same_eq {e : Env} (hi : Ids e) {k : CK} {r : Ref} (hr : r ∈ refs e.trxUl e.trxDl) :
    same (cand e.trxUl e.trxDl k) r = true ↔ cand e.trxUl e.trxDl k = some r := by
  unfold same
  cases hc : cand e.trxUl e.trxDl k with
  | none => simp
  | some x =>
    simp only [Bool.and_eq_true, beq_iff_eq, Option.some.injEq]
    exact ⟨fun h => hi x (cand_mem hc).1 r hr h.1 h.2, fun h => by rw [h]; exact ⟨rfl, rfl⟩⟩

theorem entryKind_same {cd : CK → Option Ref} {r : Ref} {k : CK} (h : entryKind cd r = some k) :
    same (cd k) r = true := by
  unfold entryKind at h
  repeat' split at h
  all_goals first
    | (cases h; simp_all)
    | cases h

theorem entry_cd {cd : CK → Option Ref} {i : Nat} {r : Ref} (h : entry cd i = some r) : ∃ k, cd k = some r := by
  unfold entry at h
  split at h
  · exact ⟨_, h⟩
  · exact ⟨_, h⟩
  · exact ⟨_, h⟩
  · exact ⟨_, h⟩

theorem entry_idx (cd : CK → Option Ref) (k : CK) (i : Nat) (h : i % 4 = k.idx) : entry cd i = cd k := by
  unfold entry
  rw [h]
  cases k <;> rfl

theorem tryEntry_some {mk : CK → Ref → Bool} {cd : CK → Option Ref} {i : Nat} {k : CK} {r : Ref}
    (h : tryEntry mk cd i = some (k, r)) : entry cd i = some r ∧ entryKind cd r = some k ∧ mk k r = true := by
  unfold tryEntry at h
  cases he : entry cd i with
  | none => rw [he] at h; cases h
  | some x =>
    rw [he] at h
    simp only [Option.bind_some] at h
    cases hk : entryKind cd x with
    | none => rw [hk] at h; cases h
    | some q =>
      rw [hk] at h
      simp only [Option.bind_some] at h
      split at h
      · cases h; exact ⟨rfl, hk, by assumption⟩
      · cases h

theorem ctrlLoop_some {mk : CK → Ref → Bool} {cd : CK → Option Ref} : ∀ (n i : Nat) {x : CK × Ref},
    ctrlLoop mk cd n i = some x → ∃ j, tryEntry mk cd j = some x := by
  intro n
  induction n with
  | zero => intro i x h; cases h
  | succ n ih =>
    intro i x h
    unfold ctrlLoop at h
    cases ht : tryEntry mk cd i with
    | some y => rw [ht] at h; cases h; exact ⟨i, ht⟩
    | none => rw [ht] at h; exact ih _ h

theorem ctrlLoop_none {mk : CK → Ref → Bool} {cd : CK → Option Ref} : ∀ (n i : Nat),
    ctrlLoop mk cd n i = none → ∀ j < n, tryEntry mk cd (i + j) = none := by
  intro n
  induction n with
  | zero => intro i _ j hj; omega
  | succ n ih =>
    intro i h j hj
    unfold ctrlLoop at h
    cases ht : tryEntry mk cd i with
    | some y => rw [ht] at h; cases h
    | none =>
      rw [ht] at h
      cases j with
      | zero => exact ht
      | succ j => rw [show i + (j + 1) = i + 1 + j by omega]; exact ih _ h j (by omega)

theorem ctrlLoop_kind {mk : CK → Ref → Bool} {cd : CK → Option Ref} {i : Nat} (h : ctrlLoop mk cd 4 i = none) (k : CK) :
    ∀ r, cd k = some r → ∀ k', entryKind cd r = some k' → mk k' r = false := by
  intro r hr k' hk'
  have ht := ctrlLoop_none 4 i h ((k.idx + 4 - i % 4) % 4) (Nat.mod_lt _ (by decide))
  have hk4 : k.idx < 4 := by cases k <;> decide
  have he : entry cd (i + (k.idx + 4 - i % 4) % 4) = some r := by rw [entry_idx cd k _ (by omega), hr]
  unfold tryEntry at ht
  rw [he] at ht
  simp only [Option.bind_some] at ht
  rw [hk'] at ht
  simp only [Option.bind_some] at ht
  split at ht
  · cases ht
  · (rename_i hq; simpa using hq)

/-- No mobile with a TBF waits for application information. -/
def NoApp (e : Env) (a : App) : Prop := ∀ r ∈ refs e.trxUl e.trxDl, a.flag r.t.ms = false

theorem schedApp_no {e : Env} {a : App} (h : NoApp e a) :
    schedApp a (cand e.trxUl e.trxDl .dlAss) = (none, a) := by
  unfold schedApp
  cases hc : cand e.trxUl e.trxDl .dlAss with
  | none => rfl
  | some r => simp [h r (cand_mem hc).1]

theorem ctrlFallback_some {mk : CK → Ref → Bool} {cd : CK → Option Ref} {k : CK} {r : Ref}
    (h : ctrlFallback mk cd = some (k, r)) : cd k = some r ∧ mk k r = true := by
  unfold ctrlFallback at h
  cases hd : cd .dlAss with
  | some x =>
    rw [hd] at h
    simp only at h
    split at h
    · cases h; exact ⟨hd, by assumption⟩
    · cases h
  | none =>
    rw [hd] at h
    simp only at h
    cases hu : cd .ulAss with
    | some x =>
      rw [hu] at h
      simp only at h
      split at h
      · cases h; exact ⟨hu, by assumption⟩
      · cases h
    | none => rw [hu] at h; cases h

/-- What a control message that is chosen tells. -/
theorem selCtrl_msg {e : Env} (hi : Ids e) {next n : Nat} {a a' : App} {k : CK} {r : Ref}
    (h : selCtrl e next a = (some (.msg k r), n, a')) :
    cand e.trxUl e.trxDl k = some r ∧ e.can k r = true := by
  unfold selCtrl at h
  dsimp only at h
  generalize hs : schedApp a (cand e.trxUl e.trxDl .dlAss) = q at h
  obtain ⟨m, a1⟩ := q
  cases m with
  | some m => cases h
  | none =>
    simp only at h
    cases hl : ctrlLoop e.can (cand e.trxUl e.trxDl) 4 next with
    | some x =>
      obtain ⟨k', r'⟩ := x
      rw [hl] at h
      cases h
      obtain ⟨j, hj⟩ := ctrlLoop_some 4 next hl
      obtain ⟨h1, h2, h3⟩ := tryEntry_some hj
      obtain ⟨k2, hk2⟩ := entry_cd h1
      exact ⟨(same_eq hi (cand_mem hk2).1).1 (entryKind_same h2), h3⟩
    | none =>
      rw [hl] at h
      simp only at h
      cases hf : ctrlFallback e.can (cand e.trxUl e.trxDl) with
      | some x =>
        obtain ⟨k', r'⟩ := x
        rw [hf] at h
        cases h
        exact ctrlFallback_some hf
      | none =>
        rw [hf] at h
        simp only at h
        split at h <;> cases h

/-- A message can only fail to be chosen if one that is pending cannot be built. -/
theorem selCtrl_none {e : Env} {next n : Nat} {a a' : App} (hn : NoApp e a) {m : Option Ctrl}
    (h : selCtrl e next a = (m, n, a')) (hm : ∀ k r, m ≠ some (.msg k r)) :
    m = (if e.paging then some .paging else none) ∧
    ((∃ k r, r ∈ refs e.trxUl e.trxDl ∧ r.rts k = true) →
      ∃ k r, r ∈ refs e.trxUl e.trxDl ∧ r.rts k = true ∧ e.can k r = false) := by
  unfold selCtrl at h
  dsimp only at h
  rw [schedApp_no hn] at h
  simp only at h
  cases hl : ctrlLoop e.can (cand e.trxUl e.trxDl) 4 next with
  | some x =>
    obtain ⟨k', r'⟩ := x
    rw [hl] at h
    cases h
    exact absurd rfl (hm k' r')
  | none =>
    rw [hl] at h
    simp only at h
    cases hf : ctrlFallback e.can (cand e.trxUl e.trxDl) with
    | some x =>
      obtain ⟨k', r'⟩ := x
      rw [hf] at h
      cases h
      exact absurd rfl (hm k' r')
    | none =>
      rw [hf] at h
      cases h
      refine ⟨rfl, fun ⟨k, r, hr, hk⟩ => ?_⟩
      have bad : ∀ k r, cand e.trxUl e.trxDl k = some r → e.can k r = false →
          ∃ k r, r ∈ refs e.trxUl e.trxDl ∧ r.rts k = true ∧ e.can k r = false :=
        fun k r h1 h2 => ⟨k, r, (cand_mem h1).1, (cand_mem h1).2, h2⟩
      -- an assignment that is pending cannot be built
      cases hd : cand e.trxUl e.trxDl .dlAss with
      | some x =>
        refine bad .dlAss x hd ?_
        unfold ctrlFallback at hf
        rw [hd] at hf
        simp only at hf
        split at hf
        · cases hf
        · (rename_i hq; simpa using hq)
      | none =>
        cases hu : cand e.trxUl e.trxDl .ulAss with
        | some x =>
          refine bad .ulAss x hu ?_
          unfold ctrlFallback at hf
          rw [hd, hu] at hf
          simp only at hf
          split at hf
          · cases hf
          · (rename_i hq; simpa using hq)
        | none =>
          cases ha : cand e.trxUl e.trxDl .ulAck with
          | some x =>
            refine bad .ulAck x ha (ctrlLoop_kind hl .ulAck x ha .ulAck ?_)
            unfold entryKind
            rw [hd, hu, ha]
            simp [same]
          | none =>
            cases hc : cand e.trxUl e.trxDl .nacc with
            | some x =>
              refine bad .nacc x hc (ctrlLoop_kind hl .nacc x hc .nacc ?_)
              unfold entryKind
              rw [hd, hu, ha, hc]
              simp [same]
            | none =>
              exfalso
              cases k with
              | ulAss => rw [cand_none hu r hr] at hk; cases hk
              | dlAss => rw [cand_none hd r hr] at hk; cases hk
              | ulAck => rw [cand_none ha r hr] at hk; cases hk
              | nacc => rw [cand_none hc r hr] at hk; cases hk

/-- The block of a request in terms of `selCtrl`. -/
theorem rts_ctrl {c : Cfg} {e : Env} {s s1 : St} {o : Out} (h : rts c e s = some (s1, o)) :
    s1.nextCtrl = (selCtrl e s.nextCtrl s.app).2.1 ∧ s1.app = (selCtrl e s.nextCtrl s.app).2.2 ∧
    (∀ m, o.blk = .ctrl m ↔ (selCtrl e s.nextCtrl s.app).1 = some m) := by
  obtain ⟨b, hb, rfl, rfl⟩ := rts_some h
  refine ⟨(selBlock_ctrl hb).1, (selBlock_ctrl hb).2, fun m => ?_⟩
  rcases selBlock_some hb with ⟨m', h1, h3, _, _⟩ | ⟨tfi, t, x, h1, _, _, h4, _⟩ | ⟨h1, _, h3, _⟩
  · dsimp only
    rw [h3, h1]
    constructor <;> (intro h; cases h; rfl)
  · dsimp only
    rw [h4, h1]
    constructor <;> (intro h; cases h)
  · dsimp only
    rw [h3, h1]
    unfold idleBlock
    constructor
    · intro h; split at h <;> cases h
    · intro h; cases h

end Verif.Sched
