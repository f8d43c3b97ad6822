import Verif.Spec.DlStream
/-! Invariant of the downlink window. -/
namespace Verif.RlcDl

def idx (sns n : Nat) : Nat := n % sns % ring

theorem mod_inj {sns a b : Nat} (hab : a ≤ b) (hb : b < a + sns) (h : a % sns = b % sns) : a = b := by
  have h1 := Nat.div_add_mod a sns
  have h2 := Nat.div_add_mod b sns
  rw [h] at h1
  have h3 : sns * (b / sns) - sns * (a / sns) = b - a := by omega
  rw [← Nat.mul_sub] at h3
  rcases Nat.eq_zero_or_pos (b / sns - a / sns) with h4 | h4
  · rw [h4] at h3; simp at h3; omega
  · have := Nat.le_mul_of_pos_right sns h4; omega

theorem idx_inj {sns ws a b : Nat} (hc : LegalCfg sns ws) (hab : a ≤ b) (hb : b < a + ws)
    (h : idx sns a = idx sns b) : a = b := by
  unfold idx ring at h
  rcases hc with ⟨rfl, rfl⟩ | ⟨rfl, h1, h2⟩ <;> omega

theorem idx_inj' {sns ws q a b : Nat} (hc : LegalCfg sns ws) (ha : q ≤ a) (ha' : a < q + ws)
    (hb : q ≤ b) (hb' : b < q + ws) (h : idx sns a = idx sns b) : a = b := by
  rcases Nat.le_total a b with h' | h'
  · exact idx_inj hc h' (by omega) h
  · exact (idx_inj hc h' (by omega) h.symm).symm

/-- The oldest outstanding block is `a`, `s` blocks were created. -/
structure Inv (sns : Nat) (w : Win) (a s : Nat) (acked : Nat → Prop) : Prop where
  hsns : w.sns = sns
  cfg : LegalCfg sns w.ws
  hs : w.vs = s % sns
  ha : w.va = a % sns
  le : a ≤ s
  bound : s ≤ a + w.ws
  valid : ∀ n, a ≤ n → n < s → w.vb (idx sns n) ≠ .invalid
  head : a < s → w.vb (idx sns a) ≠ .acked
  ack : ∀ n, a ≤ n → n < s → w.vb (idx sns n) = .acked → acked n
  old : ∀ n, n < a → acked n

theorem cfg_facts {sns ws} (hc : LegalCfg sns ws) : 0 < sns ∧ ws + ws ≤ sns ∧ 0 < ws ∧ ws ≤ ring := by
  unfold ring
  rcases hc with ⟨rfl, rfl⟩ | ⟨rfl, h1, h2⟩ <;> omega

theorem Inv.distance {sns w a s acked} (h : Inv sns w a s acked) : w.distance = s - a := by
  have := cfg_facts h.cfg; have := h.le; have := h.bound
  unfold Win.distance Win.modSns
  rw [h.hsns, h.hs, h.ha]
  have hc := h.cfg
  rcases hc with ⟨rfl, hw⟩ | ⟨rfl, h1, h2⟩ <;> omega

theorem Inv.empty_iff {sns w a s acked} (h : Inv sns w a s acked) : w.empty = true ↔ a = s := by
  have hf := cfg_facts h.cfg; have := h.le; have := h.bound
  unfold Win.empty
  rw [beq_iff_eq, h.hs, h.ha]
  constructor
  · intro e; exact mod_inj h.le (by omega) e.symm
  · rintro rfl; rfl

theorem Inv.stalled_iff {sns w a s acked} (h : Inv sns w a s acked) :
    w.stalled = true ↔ s = a + w.ws := by
  have hd := h.distance
  have := h.le; have := h.bound
  unfold Win.distance at hd
  unfold Win.stalled
  rw [beq_iff_eq, hd]; omega

/-! ### Loops -/

theorem mod_ne {sns ws a s : Nat} (hc : LegalCfg sns ws) (h1 : a < s) (h2 : s ≤ a + ws) :
    a % sns ≠ s % sns := by
  have := cfg_facts hc
  intro h; have := mod_inj (by omega) (by omega) h; omega

theorem resendLoop_spec (w : Win) (ws s : Nat) (hc : LegalCfg w.sns ws) (hs : w.vs = s % w.sns) :
    ∀ (fuel a : Nat), a ≤ s → s ≤ a + ws → s - a ≤ fuel →
    match resendLoop w fuel (a % w.sns) with
    | none => ∀ n, a ≤ n → n < s → w.vb (idx w.sns n) ≠ .nacked ∧ w.vb (idx w.sns n) ≠ .resend
    | some b => ∃ n, a ≤ n ∧ n < s ∧ b = n % w.sns ∧
        (w.vb (idx w.sns n) = .nacked ∨ w.vb (idx w.sns n) = .resend) ∧
        ∀ m, a ≤ m → m < n → w.vb (idx w.sns m) ≠ .nacked ∧ w.vb (idx w.sns m) ≠ .resend := by
  intro fuel
  induction fuel with
  | zero => intro a h1 h2 h3; simp only [resendLoop]; intro n n1 n2; omega
  | succ fuel ih =>
    intro a h1 h2 h3
    simp only [resendLoop]
    by_cases has : a = s
    · subst has; rw [if_pos hs.symm]; intro n n1 n2; omega
    · have hlt : a < s := by omega
      rw [if_neg (by rw [hs]; exact mod_ne hc hlt h2)]
      by_cases hst : w.st (a % w.sns) = .nacked ∨ w.st (a % w.sns) = .resend
      · rw [if_pos hst]
        exact ⟨a, Nat.le_refl _, hlt, rfl, hst, fun m m1 m2 => by omega⟩
      · rw [if_neg hst]
        have hm : w.modSns (a % w.sns + 1) = (a + 1) % w.sns := by simp [Win.modSns]
        rw [hm]
        have hst' : w.vb (idx w.sns a) ≠ .nacked ∧ w.vb (idx w.sns a) ≠ .resend :=
          ⟨fun h => hst (Or.inl h), fun h => hst (Or.inr h)⟩
        have := ih (a + 1) (by omega) (by omega) (by omega)
        revert this
        cases resendLoop w fuel ((a + 1) % w.sns) with
        | none =>
          intro this n n1 n2
          by_cases hn : n = a
          · subst hn; exact hst'
          · exact this n (by omega) n2
        | some b =>
          rintro ⟨n, n1, n2, n3, n4, n5⟩
          refine ⟨n, by omega, n2, n3, n4, ?_⟩
          intro m m1 m2
          by_cases hn : m = a
          · subst hn; exact hst'
          · exact n5 m (by omega) m2

theorem mark_apply (vb : Nat → St) (bsn : Nat) (s : St) (i : Nat) :
    mark vb bsn s i = if i = bsn % ring then s else vb i := rfl

theorem markResendLoop_spec (ws s : Nat) : ∀ (fuel a : Nat) (w : Win) (c : Nat),
    LegalCfg w.sns ws → w.vs = s % w.sns → a ≤ s → s ≤ a + ws → s - a ≤ fuel →
    ∃ w' c', markResendLoop fuel w (a % w.sns) c = (w', c') ∧
      w'.sns = w.sns ∧ w'.ws = w.ws ∧ w'.vs = w.vs ∧ w'.va = w.va ∧
      (∀ n, a ≤ n → n < s → w'.vb (idx w.sns n) =
        if w.vb (idx w.sns n) = .unacked then .resend else w.vb (idx w.sns n)) ∧
      c ≤ c' ∧ (c' = c ↔ ∀ n, a ≤ n → n < s → w.vb (idx w.sns n) ≠ .unacked) ∧
      (∀ i, (∀ n, a ≤ n → n < s → i ≠ idx w.sns n) → w'.vb i = w.vb i) := by
  intro fuel
  induction fuel with
  | zero =>
    intro a w c hc hs h1 h2 h3
    refine ⟨w, c, rfl, rfl, rfl, rfl, rfl, fun n n1 n2 => by omega, Nat.le_refl _, ?_, fun i _ => rfl⟩
    exact ⟨fun _ n n1 n2 => by omega, fun _ => rfl⟩
  | succ fuel ih =>
    intro a w c hc hs h1 h2 h3
    simp only [markResendLoop]
    by_cases has : a = s
    · subst has; rw [if_pos hs.symm]
      refine ⟨w, c, rfl, rfl, rfl, rfl, rfl, fun n n1 n2 => by omega, Nat.le_refl _, ?_, fun i _ => rfl⟩
      exact ⟨fun _ n n1 n2 => by omega, fun _ => rfl⟩
    · have hlt : a < s := by omega
      rw [if_neg (by rw [hs]; exact mod_ne hc hlt h2)]
      have hm : w.modSns (a % w.sns + 1) = (a + 1) % w.sns := by simp [Win.modSns]
      rw [hm]
      have hne : ∀ n, a + 1 ≤ n → n < s → idx w.sns n ≠ idx w.sns a := by
        intro n n1 n2 h
        have := idx_inj hc (by omega : a ≤ n) (by omega) h.symm; omega
      by_cases hst : w.st (a % w.sns) = .unacked
      · rw [if_pos hst]
        have hst : w.vb (idx w.sns a) = .unacked := hst
        have hmv : ∀ i, mark w.vb (a % w.sns) .resend i = if i = idx w.sns a then .resend else w.vb i :=
          fun i => rfl
        obtain ⟨w', c', e, e1, e2, e3, e4, e5, e6, e7, e8⟩ :=
          ih (a + 1) { w with vb := mark w.vb (a % w.sns) .resend } (c + 1) hc hs (by omega) (by omega) (by omega)
        dsimp only at e e1 e2 e3 e4 e5 e6 e7 e8
        refine ⟨w', c', e, e1, e2, e3, e4, ?_, by omega, ?_, ?_⟩
        · intro n n1 n2
          by_cases hn : n = a
          · subst hn
            rw [e8 _ (fun m m1 m2 => (hne m m1 m2).symm), hmv, if_pos rfl, if_pos hst]
          · have hh : mark w.vb (a % w.sns) .resend (idx w.sns n) = w.vb (idx w.sns n) := by
              rw [hmv, if_neg (hne n (by omega) n2)]
            rw [e5 n (by omega) n2]; simp only [hh]
        · constructor
          · intro h; omega
          · intro h; exact absurd hst (h a (Nat.le_refl _) hlt)
        · intro i hi
          rw [e8 i (fun n n1 n2 => hi n (by omega) n2), hmv, if_neg (hi a (Nat.le_refl _) hlt)]
      · rw [if_neg hst]
        have hst : w.vb (idx w.sns a) ≠ .unacked := hst
        obtain ⟨w', c', e, e1, e2, e3, e4, e5, e6, e7, e8⟩ :=
          ih (a + 1) w c hc hs (by omega) (by omega) (by omega)
        refine ⟨w', c', e, e1, e2, e3, e4, ?_, e6, ?_, ?_⟩
        · intro n n1 n2
          by_cases hn : n = a
          · subst hn
            rw [e8 _ (fun m m1 m2 => (hne m m1 m2).symm), if_neg hst]
          · exact e5 n (by omega) n2
        · rw [e7]
          constructor
          · intro h n n1 n2
            by_cases hn : n = a
            · subst hn; exact hst
            · exact h n (by omega) n2
          · intro h n n1 n2; exact h n (by omega) n2
        · intro i hi
          exact e8 i (fun n n1 n2 => hi n (by omega) n2)

theorem updateLoop_spec (ws a s : Nat) : ∀ (bits : List Bool) (k : Nat) (w : Win) (lost recv : Nat),
    LegalCfg w.sns ws → w.va = a % w.sns → s ≤ a + ws → a ≤ k → k + bits.length ≤ s →
    ∃ w' l r, updateLoop w k bits lost recv = (w', l, r) ∧
      w'.sns = w.sns ∧ w'.ws = w.ws ∧ w'.vs = w.vs ∧ w'.va = w.va ∧
      (∀ n, k ≤ n → n < k + bits.length → w'.vb (idx w.sns n) =
        if bits[n - k]? = some true then .acked else .nacked) ∧
      (∀ i, (∀ n, k ≤ n → n < k + bits.length → i ≠ idx w.sns n) → w'.vb i = w.vb i) ∧
      l = lost + bits.count false := by
  intro bits
  induction bits with
  | nil =>
    intro k w lost recv hc ha h1 h2 h3
    refine ⟨w, lost, recv, rfl, rfl, rfl, rfl, rfl, fun n n1 n2 => by simp at n2; omega, fun i _ => rfl, by simp⟩
  | cons b bits ih =>
    intro k w lost recv hc ha h1 h2 h3
    simp only [List.length_cons] at h3
    have hbsn : w.modSns k ≠ w.modSns (w.va + w.sns - 1) := by
      unfold Win.modSns
      rw [ha]
      rcases hc with ⟨e, rfl⟩ | ⟨e, h1', h2'⟩ <;> rw [e] <;> omega
    have hne : ∀ n, k + 1 ≤ n → n < k + 1 + bits.length → idx w.sns n ≠ idx w.sns k := by
      intro n n1 n2 h
      have := idx_inj hc (by omega : k ≤ n) (by omega) h.symm; omega
    have hmv : ∀ st i, mark w.vb (w.modSns k) st i = if i = idx w.sns k then st else w.vb i :=
      fun _ i => rfl
    have fin : ∀ st lost' recv', st = (if b = true then St.acked else .nacked) →
      lost' = lost + (if b then 0 else 1) →
      ∃ w' l r, updateLoop { w with vb := mark w.vb (w.modSns k) st } (k+1) bits lost' recv' = (w', l, r) ∧
      w'.sns = w.sns ∧ w'.ws = w.ws ∧ w'.vs = w.vs ∧ w'.va = w.va ∧
      (∀ n, k ≤ n → n < k + (bits.length + 1) → w'.vb (idx w.sns n) =
        if (b :: bits)[n - k]? = some true then .acked else .nacked) ∧
      (∀ i, (∀ n, k ≤ n → n < k + (bits.length + 1) → i ≠ idx w.sns n) → w'.vb i = w.vb i) ∧
      l = lost + (b :: bits).count false := by
      intro st lost' recv' hst hlost
      obtain ⟨w', l, r, e, e1, e2, e3, e4, e5, e6, e7⟩ :=
        ih (k+1) { w with vb := mark w.vb (w.modSns k) st } lost' recv' hc ha h1 (by omega) (by omega)
      dsimp only at e1 e2 e3 e4 e5 e6
      refine ⟨w', l, r, e, e1, e2, e3, e4, ?_, ?_, ?_⟩
      · intro n n1 n2
        by_cases hn : n = k
        · subst hn
          rw [e6 _ (fun m m1 m2 => (hne m m1 m2).symm), hmv, if_pos rfl, hst]
          simp
        · rw [e5 n (by omega) (by omega)]
          rw [show n - k = (n - (k+1)) + 1 by omega, List.getElem?_cons_succ]
      · intro i hi
        rw [e6 i (fun n n1 n2 => hi n (by omega) (by omega)), hmv, if_neg (hi k (Nat.le_refl _) (by omega))]
      · rw [e7, hlost]
        cases b <;> simp <;> omega
    simp only [updateLoop]
    rw [if_neg hbsn]
    cases b with
    | true => exact fin _ _ _ rfl rfl
    | false => exact fin _ _ _ rfl rfl

theorem moveLoop_spec (ws s : Nat) : ∀ (fuel a : Nat) (w : Win) (m : Nat),
    LegalCfg w.sns ws → w.vs = s % w.sns → a ≤ s → s ≤ a + ws → s - a ≤ fuel →
    ∃ w' k, moveLoop fuel w (a % w.sns) m = (w', m + k) ∧ a + k ≤ s ∧
      w'.sns = w.sns ∧ w'.ws = w.ws ∧ w'.vs = w.vs ∧ w'.va = w.va ∧
      (∀ n, a ≤ n → n < a + k → w.vb (idx w.sns n) = .acked) ∧
      (∀ n, a + k ≤ n → n < s → w'.vb (idx w.sns n) = w.vb (idx w.sns n)) ∧
      (a + k < s → w.vb (idx w.sns (a + k)) ≠ .acked) := by
  intro fuel
  induction fuel with
  | zero =>
    intro a w m hc hs h1 h2 h3
    exact ⟨w, 0, rfl, by omega, rfl, rfl, rfl, rfl, fun n n1 n2 => by omega, fun n _ _ => rfl, fun h => by omega⟩
  | succ fuel ih =>
    intro a w m hc hs h1 h2 h3
    simp only [moveLoop]
    by_cases has : a = s
    · subst has; rw [if_pos hs.symm]
      exact ⟨w, 0, rfl, by omega, rfl, rfl, rfl, rfl, fun n n1 n2 => by omega, fun n _ _ => rfl, fun h => by omega⟩
    · have hlt : a < s := by omega
      rw [if_neg (by rw [hs]; exact mod_ne hc hlt h2)]
      have hm : w.modSns (a % w.sns + 1) = (a + 1) % w.sns := by simp [Win.modSns]
      rw [hm]
      by_cases hst : w.st (a % w.sns) = .acked
      · rw [if_pos hst]
        have hst : w.vb (idx w.sns a) = .acked := hst
        have hne : ∀ n, a + 1 ≤ n → n < s → idx w.sns n ≠ idx w.sns a := by
          intro n n1 n2 h
          have := idx_inj hc (by omega : a ≤ n) (by omega) h.symm; omega
        have hmv : ∀ i, mark w.vb (a % w.sns) .invalid i = if i = idx w.sns a then .invalid else w.vb i :=
          fun i => rfl
        obtain ⟨w', k, e, e0, e1, e2, e3, e4, e5, e6, e7⟩ :=
          ih (a + 1) { w with vb := mark w.vb (a % w.sns) .invalid } (m + 1) hc hs (by omega) (by omega) (by omega)
        dsimp only at e e1 e2 e3 e4 e5 e6 e7
        refine ⟨w', k + 1, by rw [e]; congr 1; omega, by omega, e1, e2, e3, e4, ?_, ?_, ?_⟩
        · intro n n1 n2
          by_cases hn : n = a
          · subst hn; exact hst
          · have := e5 n (by omega) (by omega)
            rw [hmv, if_neg (hne n (by omega) (by omega))] at this; exact this
        · intro n n1 n2
          rw [e6 n (by omega) n2, hmv, if_neg (hne n (by omega) n2)]
        · intro h
          have := e7 (by omega)
          rw [hmv, if_neg (hne _ (by omega) (by omega))] at this
          rw [show a + (k + 1) = a + 1 + k by omega]; exact this
      · rw [if_neg hst]
        exact ⟨w, 0, rfl, by omega, rfl, rfl, rfl, rfl, fun n n1 n2 => by omega, fun n _ _ => rfl, fun _ => hst⟩

/-! ### Preservation -/

theorem Inv.markUnacked {sns w a s acked} (h : Inv sns w a s acked) (n : Nat) (h1 : a ≤ n) (h2 : n < s)
    (st : St) (hst : st ≠ .acked) (hst' : st ≠ .invalid) :
    Inv sns { w with vb := mark w.vb (n % sns) st } a s acked := by
  have hmv : ∀ i, mark w.vb (n % sns) st i = if i = idx sns n then st else w.vb i :=
    fun i => rfl
  refine { h with valid := ?_, head := ?_, ack := ?_ }
  · intro m m1 m2
    dsimp only
    rw [hmv]; split
    · exact hst'
    · exact h.valid m m1 m2
  · intro hl
    dsimp only
    rw [hmv]; split
    · exact hst
    · exact h.head hl
  · intro m m1 m2 m3
    dsimp only at m3
    rw [hmv] at m3; split at m3
    · exact absurd m3 hst
    · exact h.ack m m1 m2 m3

theorem Inv.createNew {sns w a s acked} (h : Inv sns w a s acked) (hns : s < a + w.ws) :
    w.createNew.2 = s % sns ∧ Inv sns w.createNew.1 a (s + 1) acked := by
  have hc := h.cfg
  refine ⟨h.hs, ?_⟩
  have hmv : ∀ i, mark w.vb w.vs .unacked i = if i = idx sns s then .unacked else w.vb i := by
    intro i; rw [h.hs]; rfl
  have hne : ∀ m, a ≤ m → m < s → idx sns m ≠ idx sns s := by
    intro m m1 m2 hh
    have := idx_inj hc (by omega : m ≤ s) (by omega) hh; omega
  refine { hsns := h.hsns, cfg := h.cfg, hs := ?_, ha := h.ha, le := by have := h.le; omega,
           bound := ?_, valid := ?_, head := ?_, ack := ?_, old := h.old }
  · show w.modSns (w.vs + 1) = _
    unfold Win.modSns; rw [h.hsns, h.hs]; simp
  · show s + 1 ≤ a + w.ws
    omega
  · intro m m1 m2
    show mark w.vb w.vs .unacked _ ≠ _
    rw [hmv]; split
    · simp
    · rename_i hh
      by_cases hm : m = s
      · subst hm; exact absurd rfl hh
      · exact h.valid m m1 (by omega)
  · intro hl
    show mark w.vb w.vs .unacked _ ≠ _
    rw [hmv]; split
    · simp
    · rename_i hh
      by_cases hm : a = s
      · subst hm; exact absurd rfl hh
      · exact h.head (by have := h.le; omega)
  · intro m m1 m2 m3
    have m3 : mark w.vb w.vs .unacked (idx sns m) = .acked := m3
    rw [hmv] at m3; split at m3
    · cases m3
    · rename_i hh
      by_cases hm : m = s
      · subst hm; exact absurd rfl hh
      · exact h.ack m m1 (by omega) m3

theorem Inv.resend {sns w a s acked} (h : Inv sns w a s acked) :
    match w.resendNeeded with
    | none => ∀ n, a ≤ n → n < s → w.vb (idx sns n) ≠ .nacked ∧ w.vb (idx sns n) ≠ .resend
    | some b => ∃ n, a ≤ n ∧ n < s ∧ b = n % sns ∧
        (w.vb (idx sns n) = .nacked ∨ w.vb (idx sns n) = .resend) ∧
        ∀ m, a ≤ m → m < n → w.vb (idx sns m) ≠ .nacked ∧ w.vb (idx sns m) ≠ .resend := by
  have hf := cfg_facts h.cfg
  have := h.bound
  have hc := h.cfg
  have hx := resendLoop_spec w w.ws s (by rw [h.hsns]; exact hc) (by rw [h.hsns]; exact h.hs)
    w.sns a h.le h.bound (by rw [h.hsns]; omega)
  unfold Win.resendNeeded
  rw [h.ha]
  simp only [h.hsns] at hx ⊢
  exact hx

/-- `restart_bsn_cycle` when nothing is marked for retransmission. -/
theorem Inv.restart {sns w a s acked} (h : Inv sns w a s acked)
    (hn : ∀ n, a ≤ n → n < s → w.vb (idx sns n) ≠ .nacked ∧ w.vb (idx sns n) ≠ .resend) :
    (a = s ∧ w.restart = (w, false)) ∨
    (a < s ∧ w.restart.2 = true ∧ Inv sns w.restart.1 a s acked ∧ w.restart.1.ws = w.ws ∧
      w.restart.1.resendNeeded = some (a % sns)) := by
  have hf := cfg_facts h.cfg
  have hb := h.bound
  have hc := h.cfg
  by_cases has : a = s
  · left
    refine ⟨has, ?_⟩
    unfold Win.restart; rw [if_pos (h.empty_iff.2 has)]
  · right
    have hlt : a < s := by have := h.le; omega
    obtain ⟨w', c', e, e1, e2, e3, e4, e5, e6, e7, e8⟩ :=
      markResendLoop_spec w.ws s w.sns a w 0 (by rw [h.hsns]; exact hc) (by rw [h.hsns]; exact h.hs)
        h.le h.bound (by rw [h.hsns]; omega)
    have hstate : ∀ n, a ≤ n → n < s → w.vb (idx sns n) = .unacked ∨ w.vb (idx sns n) = .acked := by
      intro n n1 n2
      have := h.valid n n1 n2
      have := hn n n1 n2
      cases hh : w.vb (idx sns n) <;> simp_all
    have hhead : w.vb (idx sns a) = .unacked := by
      rcases hstate a (Nat.le_refl _) hlt with x | x
      · exact x
      · exact absurd x (h.head hlt)
    rw [h.hsns] at e5 e7
    have hcpos : c' ≠ 0 := by
      intro hz
      have := e7.1 hz a (Nat.le_refl _) hlt
      exact this hhead
    have er : w.restart = (w', true) := by
      unfold Win.restart
      have : ¬ (w.empty = true) := fun hh => has (h.empty_iff.1 hh)
      rw [if_neg this]
      unfold Win.markForResend
      rw [h.ha, ← h.hsns, e]
      simp [hcpos]
    have hI : Inv sns w' a s acked := by
      refine { hsns := by rw [e1, h.hsns], cfg := by rw [e2]; exact hc, hs := by rw [e3, h.hs],
               ha := by rw [e4, h.ha], le := h.le, bound := by rw [e2]; exact hb, valid := ?_,
               head := ?_, ack := ?_, old := h.old }
      · intro n n1 n2
        rw [e5 n n1 n2]
        have := h.valid n n1 n2
        split <;> simp_all
      · intro _
        rw [e5 a (Nat.le_refl _) hlt, if_pos hhead]; simp
      · intro n n1 n2 n3
        rw [e5 n n1 n2] at n3
        split at n3
        · cases n3
        · exact h.ack n n1 n2 n3
    rw [er]
    refine ⟨hlt, rfl, hI, e2, ?_⟩
    have hr := hI.resend
    have hra : w'.vb (idx sns a) = .resend := by rw [e5 a (Nat.le_refl _) hlt, if_pos hhead]
    revert hr
    dsimp only
    cases w'.resendNeeded with
    | none => intro hr; exact absurd hra (hr a (Nat.le_refl _) hlt).2
    | some b =>
      rintro ⟨n, n1, n2, n3, n4, n5⟩
      rcases Nat.lt_or_ge a n with hh | hh
      · exact absurd hra (n5 a (Nat.le_refl _) hh).2
      · have : n = a := by omega
        subst this; rw [n3]

/-- `take_next_bsn` when a block is to be resent. -/
theorem takeNext_resend (f : Nat) (e : Env) (w : Win) (b : Nat) (h : w.resendNeeded = some b) :
    (takeNext (f+1) e w = some (w, none) ∧ e.prev.isSome) ∨
    (takeNext (f+1) e w = some ({ w with vb := mark w.vb b .unacked }, some (b, .resend)) ∧
      ∀ p, e.prev = some p → p ≠ b ∧ w.modSns (b + w.sns - p) ≤ maxDelta ∧ e.prevEdge = true ∧
        (e.len p > 0 → e.len p = e.len b)) := by
  simp only [takeNext, h]
  cases hp : e.prev with
  | none => simp
  | some p =>
    simp only [Option.isSome_some, true_and]
    by_cases h1 : e.prevEdge = true
    · rw [if_neg (by simp [h1])]
      by_cases h2 : p = b
      · left; simp [h2]
      · rw [if_neg h2]
        by_cases h3 : w.modSns (b + w.sns - p) > maxDelta
        · left; simp [h3]
        · rw [if_neg h3]
          by_cases h4 : e.len p > 0 ∧ e.len p ≠ e.len b
          · left; simp [h4]
          · rw [if_neg h4]
            right
            refine ⟨rfl, ?_⟩
            intro p' hp'
            injection hp' with hp'
            subst hp'
            refine ⟨h2, by omega, h1, ?_⟩
            intro hl
            rcases Nat.decEq (e.len p) (e.len b) with x | x
            · exact absurd ⟨hl, x⟩ h4
            · exact x
    · left; rw [if_pos h1]; simp

/-- The TBF situation asks for going through the unacknowledged blocks again. -/
def Env.again (e : Env) (stalled empty : Prop) : Prop :=
  e.finished = true ∨ stalled ∨ (e.haveData = false ∧ e.preempt = true ∧ ¬ empty)

/-- Complete characterisation of `take_next_bsn` under the invariant. -/
theorem takeNext_spec {sns w a s acked} (h : Inv sns w a s acked) (e : Env) :
    ∃ w' r, takeNext 2 e w = some (w', r) ∧ w'.ws = w.ws ∧
      Inv sns w' a (s + (if isNew r then 1 else 0)) acked ∧
      match r with
      | none => e.prev.isSome
      | some (b, .resend) => ∃ n, a ≤ n ∧ n < s ∧ b = n % sns ∧ e.prev ≠ some b ∧
          w.vb (idx sns n) ≠ .acked ∧ w'.vb (idx sns n) = .unacked ∧
          ((w.vb (idx sns n) = .nacked ∨ w.vb (idx sns n) = .resend) ∧
            (∀ m, a ≤ m → m < n → w.vb (idx sns m) ≠ .nacked ∧ w.vb (idx sns m) ≠ .resend)
          ∨ n = a ∧ e.again (s = a + w.ws) (a = s) ∧
            (∀ m, a ≤ m → m < s → w.vb (idx sns m) ≠ .nacked ∧ w.vb (idx sns m) ≠ .resend))
      | some (b, .final) => a = s ∧ b = (s + sns - 1) % sns ∧ e.finished = true ∧ w' = w
      | some (b, y) => b = s % sns ∧ s < a + w.ws ∧ e.finished = false ∧
          (∀ m, a ≤ m → m < s → w.vb (idx sns m) ≠ .nacked ∧ w.vb (idx sns m) ≠ .resend) ∧
          (y = .fresh ↔ e.haveData = true) := by
  have hf := cfg_facts h.cfg
  have hres := h.resend
  cases hr : w.resendNeeded with
  | some b =>
    rw [hr] at hres
    obtain ⟨n, n1, n2, n3, n4, n5⟩ := hres
    rcases takeNext_resend 1 e w b hr with ⟨x, y⟩ | ⟨x, y⟩
    · exact ⟨w, none, x, rfl, h, y⟩
    · refine ⟨_, _, x, rfl, ?_, n, n1, n2, n3, ?_, ?_, ?_, Or.inl ⟨n4, n5⟩⟩
      · rw [n3]; exact h.markUnacked n n1 n2 .unacked (by simp) (by simp)
      · intro hh; exact (y b hh).1 rfl
      · rcases n4 with z | z <;> rw [z] <;> simp
      · show mark w.vb b .unacked (idx sns n) = _
        rw [n3]; simp [mark, idx]
  | none =>
    rw [hr] at hres
    -- the retry path
    have retry : ∀ (hag : e.again (s = a + w.ws) (a = s))
        (hpe : ¬ (e.prev.isSome ∧ ¬ e.prevEdge = true)) (hfin : a = s → e.finished = true),
        ∃ w' r, (if w.restart.2 = true then takeNext 1 e w.restart.1
            else some (w.restart.1, some (w.restart.1.modSns (w.restart.1.vs + w.restart.1.sns - 1), Why.final)))
              = some (w', r) ∧ w'.ws = w.ws ∧
        Inv sns w' a (s + (if isNew r then 1 else 0)) acked ∧
        match r with
        | none => e.prev.isSome
        | some (b, .resend) => ∃ n, a ≤ n ∧ n < s ∧ b = n % sns ∧ e.prev ≠ some b ∧
            w.vb (idx sns n) ≠ .acked ∧ w'.vb (idx sns n) = .unacked ∧
            ((w.vb (idx sns n) = .nacked ∨ w.vb (idx sns n) = .resend) ∧
              (∀ m, a ≤ m → m < n → w.vb (idx sns m) ≠ .nacked ∧ w.vb (idx sns m) ≠ .resend)
            ∨ n = a ∧ e.again (s = a + w.ws) (a = s) ∧
              (∀ m, a ≤ m → m < s → w.vb (idx sns m) ≠ .nacked ∧ w.vb (idx sns m) ≠ .resend))
        | some (b, .final) => a = s ∧ b = (s + sns - 1) % sns ∧ e.finished = true ∧ w' = w
        | some (b, y) => b = s % sns ∧ s < a + w.ws ∧ e.finished = false ∧
            (∀ m, a ≤ m → m < s → w.vb (idx sns m) ≠ .nacked ∧ w.vb (idx sns m) ≠ .resend) ∧
            (y = .fresh ↔ e.haveData = true) := by
      intro hag hpe hfin
      rcases h.restart hres with ⟨x, y⟩ | ⟨x1, x2, x3, x4, x5⟩
      · rw [y]
        refine ⟨w, _, rfl, rfl, h, x, ?_, hfin x, rfl⟩
        unfold Win.modSns; rw [h.hsns, h.hs]
        have hc := h.cfg
        rcases hc with ⟨rfl, hw⟩ | ⟨rfl, h1, h2⟩ <;> omega
      · rw [if_pos x2]
        rcases takeNext_resend 0 e w.restart.1 _ x5 with ⟨y, z⟩ | ⟨y, z⟩
        · exact ⟨_, none, y, x4, x3, z⟩
        · refine ⟨_, _, y, x4, ?_, a, Nat.le_refl _, x1, rfl, ?_, h.head x1, ?_, Or.inr ⟨rfl, hag, hres⟩⟩
          · exact x3.markUnacked a (Nat.le_refl _) x1 .unacked (by simp) (by simp)
          · intro hh; exact (z _ hh).1 rfl
          · simp [mark, idx]
    simp only [takeNext, hr]
    by_cases hpe : e.prev.isSome = true ∧ ¬ e.prevEdge = true
    · rw [if_pos hpe]
      exact ⟨w, none, rfl, rfl, h, hpe.1⟩
    · rw [if_neg hpe]
      by_cases h1 : e.finished = true
      · rw [if_pos h1]
        exact retry (Or.inl h1) hpe (fun _ => h1)
      · rw [if_neg h1]
        by_cases h2 : w.stalled = true
        · rw [if_pos h2]
          have := h.stalled_iff.1 h2
          exact retry (Or.inr (Or.inl this)) hpe (fun hh => by omega)
        · rw [if_neg h2]
          have hns : s < a + w.ws := by
            have := h.bound
            have : s ≠ a + w.ws := fun hh => h2 (h.stalled_iff.2 hh)
            omega
          obtain ⟨c1, c2⟩ := h.createNew hns
          by_cases h3 : e.haveData = true
          · rw [if_pos h3]
            refine ⟨_, _, rfl, rfl, c2, c1, hns, by simpa using h1, hres, ?_⟩
            simp [h3]
          · rw [if_neg h3]
            by_cases h4 : e.preempt = true ∧ ¬ w.empty = true
            · rw [if_pos h4]
              have hne : ¬ a = s := fun hh => h4.2 (h.empty_iff.2 hh)
              exact retry (Or.inr (Or.inr ⟨by simpa using h3, h4.1, hne⟩)) hpe (fun hh => absurd hh hne)
            · rw [if_neg h4]
              refine ⟨_, _, rfl, rfl, c2, c1, hns, by simpa using h1, hres, ?_⟩
              simp [h3]

theorem Inv.ackNack {sns w a s acked} (h : Inv sns w a s acked) (bits : List Bool) :
    ∃ a', a ≤ a' ∧ a' ≤ s ∧ (w.ackNack w.va bits).ws = w.ws ∧ Inv sns (w.ackNack w.va bits) a' s
      (fun n => acked n ∨ (a ≤ n ∧ n < s ∧ bits[n - a]? = some true)) ∧
      (∀ n, a ≤ n → n < s → (if n < a' then St.acked else (w.ackNack w.va bits).vb (idx sns n)) =
        if n - a < bits.length then (if bits[n - a]? = some true then .acked else .nacked)
        else w.vb (idx sns n)) := by
  have hf := cfg_facts h.cfg
  have hc := h.cfg
  have hle := h.le
  have hb := h.bound
  have hlen : (bits.take w.distance).length ≤ s - a := by
    rw [List.length_take, h.distance]; omega
  -- normalise the start to the absolute number
  have hstart : ∀ (bs : List Bool) (k k' : Nat) (v : Win) (l r : Nat), v.sns = sns → k % sns = k' % sns →
      updateLoop v k bs l r = updateLoop v k' bs l r := by
    intro bs
    induction bs with
    | nil => intros; rfl
    | cons b bs ih =>
      intro k k' v l r hv hk
      have e1 : v.modSns k = v.modSns k' := by unfold Win.modSns; rw [hv]; exact hk
      have hk1 : (k + 1) % sns = (k' + 1) % sns := by
        rw [Nat.add_mod, hk, ← Nat.add_mod]
      have ih2 := fun (v' : Win) l r (hv' : v'.sns = sns) => ih (k+1) (k'+1) v' l r hv' hk1
      simp only [updateLoop, e1]
      split
      · rfl
      · split
        · exact ih2 _ _ _ hv
        · exact ih2 _ _ _ hv
  have hc' : LegalCfg w.sns w.ws := by rw [h.hsns]; exact hc
  obtain ⟨w1, l, r, u, u1, u2, u3, u4, u5, u6, _⟩ :=
    updateLoop_spec w.ws a s (bits.take w.distance) a w 0 0 hc' (by rw [h.hsns]; exact h.ha) hb
      (Nat.le_refl _) (by omega)
  have hup : w.update bits w.va = (w1, l, r) := by
    unfold Win.update
    rw [hstart _ w.va a w 0 0 h.hsns (by rw [h.ha, Nat.mod_mod]), u]
  rw [h.hsns] at u5 u6
  have hst1 : ∀ n, a ≤ n → n < s → w1.vb (idx sns n) =
      if n - a < bits.length then (if bits[n - a]? = some true then .acked else .nacked)
      else w.vb (idx sns n) := by
    intro n n1 n2
    have hl : (bits.take w.distance).length = min (s - a) bits.length := by
      rw [List.length_take, h.distance]
    by_cases hn : n - a < bits.length
    · have e : (bits.take w.distance)[n - a]? = bits[n - a]? := by
        rw [List.getElem?_take, h.distance]
        have : n - a < s - a := by omega
        simp only [this, if_true]
      rw [if_pos hn, u5 n n1 (by omega), e]
    · rw [if_neg hn, u6 _ (by
        intro m m1 m2 hh
        have := idx_inj' hc n1 (by omega) m1 (by omega) hh
        omega)]
  -- states after the update
  have hst : ∀ n, a ≤ n → n < s →
      (w1.vb (idx sns n) = .acked → acked n ∨ (a ≤ n ∧ n < s ∧ bits[n - a]? = some true)) ∧
      w1.vb (idx sns n) ≠ .invalid := by
    intro n n1 n2
    by_cases hn : n < a + (bits.take w.distance).length
    · rw [u5 n n1 hn]
      constructor
      · intro hh
        right
        refine ⟨n1, n2, ?_⟩
        split at hh
        · rename_i hx
          rw [List.getElem?_take] at hx
          split at hx
          · exact hx
          · cases hx
        · cases hh
      · split <;> simp
    · rw [u6 _ (by
        intro m m1 m2 hh
        have := idx_inj' hc n1 (by omega) m1 (by omega) hh
        omega)]
      exact ⟨fun hh => Or.inl (h.ack n n1 n2 hh), h.valid n n1 n2⟩
  obtain ⟨w2, k, v, v0, v1, v2, v3, v4, v5, v6, v7⟩ :=
    moveLoop_spec w.ws s w1.sns a w1 0 (by rw [u1]; exact hc') (by rw [u1, u3, h.hsns]; exact h.hs) hle hb
      (by rw [u1, h.hsns]; omega)
  have hmv : w1.moveWindow = (w2, k) := by
    unfold Win.moveWindow
    rw [u4, h.ha, ← h.hsns, ← u1, v, Nat.zero_add]
  rw [u1, h.hsns] at v5 v6 v7
  have hres : w.ackNack w.va bits = w2.raise k := by
    unfold Win.ackNack; rw [hup]; dsimp only; rw [hmv]
  rw [hres]
  refine ⟨a + k, by omega, v0, by show w2.ws = _; rw [v2, u2], ?_, ?_⟩
  rotate_left
  · intro n n1 n2
    rw [← hst1 n n1 n2]
    by_cases hn : n < a + k
    · rw [if_pos hn, v5 n n1 hn]
    · rw [if_neg hn]; exact v6 n (by omega) n2
  refine { hsns := by show w2.sns = _; rw [v1, u1, h.hsns],
           cfg := by show LegalCfg sns w2.ws; rw [v2, u2]; exact hc,
           hs := by show w2.vs = _; rw [v3, u3, h.hs],
           ha := ?_, le := v0, bound := by show s ≤ a + k + w2.ws; rw [v2, u2]; omega,
           valid := ?_, head := ?_, ack := ?_, old := ?_ }
  · show w2.modSns (w2.va + k) = _
    unfold Win.modSns; rw [v1, u1, h.hsns, v4, u4, h.ha]; simp
  · intro n n1 n2
    show w2.vb _ ≠ _
    rw [v6 n n1 n2]; exact (hst n (by omega) n2).2
  · intro hl
    show w2.vb _ ≠ _
    rw [v6 _ (Nat.le_refl _) hl]; exact v7 hl
  · intro n n1 n2 n3
    have n3 : w2.vb (idx sns n) = .acked := n3
    rw [v6 n n1 n2] at n3
    exact (hst n (by omega) n2).1 n3
  · intro n n1
    by_cases hn : n < a
    · exact Or.inl (h.old n hn)
    · exact (hst n (by omega) (by omega)).1 (v5 n (by omega) n1)

end Verif.RlcDl

namespace Verif.RlcDl

theorem Inv.outside {sns w s acked} (h : Inv sns w s s acked) (b : Nat) (st : St) :
    Inv sns { w with vb := mark w.vb b st } s s acked :=
  { h with valid := fun n n1 n2 => by omega, head := fun h => by omega, ack := fun n n1 n2 => by omega }

theorem mem_ackedBy (s : Sys) (bits : List Bool) (n : Nat) :
    n ∈ ackedBy s bits ↔ s.oldest ≤ n ∧ n < s.oldest + s.win.distance ∧ bits[n - s.oldest]? = some true := by
  unfold ackedBy
  simp only [List.mem_map, List.mem_filter, List.mem_range, decide_eq_true_eq]
  constructor
  · rintro ⟨j, ⟨j1, j2⟩, rfl⟩
    exact ⟨by omega, by omega, by rw [Nat.add_sub_cancel_left]; exact j2⟩
  · rintro ⟨h1, h2, h3⟩
    exact ⟨n - s.oldest, ⟨by omega, h3⟩, by omega⟩

theorem reach_inv {sns ws : Nat} (hc : LegalCfg sns ws) {s : Sys} (h : Reach sns ws s) :
    Inv sns s.win s.oldest s.created (· ∈ s.acked) := by
  induction h with
  | start =>
    have hd : (Win.init sns ws).distance = 0 := by
      unfold Win.distance Win.modSns Win.init; simp
    show Inv sns (Win.init sns ws) (0 - (Win.init sns ws).distance) 0 _
    rw [hd]
    exact { hsns := rfl, cfg := hc, hs := by simp [Win.init], ha := by simp [Win.init], le := Nat.le_refl _,
            bound := by omega, valid := fun n n1 n2 => by omega, head := fun h => by omega,
            ack := fun n n1 n2 => by omega, old := fun n n1 => by omega }
  | @step s t _ hst ih =>
    -- from an invariant with any `a` to the invariant with `oldest`
    have close : ∀ (t : Sys) (a : Nat), Inv sns t.win a t.created (· ∈ t.acked) →
        Inv sns t.win t.oldest t.created (· ∈ t.acked) := by
      intro t a ht
      have hd := ht.distance
      have := ht.le
      have : t.oldest = a := by unfold Sys.oldest; omega
      rw [this]; exact ht
    cases hst with
    | take e w' r he =>
      obtain ⟨w2, r2, x1, x2, x3, _⟩ := takeNext_spec ih e
      rw [he] at x1
      injection x1 with x1; injection x1 with x4 x5
      subst x4; subst x5
      exact close _ s.oldest x3
    | takeHalf e w' b y he =>
      obtain ⟨w2, r2, x1, x2, x3, x4⟩ := takeNext_spec ih e
      rw [he] at x1
      injection x1 with x1; injection x1 with x5 x6
      subst x5; subst x6
      refine close _ s.oldest ?_
      show Inv sns (w'.markFirstSegment b) _ _ _
      unfold Win.markFirstSegment
      cases y with
      | resend =>
        obtain ⟨n, n1, n2, n3, _⟩ := x4
        rw [n3]; exact x3.markUnacked n n1 (by simpa [isNew] using n2) .nacked (by simp) (by simp)
      | fresh =>
        obtain ⟨n3, _⟩ := x4
        rw [n3]; exact x3.markUnacked s.created ih.le (by simp [isNew]) .nacked (by simp) (by simp)
      | dummy =>
        obtain ⟨n3, _⟩ := x4
        rw [n3]; exact x3.markUnacked s.created ih.le (by simp [isNew]) .nacked (by simp) (by simp)
      | final =>
        obtain ⟨n3, _⟩ := x4
        simp only [isNew, Bool.false_eq_true, if_false, Nat.add_zero] at x3 ⊢
        rw [n3] at x3 ⊢
        exact x3.outside b .nacked
    | ack bits =>
      obtain ⟨a', a1, a2, a3, a4, _⟩ := ih.ackNack bits
      refine close _ a' ?_
      have : (fun n => n ∈ s.acked ∨ (s.oldest ≤ n ∧ n < s.created ∧ bits[n - s.oldest]? = some true)) =
          (· ∈ s.acked ++ ackedBy s bits) := by
        funext n; apply propext
        rw [List.mem_append, mem_ackedBy]
        have := ih.distance; have := ih.le
        rw [show s.oldest + s.win.distance = s.created by omega]
      rw [this] at a4; exact a4
    | finalAck =>
      refine close _ 0 ?_
      exact
        { hsns := ih.hsns
          cfg := ih.cfg
          hs := by simp [Win.reset]
          ha := by simp [Win.reset]
          le := Nat.le_refl _
          bound := by simp
          valid := fun n n1 n2 => absurd n2 (Nat.not_lt_zero _)
          head := fun h => absurd h (Nat.not_lt_zero _)
          ack := fun n n1 n2 => absurd n2 (Nat.not_lt_zero _)
          old := fun n n1 => absurd n1 (Nat.not_lt_zero _) }
    | setWs ws' h1 h2 h3 h4 =>
      refine close _ s.oldest ?_
      have hs : sns = 2048 := by rw [← ih.hsns]; exact h1
      have := ih.distance; have := ih.le
      exact { ih with cfg := Or.inr ⟨hs, h2, h3⟩
                      bound := by show s.created ≤ s.oldest + ws'; omega }

end Verif.RlcDl
