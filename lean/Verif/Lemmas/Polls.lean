import Verif.Spec.Polls
import Verif.Lemmas.Ulc
import Verif.Lemmas.Class
import Verif.Lemmas.WorldOps
/-!
# Uplink blocks promised to TBFs: invariant
-/

namespace Verif.Polls

open Verif.Alloc Verif.Ulc

/-! ## Allocation -/

/-- The first common slot is one of the slots assigned. -/
theorem allocate_fct {algo : Algo} {dflt : Nat} {bts : Nat → Trx} {dis : Bool} {ms : Ms} {req : Req} {r : Res}
    (hm : MsOk bts ms) (h : (allocate algo dflt bts dis ms req).1 = some r) : r.mask.testBit r.fct = true := by
  rcases allocate_cases h with h | h
  · obtain ⟨ts, -, -, -, e1, e2, -⟩ := algoA_in h
    rw [e1, e2, testBit_one_shl]
    simp
  · unfold algoB at h
    split at h
    · cases h
    · rename_i t tfi htf
      obtain ⟨-, h2, -, -⟩ := tfiFindFree_spec hm htf
      simp only [] at h
      split at h
      · cases h
      · rename_i rul rdl hres
        obtain ⟨-, -, h7⟩ := algoB_res hm h2 hres
        split at h
        · cases h
        · rename_i sl hsl
          split at h
          · split at h
            · cases h
            · rename_i hz
              cases h
              have := (ffs_spec (m := sl &&& rul) (fun s hs => (h7 s (Or.inl (sub_and_right _ _ s hs))).1) hz).1
              exact sub_and_left _ _ _ this
          · split at h
            · cases h
            · rename_i u hu
              split at h
              · cases h
              · rename_i hz
                cases h
                have := (ffs_spec (m := rdl &&& u) (fun s hs => (h7 s (Or.inr (sub_and_left _ _ s hs))).1) hz).1
                exact sub_and_right _ _ _ this

/-- A mobile without slots, or with slots of that TRX, gets slots of the TRX asked for. -/
theorem allocate_trx {algo : Algo} {dflt : Nat} {bts : Nat → Trx} {dis : Bool} {ms : Ms} {req : Req} {r : Res}
    (hm : MsOk bts ms) (h : (allocate algo dflt bts dis ms req).1 = some r) {u : Nat} (hu : req.useTrx = some u)
    (h8 : u < 8) (ht : ∀ v, ms.trx = some v → v = u) : r.trx = u := by
  cases hv : ms.trx with
  | some v => rw [(allocate_ok hm h).same v hv, ht v hv]
  | none =>
    rcases allocate_cases h with h | h
    · unfold algoA at h
      have hf : findTrx bts ms req = some u := by
        unfold findTrx
        simp only [hv, hu, if_pos h8]
      rw [hf] at h
      simp only [] at h
      split at h
      · cases h
      · split at h
        · cases h
        · split at h
          · cases h
          · cases h; rfl
    · unfold algoB at h
      split at h
      · cases h
      · rename_i t tfi htf
        have htu : t = u := by
          unfold tfiFindFree at htf
          rw [hv] at htf
          exact (btsTfiFindFree_spec htf).2.1 u hu h8
        simp only [] at h
        split at h
        · cases h
        · split at h
          · cases h
          · split at h
            · split at h
              · cases h
              · cases h; exact htu
            · split at h
              · cases h
              · split at h
                · cases h
                · cases h; exact htu

/-- TBF `b` of mobile `m` has just got resources. -/
structure Got (w : World) (m b : Nat) (d : Dir) (t f : Nat) : Prop where
  tbf : ∃ x, w.tbf b = some x ∧ x.ms = m ∧ x.dir = d ∧ x.trx = some t ∧ x.slots f = true
  fct : (w.ms m).fct = some f
  en : (w.pdch t f).enabled = true

theorem allocTbf_spec {cfg : Cfg} {w : World} (h : Inv w) {m : Nat} (hm : m < w.msN) (req : Req) (e : Bool) :
    ∃ w', allocTbf cfg w m req e = some w' ∧ Inv w' ∧ w'.msN = w.msN ∧
      (∀ t s, (w'.pdch t s).enabled = (w.pdch t s).enabled) ∧
      (∀ c, c ≠ w.tbfN → w'.tbf c = w.tbf c) ∧
      ((w'.tbfN = w.tbfN ∧ w'.tbf w.tbfN = none) ∨
       (w'.tbfN = w.tbfN + 1 ∧ ∃ t f, Got w' m w.tbfN req.dir t f ∧
         ∀ u, req.useTrx = some u → u < 8 → (∀ v, (w.ms m).trx = some v → v = u) → t = u)) := by
  have hfresh : w.tbf w.tbfN = none := by
    cases hq : w.tbf w.tbfN with
    | none => rfl
    | some x => exact absurd (h.t.fresh _ x hq) (Nat.lt_irrefl _)
  unfold allocTbf
  simp only []
  split
  · exact ⟨_, rfl, h.fail _ _, rfl, fun _ _ => rfl, fun _ _ => rfl, Or.inl ⟨rfl, hfresh⟩⟩
  · rename_i r hr
    have hok := allocate_ok (h.r.msok m hm) hr
    have hf := allocate_fct (h.r.msok m hm) hr
    generalize hb : (allocate cfg.algo cfg.dflt w.pdch w.disabled (w.ms m) req).2 = b
    obtain ⟨w', x', h1, h2, h3, h4, h5, h6, h7, -, h8, h9⟩ := takeRes_spec (w := newTbf { w with disabled := b } m req.dir e)
      ((h.dis b).newTbf hm req.dir e) (m := m) (b := w.tbfN) (r := r)
      (x := ⟨req.dir, m, e, none, none, fun _ => false, fun _ => 255⟩) hm
      (by simp [newTbf, World.setTbf]) (fun _ => rfl) hok
    refine ⟨w', h1, h2, h3.msN, h3.en, ?_, Or.inr ⟨h3.tbfN, r.trx, r.fct,
      ⟨⟨x', h5, h6, h7, h8, ?_⟩, ?_, ?_⟩, ?_⟩⟩
    · intro c hc
      rw [h3.tbf c hc]
      simp [newTbf, World.setTbf, hc]
    · rw [h9]; exact hf
    · rw [h4]
    · rw [h3.en]; exact (hok.slots _ hf).2.1
    · exact fun u => allocate_trx (h.r.msok m hm) hr

theorem upgrade_spec {cfg : Cfg} {w : World} (h : Inv w) {b : Nat} {x : Tbf} (hx : w.tbf b = some x)
    (hd : x.dir ≠ .ul) :
    ∃ w', upgrade cfg w b = some w' ∧ Inv w' ∧ w'.msN = w.msN ∧ w'.tbfN = w.tbfN ∧
      (∀ t s, (w'.pdch t s).enabled = (w.pdch t s).enabled) ∧
      (∀ c, c ≠ b → w'.tbf c = w.tbf c) ∧
      ((∃ y, w'.tbf b = some y ∧ y.ms = x.ms ∧ y.dir = x.dir ∧ y.trx = none) ∨
       ∃ t f, Got w' x.ms b x.dir t f) := by
  unfold upgrade
  rw [hx]
  simp only []
  rw [if_neg hd]
  obtain ⟨w1, h1, h2, h3, h4⟩ := unlink_spec h.t hx
  rw [h1]
  simp only [Option.bind_some]
  have hlt : x.ms < w1.msN := by rw [h3.msN]; exact h.own b x hx
  have hi : Inv w1 := ⟨h2, h.r.sameR h3, by
    intro c y hy
    by_cases hc : c = b
    · subst hc; rw [h4] at hy; cases hy; exact hlt
    · rw [h3.other c hc] at hy; rw [h3.msN]; exact h.own c y hy⟩
  split
  · exact ⟨_, rfl, hi.fail _ _, h3.msN, h3.tbfN, h3.en, h3.other, Or.inl ⟨_, h4, rfl, rfl, rfl⟩⟩
  · rename_i r hr
    have hok := allocate_ok (hi.r.msok x.ms hlt) hr
    have hf := allocate_fct (hi.r.msok x.ms hlt) hr
    generalize hb : (allocate cfg.algo cfg.dflt w1.pdch w1.disabled (w1.ms x.ms) ⟨x.dir, false, none⟩).2 = bb
    obtain ⟨w', x', k1, k2, k3, k4, k5, k6, k7, -, k8, k9⟩ := takeRes_spec (w := { w1 with disabled := bb }) (hi.dis bb) (m := x.ms)
      (b := b) (r := r) hlt h4 (fun _ => rfl) hok
    refine ⟨w', k1, k2, k3.msN.trans h3.msN, k3.tbfN.trans h3.tbfN, fun t s => (k3.en t s).trans (h3.en t s),
      fun c hc => (k3.tbf c hc).trans (h3.other c hc), Or.inr ⟨r.trx, r.fct, ⟨x', k5, k6, k7, k8, ?_⟩, ?_, ?_⟩⟩
    · rw [k9]; exact hf
    · rw [k4]
    · rw [k3.en]; exact (hok.slots _ hf).2.1

/-- Disabling a PDCH without TBFs. -/
theorem disable_rest {w : World} (h : Inv w) {t s : Nat} (ht : t < 8) (hs : s < 8)
    (hd : (w.pdch t s).enabled = true) (hn : ∀ d i, (w.pdch t s).tbfs d i = none) :
    ∃ w', disablePdch w t s [] = some w' ∧ Inv w' ∧ w'.tbf = w.tbf ∧ w'.tbfN = w.tbfN ∧ w'.msN = w.msN ∧
      ∀ t' s', (w'.pdch t' s').enabled = if t' = t ∧ s' = s then false else (w.pdch t' s').enabled := by
  obtain ⟨w', h1, h2⟩ := disablePdch_inv h [] ht hs hd
  have h1' := h1
  unfold disablePdch at h1
  rw [if_neg (by rw [hd]; simp)] at h1
  have e1 : (List.range 32).foldlM (freeTfi t s) w = some w := by
    have : ∀ l : List Nat, l.foldlM (freeTfi t s) w = some w := by
      intro l
      induction l with
      | nil => rfl
      | cons i l ih =>
        rw [List.foldlM_cons]
        have : freeTfi t s w i = some w := by
          unfold freeTfi
          rw [hn]
          show (some w).bind _ = _
          rw [Option.bind_some, hn]
          rfl
        rw [this]
        exact ih
    exact this _
  rw [e1] at h1
  simp only [Option.bind_some] at h1
  have e2 : ([] : List Nat).foldlM freeExtra w = some w := rfl
  rw [e2] at h1
  simp only [Option.bind_some] at h1
  obtain ⟨w3, e3, i3, s3, N3⟩ := foldlM_range (unreserveMs t s) (fun k v => Inv v ∧ SameT w v ∧
      v.msN = w.msN) w.msN w
    ⟨h, SameT.refl w, rfl⟩ (by
      intro k hk v ⟨v1, v2, v3⟩
      obtain ⟨a, a1, a2, a3, a4, -, -⟩ := unreserveMs_inv v1 (t := t) (s := s) (m := k) ht (by rw [v3]; exact hk)
      exact ⟨a, a1, a2, v2.trans a3, a4.trans v3⟩)
  rw [e3] at h1
  simp only [Option.map_some, Option.some.injEq] at h1
  refine ⟨w', h1', h2, ?_, ?_, ?_, ?_⟩
  · rw [← h1]; exact s3.tbf
  · rw [← h1]; exact s3.tbfN
  · rw [← h1]; exact N3
  · intro t' s'
    rw [← h1]
    simp only [World.setPdch]
    split
    · rfl
    · exact s3.en t' s'

/-! ## Invariant -/

structure CI (c : Cell) : Prop where
  w : Inv c.w
  en : ∀ t s, (c.ulc t s).isSome = (c.w.pdch t s).enabled
  ctrl : ∀ b t s, c.ctrl b = some (t, s) → (∃ x, c.w.tbf b = some x ∧ x.trx = some t ∧
    (x.slots s = true ∨ x.dir = .ul)) ∧ (c.w.pdch t s).enabled = true
  fct : ∀ b x, c.w.tbf b = some x → (c.fct x.ms).isSome
  nodes : ∀ t s l n, c.ulc t s = some l → n ∈ l → InOrder c t s n

theorem CI.ulc_some {c : Cell} (h : CI c) {t s : Nat} (he : (c.w.pdch t s).enabled = true) :
    ∃ l, c.ulc t s = some l := by
  have := h.en t s
  rw [he] at this
  exact Option.isSome_iff_exists.1 this

theorem CI.slot_en {c : Cell} (h : CI c) {b t s : Nat} {x : Tbf} (hx : c.w.tbf b = some x) (ht : x.trx = some t)
    (hs : x.slots s = true) : (c.w.pdch t s).enabled = true := by
  obtain ⟨-, t', i, e1, -, e2⟩ := h.w.t.slots b x s hx hs
  cases hen : (c.w.pdch t s).enabled with
  | true => rfl
  | false =>
    have h1 := (h.w.t.p t s).off hen x.dir i
    have h2 := (h.w.t.on t s x.dir i b).2 ⟨x, hx, rfl, ht, hs, e2⟩
    rw [h1] at h2
    cases h2

/-- The TBFs named by a block, if it is in order, are kept. -/
theorem InOrder.keep {c c' : Cell} {t s : Nat} {n : Node} (h : InOrder c t s n)
    (hk : ∀ b, n.owner.tbf? = some b → (∀ x, c.w.tbf b = some x → c'.w.tbf b = some x) ∧
      (c.ctrl b = some (t, s) → HasSlot c b t s ∨ c'.ctrl b = some (t, s))) : InOrder c' t s n := by
  unfold InOrder at h ⊢
  split
  · trivial
  · rename_i b hb
    rw [hb] at h hk
    obtain ⟨⟨x, h1, h2⟩, y, h3, h4⟩ := h
    have := (hk b rfl).1
    exact ⟨⟨x, this x h1, h2⟩, y, this y h3, h4⟩
  · rename_i b r hb
    rw [hb] at h hk
    obtain ⟨⟨x, h1, h2⟩, h3⟩ := h
    obtain ⟨k1, k2⟩ := hk b rfl
    refine ⟨⟨x, k1 x h1, h2⟩, ?_⟩
    have hs : HasSlot c b t s → HasSlot c' b t s := fun ⟨y, g1, g2⟩ => ⟨y, k1 y g1, g2⟩
    rcases h3 with h3 | h3
    · exact Or.inl (hs h3)
    · rcases k2 h3 with h4 | h4
      · exact Or.inl (hs h4)
      · exact Or.inr h4

theorem InOrder.where {c : Cell} {t s : Nat} {n : Node} (h : InOrder c t s n) {b : Nat}
    (hb : n.owner.tbf? = some b) : (∃ x, c.w.tbf b = some x) ∧ (HasSlot c b t s ∨ c.ctrl b = some (t, s)) := by
  unfold InOrder at h
  split at h
  · rename_i id he; rw [he] at hb; cases hb
  · rename_i b' he
    rw [he] at hb
    cases hb
    obtain ⟨⟨x, h1, -⟩, h2⟩ := h
    exact ⟨⟨x, h1⟩, Or.inl h2⟩
  · rename_i b' r he
    rw [he] at hb
    cases hb
    obtain ⟨⟨x, h1, -⟩, h2⟩ := h
    exact ⟨⟨x, h1⟩, h2⟩

/-- Fewer blocks are promised, nothing else differs except for control slots. -/
structure Less (c c' : Cell) : Prop where
  w : c'.w = c.w
  fct : c'.fct = c.fct
  ex : ∀ t s, (c'.ulc t s).isSome = (c.ulc t s).isSome
  sub : ∀ t s l', c'.ulc t s = some l' → ∃ l, c.ulc t s = some l ∧ ∀ n ∈ l', n ∈ l

theorem Less.refl (c : Cell) : Less c c := ⟨rfl, rfl, fun _ _ => rfl, fun _ _ l h => ⟨l, h, fun _ h => h⟩⟩

theorem Less.trans {a b c : Cell} (h : Less a b) (h' : Less b c) : Less a c :=
  ⟨h'.w.trans h.w, h'.fct.trans h.fct, fun t s => (h'.ex t s).trans (h.ex t s), by
    intro t s l hl
    obtain ⟨l1, h1, h2⟩ := h'.sub t s l hl
    obtain ⟨l2, h3, h4⟩ := h.sub t s l1 h1
    exact ⟨l2, h3, fun n hn => h4 n (h2 n hn)⟩⟩

/-- No block of TBF `b` on the PDCH. -/
def Clean (c : Cell) (b t s : Nat) : Prop := ∀ l n, c.ulc t s = some l → n ∈ l → n.owner.tbf? ≠ some b

theorem Less.clean {c c' : Cell} (h : Less c c') {b t s : Nat} (hc : Clean c b t s) : Clean c' b t s := by
  intro l n hl hn
  obtain ⟨l1, h1, h2⟩ := h.sub t s l hl
  exact hc l1 n h1 (h2 n hn)

theorem relAt_spec (c : Cell) (b t s : Nat) (h : (c.ulc t s).isSome = true) :
    ∃ c', relAt b t c s = some c' ∧ Less c c' ∧ c'.ctrl = c.ctrl ∧ Clean c' b t s := by
  obtain ⟨l, hl⟩ := Option.isSome_iff_exists.1 h
  unfold relAt
  rw [hl]
  have hmem : ∀ n, n ∈ releaseTbf l b → n ∈ l ∧ n.owner.tbf? ≠ some b := by
    intro n hn
    rw [releaseTbf_spec, List.mem_filter] at hn
    simpa using hn
  refine ⟨_, rfl, ⟨rfl, rfl, ?_, ?_⟩, rfl, ?_⟩
  · intro t' s'
    simp only [Cell.setUlc]
    split
    · rename_i hh; rw [hh.1, hh.2, hl]; rfl
    · rfl
  · intro t' s' l' hl'
    simp only [Cell.setUlc] at hl'
    split at hl'
    · rename_i hh
      cases hl'
      exact ⟨l, by rw [hh.1, hh.2]; exact hl, fun n hn => (hmem n hn).1⟩
    · exact ⟨l', hl', fun _ h => h⟩
  · intro l' n hl' hn
    simp only [Cell.setUlc, and_self, if_true] at hl'
    cases hl'
    exact (hmem n hn).2

/-- Giving back all blocks of a TBF. -/
theorem relTbf_spec {c : Cell} (h : CI c) {b : Nat} {x : Tbf} (hx : c.w.tbf b = some x) :
    ∃ c', relTbf c b = some c' ∧ Less c c' ∧ (∀ b', c'.ctrl b' = if b' = b then none else c.ctrl b') ∧
      ∀ t s, Clean c' b t s := by
  have hslot : ∀ s, x.slots s = true → ∃ t, x.trx = some t ∧ (c.w.pdch t s).enabled = true := by
    intro s hs
    obtain ⟨-, t, i, e1, -, -⟩ := h.w.t.slots b x s hx hs
    exact ⟨t, e1, h.slot_en hx e1 hs⟩
  have first : ∃ c1, relCtrl c b = some c1 ∧ Less c c1 ∧ (∀ b', c1.ctrl b' = if b' = b then none else c.ctrl b') ∧
      ∀ t s, c.ctrl b = some (t, s) → Clean c1 b t s := by
    unfold relCtrl
    cases hq : c.ctrl b with
    | none =>
      refine ⟨c, rfl, Less.refl c, ?_, fun t s hc => by cases hc⟩
      intro b'
      split
      · rename_i hb; rw [hb]; exact hq
      · rfl
    | some p =>
      obtain ⟨t, s⟩ := p
      have hen := (h.ctrl b t s hq).2
      obtain ⟨c1, h1, h2, h3, h4⟩ := relAt_spec c b t s (by rw [h.en]; exact hen)
      simp only []
      rw [h1]
      refine ⟨_, rfl, ⟨h2.w, h2.fct, h2.ex, h2.sub⟩, ?_, ?_⟩
      · intro b'
        show (if b' = b then none else c1.ctrl b') = _
        rw [h3]
      · intro t' s' hc
        cases hc
        exact h4
  obtain ⟨c1, e1, l1, r1, k1⟩ := first
  unfold relTbf
  rw [e1]
  simp only [Option.bind_some]
  have hx1 : c1.w.tbf b = some x := by rw [l1.w]; exact hx
  rw [hx1]
  simp only []
  obtain ⟨c2, e2, l2, r2, k2⟩ := foldlM_range (relSlot b x) (fun k v => Less c1 v ∧ v.ctrl = c1.ctrl ∧
      ∀ s, s < k → x.slots s = true → ∀ t, x.trx = some t → Clean v b t s) 8 c1
    ⟨Less.refl c1, rfl, fun s hs => absurd hs (Nat.not_lt_zero s)⟩ (by
      intro k hk v ⟨v1, v2, v3⟩
      unfold relSlot
      cases hs : x.slots k with
      | false =>
        refine ⟨v, by simp, v1, v2, ?_⟩
        intro s hsk hsl
        by_cases hse : s = k
        · rw [hse, hs] at hsl; cases hsl
        · exact v3 s (by omega) hsl
      | true =>
        obtain ⟨t, ht, hen⟩ := hslot k hs
        rw [if_neg (by simp), ht]
        simp only []
        obtain ⟨v', a1, a2, a3, a4⟩ := relAt_spec v b t k (by
          rw [v1.ex, l1.ex, h.en]; exact hen)
        refine ⟨v', a1, v1.trans a2, a3.trans v2, ?_⟩
        intro s hsk hsl t' ht'
        by_cases hse : s = k
        · have : t' = t := by cases ht'; rfl
          rw [hse, this]; exact a4
        · have := v3 s (by omega) hsl t' (by rw [ht]; exact ht')
          exact a2.clean this)
  refine ⟨c2, e2, l1.trans l2, by intro b'; rw [r2]; exact r1 b', ?_⟩
  intro t s l n hl hn hb
  obtain ⟨l0, h0, hsub⟩ := (l1.trans l2).sub t s l hl
  have ho := h.nodes t s l0 n h0 (hsub n hn)
  rcases (ho.where hb).2 with ⟨y, g1, g2, g3⟩ | hc
  · rw [hx] at g1
    cases g1
    exact k2 s ((h.w.t.slots b x s hx g3).1) g3 t g2 l n hl hn hb
  · exact l2.clean (k1 t s hc) l n hl hn hb

/-- Freeing a TBF. -/
theorem freeC_spec {c : Cell} (h : CI c) {b : Nat} {x : Tbf} (hx : c.w.tbf b = some x) :
    ∃ c', freeC c b = some c' ∧ CI c' ∧ SameR b c.w c'.w ∧ c'.w.tbf b = none ∧ c'.fct = c.fct ∧
      (∀ b', c'.ctrl b' = if b' = b then none else c.ctrl b') ∧ (∀ t s, Clean c' b t s) ∧
      ∀ t s l', c'.ulc t s = some l' → ∃ l, c.ulc t s = some l ∧ ∀ n ∈ l', n ∈ l := by
  obtain ⟨c1, h1, h2, h3, h4⟩ := relTbf_spec h hx
  unfold freeC
  rw [h1]
  simp only [Option.bind_some, h2.w]
  obtain ⟨w', k1, k2, k3, k4⟩ := freeExtra_inv h.w b
  have hfr : freeExtra c.w b = freeTbf c.w b := by unfold freeExtra; rw [hx]; rfl
  rw [hfr] at k1
  rw [k1]
  refine ⟨_, rfl, ⟨k2, ?_, ?_, ?_, ?_⟩, k3, k4, h2.fct, h3, h4, h2.sub⟩
  · intro t s
    show (c1.ulc t s).isSome = (w'.pdch t s).enabled
    rw [h2.ex, h.en, k3.en]
  · intro b' t s hc
    have hc' : c1.ctrl b' = some (t, s) := hc
    rw [h3] at hc'
    split at hc'
    · cases hc'
    · rename_i hb
      obtain ⟨g1, g2⟩ := h.ctrl b' t s hc'
      show (∃ x, w'.tbf b' = some x ∧ _) ∧ (w'.pdch t s).enabled = true
      rw [k3.other b' hb, k3.en]
      exact ⟨g1, g2⟩
  · intro b' y hy
    have hy' : w'.tbf b' = some y := hy
    by_cases hb : b' = b
    · rw [hb, k4] at hy'; cases hy'
    · rw [k3.other b' hb] at hy'
      show (c1.fct y.ms).isSome = true
      rw [h2.fct]
      exact h.fct b' y hy'
  · intro t s l n hl hn
    obtain ⟨l0, g1, g2⟩ := h2.sub t s l hl
    refine (h.nodes t s l0 n g1 (g2 n hn)).keep ?_
    intro b' hb'
    have hne : b' ≠ b := by
      intro he
      exact h4 t s l n hl hn (by rw [hb', he])
    refine ⟨fun y hy => ?_, fun hc => Or.inr ?_⟩
    · show w'.tbf b' = some y
      rw [k3.other b' hne]; exact hy
    · show c1.ctrl b' = some (t, s)
      rw [h3, if_neg hne]; exact hc

/-- Freeing: what stays. -/
structure Left (c c' : Cell) : Prop where
  few : Fewer c.w c'.w
  tbfN : c'.w.tbfN = c.w.tbfN
  ctrl : ∀ b p, c'.ctrl b = some p → c.ctrl b = some p

theorem Left.refl (c : Cell) : Left c c := ⟨Fewer.refl _, rfl, fun _ _ h => h⟩

theorem Left.trans {a b c : Cell} (h : Left a b) (h' : Left b c) : Left a c :=
  ⟨h.few.trans h'.few, h'.tbfN.trans h.tbfN, fun b p hb => h.ctrl b p (h'.ctrl b p hb)⟩

theorem freeC_left {c : Cell} (h : CI c) {b : Nat} {x : Tbf} (hx : c.w.tbf b = some x) :
    ∃ c', freeC c b = some c' ∧ CI c' ∧ Left c c' ∧ c'.w.tbf b = none := by
  obtain ⟨c', h1, h2, h3, h4, -, h6, -⟩ := freeC_spec h hx
  refine ⟨c', h1, h2, ⟨h3.fewer h4, h3.tbfN, ?_⟩, h4⟩
  intro b' p hb
  rw [h6] at hb
  split at hb
  · cases hb
  · exact hb

theorem freeIfC_spec {c : Cell} (h : CI c) {t s i : Nat} {d : Dir} :
    ∃ c', freeIfC c ((c.w.pdch t s).tbfs d i) = some c' ∧ CI c' ∧ Left c c' ∧
      (c'.w.pdch t s).tbfs d i = none := by
  cases hq : (c.w.pdch t s).tbfs d i with
  | none => exact ⟨c, rfl, h, Left.refl c, hq⟩
  | some b =>
    obtain ⟨x, h1, -⟩ := (h.w.t.on t s d i b).1 hq
    obtain ⟨c', k1, k2, k3, k4⟩ := freeC_left h h1
    refine ⟨c', k1, k2, k3, ?_⟩
    cases hq' : (c'.w.pdch t s).tbfs d i with
    | none => rfl
    | some b' =>
      exfalso
      obtain ⟨y, g1, g2⟩ := (k2.w.t.on t s d i b').1 hq'
      have := (h.w.t.on t s d i b').2 ⟨y, k3.few.tbf b' y g1, g2⟩
      rw [hq] at this
      cases this
      rw [k4] at g1
      cases g1

theorem disableC_spec {c : Cell} (h : CI c) {t s : Nat} (he : c.en t s = true) :
    ∃ c', disableC c t s = some c' ∧ CI c' := by
  have hen : t < 8 ∧ s < 8 ∧ (c.w.pdch t s).enabled = true := by
    simpa [Cell.en, and_assoc] using he
  obtain ⟨c1, e1, i1, f1, n1⟩ := foldlM_range (freeTfiC t s) (fun k v => CI v ∧ Left c v ∧
      ∀ i, i < k → ∀ d, (v.w.pdch t s).tbfs d i = none) 32 c ⟨h, Left.refl c, fun i hi => absurd hi (Nat.not_lt_zero i)⟩ (by
      intro k hk v ⟨v1, v2, v3⟩
      unfold freeTfiC
      obtain ⟨a, a1, a2, a3, a4⟩ := freeIfC_spec v1 (t := t) (s := s) (i := k) (d := .ul)
      rw [a1]
      simp only [Option.bind_some]
      obtain ⟨d, c1, c2, c3, c4⟩ := freeIfC_spec a2 (t := t) (s := s) (i := k) (d := .dl)
      refine ⟨d, c1, c2, (v2.trans a3).trans c3, ?_⟩
      intro i hi d'
      by_cases hik : i = k
      · subst hik
        cases d'
        · exact c3.few.none a2.w c2.w a4
        · exact c4
      · exact (a3.trans c3).few.none v1.w c2.w (v3 i (by omega) d'))
  unfold disableC
  rw [e1]
  simp only [Option.bind_some]
  obtain ⟨c2, e2, i2, f2, n2⟩ := foldlM_range (freeCtrlC t s) (fun k v => CI v ∧ Left c1 v ∧
      ∀ b, b < k → ∀ x, v.w.tbf b = some x → ¬ (x.dir = .ul ∧ x.trx = some t ∧ v.ctrl b = some (t, s)))
      c1.w.tbfN c1 ⟨i1, Left.refl c1, fun i hi => absurd hi (Nat.not_lt_zero i)⟩ (by
      intro k hk v ⟨v1, v2, v3⟩
      unfold freeCtrlC
      cases hx : v.w.tbf k with
      | none =>
        refine ⟨v, rfl, v1, v2, ?_⟩
        intro b hb x hbx
        by_cases hbk : b = k
        · rw [hbk, hx] at hbx; cases hbx
        · exact v3 b (by omega) x hbx
      | some x =>
        simp only []
        split
        · obtain ⟨v', a1, a2, a3, a4⟩ := freeC_left v1 hx
          refine ⟨v', a1, a2, v2.trans a3, ?_⟩
          intro b hb y hby hq
          by_cases hbk : b = k
          · rw [hbk, a4] at hby; cases hby
          · exact v3 b (by omega) y (a3.few.tbf b y hby) ⟨hq.1, hq.2.1, a3.ctrl b _ hq.2.2⟩
        · rename_i hno
          refine ⟨v, rfl, v1, v2, ?_⟩
          intro b hb y hby
          by_cases hbk : b = k
          · subst hbk; rw [hx] at hby; cases hby; exact hno
          · exact v3 b (by omega) y hby)
  rw [e2]
  simp only [Option.bind_some]
  have n3 : ∀ d i, (c2.w.pdch t s).tbfs d i = none := by
    intro d i
    by_cases hi : i < 32
    · exact f2.few.none i1.w i2.w (n1 i hi d)
    · cases hq : (c2.w.pdch t s).tbfs d i with
      | none => rfl
      | some b => exact absurd ((i2.w.t.p t s).lt d i b hq) hi
  have fl := f1.trans f2
  -- nobody has the PDCH as control slot
  have hfree : ∀ b, c2.ctrl b ≠ some (t, s) := by
    intro b hb
    obtain ⟨x, hx, g1, g2⟩ := (i2.ctrl b t s hb).1
    have hlt := h.w.t.fresh b x (fl.few.tbf b x hx)
    rcases g2 with g2 | g2
    · obtain ⟨-, t', i, q1, -, q2⟩ := i2.w.t.slots b x s hx g2
      have := (i2.w.t.on t s x.dir i b).2 ⟨x, hx, rfl, g1, g2, q2⟩
      rw [n3] at this
      cases this
    · refine n2 b ?_ x hx ⟨g2, g1, hb⟩
      rw [f1.tbfN]; exact hlt
  have hnone : ∀ b, ¬ HasSlot c2 b t s := by
    rintro b ⟨x, hx, g1, g2⟩
    obtain ⟨-, t', i, q1, -, q2⟩ := i2.w.t.slots b x s hx g2
    have := (i2.w.t.on t s x.dir i b).2 ⟨x, hx, rfl, g1, g2, q2⟩
    rw [n3] at this
    cases this
  obtain ⟨w', d1, d2, d3, d4, d5, d6⟩ := disable_rest i2.w hen.1 hen.2.1 (by rw [fl.few.en]; exact hen.2.2) n3
  rw [d1]
  refine ⟨_, rfl, d2, ?_, ?_, ?_, ?_⟩
  · intro t' s'
    show (if t' = t ∧ s' = s then none else c2.ulc t' s').isSome = (w'.pdch t' s').enabled
    rw [d6]
    split
    · rfl
    · exact i2.en t' s'
  · intro b t' s' hb
    have hb : c2.ctrl b = some (t', s') := hb
    show (∃ x, w'.tbf b = some x ∧ _) ∧ (w'.pdch t' s').enabled = true
    obtain ⟨g1, g2⟩ := i2.ctrl b t' s' hb
    rw [d3, d6]
    refine ⟨g1, ?_⟩
    rw [if_neg]
    · exact g2
    · rintro ⟨q1, q2⟩
      rw [q1, q2] at hb
      exact hfree b hb
  · intro b x hx
    have hx : w'.tbf b = some x := hx
    rw [d3] at hx
    exact i2.fct b x hx
  · intro t' s' l n hl hn
    have hl : (if t' = t ∧ s' = s then none else c2.ulc t' s') = some l := hl
    split at hl
    · cases hl
    · refine (i2.nodes t' s' l n hl hn).keep ?_
      intro b hb
      refine ⟨fun x hx => ?_, fun hq => Or.inr hq⟩
      show w'.tbf b = some x
      rw [d3]; exact hx

/-! ## Establishing TBFs -/

/-- TBF `b` gets resources; nothing was promised to it before. -/
theorem tookRes_spec {c : Cell} (h : CI c) {m b : Nat} {d : Dir} {w : World} (hw : Inv w)
    (hen : ∀ t s, (w.pdch t s).enabled = (c.w.pdch t s).enabled)
    (ho : ∀ b', b' ≠ b → w.tbf b' = c.w.tbf b') (hcl : ∀ t s, Clean c b t s)
    {t f : Nat} (hg : Got w m b d t f) :
    ∃ c', tookRes c m b w = some c' ∧ CI c' ∧ c'.w = w ∧ c'.ulc = c.ulc ∧
      ∀ b', c'.ctrl b' = if b' = b then some (t, f) else c.ctrl b' := by
  obtain ⟨⟨x, h1, h2, h3, h4, h5⟩, hf, he⟩ := hg
  unfold tookRes
  rw [h1]
  simp only [h4, hf]
  have e : ∀ c0 : Cell, assignCtrl (c0.setFct m (some (t, f))) b m =
      some ((c0.setFct m (some (t, f))).setCtrl b (some (t, f))) := by
    intro c0
    unfold assignCtrl
    simp [Cell.setFct]
  rw [e]
  refine ⟨_, rfl, ⟨hw, ?_, ?_, ?_, ?_⟩, rfl, rfl, fun _ => rfl⟩
  · intro t' s'
    show (c.ulc t' s').isSome = (w.pdch t' s').enabled
    rw [hen, h.en]
  · intro b' t' s' hb
    have hb : (if b' = b then some (t, f) else c.ctrl b') = some (t', s') := hb
    show (∃ x, w.tbf b' = some x ∧ _) ∧ (w.pdch t' s').enabled = true
    split at hb
    · rename_i hbb
      cases hb
      rw [hbb]
      exact ⟨⟨x, h1, h4, Or.inl h5⟩, he⟩
    · rename_i hbb
      rw [ho b' hbb, hen]
      exact h.ctrl b' t' s' hb
  · intro b' y hy
    have hy : w.tbf b' = some y := hy
    show (if y.ms = m then some (t, f) else c.fct y.ms).isSome = true
    split
    · rfl
    · rename_i hym
      by_cases hbb : b' = b
      · rw [hbb, h1] at hy; cases hy; exact absurd h2 hym
      · rw [ho b' hbb] at hy; exact h.fct b' y hy
  · intro t' s' l n hl hn
    have hl : c.ulc t' s' = some l := hl
    refine (h.nodes t' s' l n hl hn).keep ?_
    intro b' hb'
    have hne : b' ≠ b := fun hq => hcl t' s' l n hl hn (by rw [hb', hq])
    refine ⟨fun y hy => ?_, fun hq => Or.inr ?_⟩
    · show w.tbf b' = some y
      rw [ho b' hne]; exact hy
    · show (if b' = b then some (t, f) else c.ctrl b') = some (t', s')
      rw [if_neg hne]; exact hq

theorem CI.fresh {c : Cell} (h : CI c) : c.w.tbf c.w.tbfN = none := by
  cases hq : c.w.tbf c.w.tbfN with
  | none => rfl
  | some x => exact absurd (h.w.t.fresh _ x hq) (Nat.lt_irrefl _)

theorem CI.clean {c : Cell} (h : CI c) {b : Nat} (hb : c.w.tbf b = none) (t s : Nat) : Clean c b t s := by
  intro l n hl hn he
  obtain ⟨x, hx⟩ := ((h.nodes t s l n hl hn).where he).1
  rw [hb] at hx
  cases hx

/-- Changes of the BTS which keep the TBFs. -/
theorem CI.world {c : Cell} (h : CI c) {w : World} (hw : Inv w)
    (hen : ∀ t s, (w.pdch t s).enabled = (c.w.pdch t s).enabled) (ht : w.tbf = c.w.tbf) :
    CI { c with w := w } := by
  refine ⟨hw, ?_, ?_, ?_, ?_⟩
  · intro t s; show (c.ulc t s).isSome = (w.pdch t s).enabled; rw [hen, h.en]
  · intro b t s hb
    show (∃ x, w.tbf b = some x ∧ _) ∧ (w.pdch t s).enabled = true
    rw [ht, hen]; exact h.ctrl b t s hb
  · intro b x hx
    have hx : w.tbf b = some x := hx
    rw [ht] at hx; exact h.fct b x hx
  · intro t s l n hl hn
    refine (h.nodes t s l n hl hn).keep fun b _ => ⟨fun x hx => ?_, fun hq => Or.inr hq⟩
    show w.tbf b = some x
    rw [ht]; exact hx

theorem allocC_spec {cfg : Cfg} {c : Cell} (h : CI c) {m : Nat} (hm : m < c.w.msN) (req : Req) (e : Bool) :
    ∃ c', allocC cfg c m req e = some c' ∧ CI c' ∧ c'.w.msN = c.w.msN ∧ c'.ulc = c.ulc ∧
      (∀ t s, (c'.w.pdch t s).enabled = (c.w.pdch t s).enabled) ∧
      ((c'.w.tbfN = c.w.tbfN) ∨ (c'.w.tbfN ≠ c.w.tbfN ∧ ∃ x t, c'.w.tbf c.w.tbfN = some x ∧ x.trx = some t ∧
        x.dir = req.dir ∧
        ∀ u, req.useTrx = some u → u < 8 → (∀ v, (c.w.ms m).trx = some v → v = u) → t = u)) := by
  obtain ⟨w', h1, h2, h3, h4, h5, h6⟩ := allocTbf_spec (cfg := cfg) h.w hm req e
  unfold allocC
  rw [h1]
  simp only [Option.bind_some]
  rcases h6 with ⟨k1, k2⟩ | ⟨k1, t, f, hg, htr⟩
  · rw [if_pos k1]
    refine ⟨_, rfl, h.world h2 h4 ?_, h3, rfl, h4, Or.inl k1⟩
    funext b
    by_cases hb : b = c.w.tbfN
    · rw [hb, k2, h.fresh]
    · exact h5 b hb
  · rw [if_neg (by omega)]
    obtain ⟨c', g1, g2, g3, g4, -⟩ := tookRes_spec h h2 h4 h5 (h.clean h.fresh) hg
    obtain ⟨x, hx, -, hx2, hx3, -⟩ := hg.tbf
    refine ⟨c', g1, g2, by rw [g3]; exact h3, g4, by rw [g3]; exact h4, Or.inr ⟨?_, x, t, ?_, hx3, hx2, htr⟩⟩
    · rw [g3]; omega
    · rw [g3, hx]

theorem rejectC_spec {c : Cell} (h : CI c) {m : Nat} (hm : m < c.w.msN) {t s : Nat} (e : Bool)
    (he : (c.w.pdch t s).enabled = true) : ∃ c', rejectC c m t s e = some c' ∧ CI c' := by
  have hi := reject_inv h.w hm t s e
  have hE : assignCtrl (({ c with w := rejectUl c.w m t s e } : Cell).setFct m (some (t, s))) c.w.tbfN m =
      some ((({ c with w := rejectUl c.w m t s e } : Cell).setFct m (some (t, s))).setCtrl c.w.tbfN (some (t, s))) := by
    unfold assignCtrl
    simp [Cell.setFct]
  have htb : ∀ b, (rejectUl c.w m t s e).tbf b = if b = c.w.tbfN then
      some ⟨.ul, m, e, none, some t, fun _ => false, fun _ => 255⟩ else c.w.tbf b := by
    intro b
    simp only [rejectUl, newTbf, World.setTbf, World.setMs]
    split <;> rfl
  unfold rejectC
  rw [hE]
  refine ⟨_, rfl, hi, ?_, ?_, ?_, ?_⟩
  · intro t' s'
    exact h.en t' s'
  · intro b t' s' hb
    have hb : (if b = c.w.tbfN then some (t, s) else c.ctrl b) = some (t', s') := hb
    show (∃ x, (rejectUl c.w m t s e).tbf b = some x ∧ _) ∧ (c.w.pdch t' s').enabled = true
    rw [htb]
    split at hb
    · rename_i hbb
      cases hb
      rw [if_pos hbb]
      exact ⟨⟨_, rfl, rfl, Or.inr rfl⟩, he⟩
    · rename_i hbb
      rw [if_neg hbb]
      exact h.ctrl b t' s' hb
  · intro b x hx
    have hx : (rejectUl c.w m t s e).tbf b = some x := hx
    rw [htb] at hx
    show (if x.ms = m then some (t, s) else c.fct x.ms).isSome = true
    split
    · rfl
    · rename_i hxm
      split at hx
      · cases hx; exact absurd rfl hxm
      · exact h.fct b x hx
  · intro t' s' l n hl hn
    have hl : c.ulc t' s' = some l := hl
    refine (h.nodes t' s' l n hl hn).keep ?_
    intro b hb
    have hne : b ≠ c.w.tbfN := fun hq => h.clean h.fresh t' s' l n hl hn (by rw [hb, hq])
    refine ⟨fun y hy => ?_, fun hq => Or.inr ?_⟩
    · show (rejectUl c.w m t s e).tbf b = some y
      rw [htb, if_neg hne]; exact hy
    · show (if b = c.w.tbfN then some (t, s) else c.ctrl b) = some (t', s')
      rw [if_neg hne]; exact hq

/-- Moving a control slot. -/
theorem CI.move {c : Cell} (h : CI c) {b t s : Nat} (hb : ∃ x, c.w.tbf b = some x ∧ x.trx = some t ∧
      (x.slots s = true ∨ x.dir = .ul))
    (he : (c.w.pdch t s).enabled = true)
    (hk : ∀ t' s', c.ctrl b = some (t', s') → HasSlot c b t' s' ∨ Clean c b t' s') :
    CI (c.setCtrl b (some (t, s))) := by
  refine ⟨h.w, h.en, ?_, h.fct, ?_⟩
  · intro b' t' s' hb'
    have hb' : (if b' = b then some (t, s) else c.ctrl b') = some (t', s') := hb'
    split at hb'
    · rename_i hbb; cases hb'; rw [hbb]; exact ⟨hb, he⟩
    · exact h.ctrl b' t' s' hb'
  · intro t' s' l n hl hn
    have hl : c.ulc t' s' = some l := hl
    refine (h.nodes t' s' l n hl hn).keep ?_
    intro b' hb'
    refine ⟨fun y hy => hy, fun hq => ?_⟩
    show HasSlot c b' t' s' ∨ (if b' = b then some (t, s) else c.ctrl b') = some (t', s')
    by_cases hbb : b' = b
    · subst hbb
      rcases hk t' s' hq with hk | hk
      · exact Or.inl hk
      · exact absurd hb' (hk l n hl hn)
    · rw [if_neg hbb]; exact Or.inr hq

theorem requestC_spec {cfg : Cfg} {c : Cell} (h : CI c) {m : Nat} (hm : m < c.w.msN) {t s : Nat} (e : Bool)
    (he : (c.w.pdch t s).enabled = true) (h8 : t < 8) (hv : ∀ v, (c.w.ms m).trx = some v → v = t) :
    ∃ c', requestC cfg c m t s e = some c' ∧ CI c' := by
  obtain ⟨c1, h1, h2, h3, h4, h5, h6⟩ := allocC_spec (cfg := cfg) h hm ⟨.ul, false, some t⟩ e
  unfold requestC
  rw [h1]
  simp only [Option.bind_some]
  rcases h6 with h6 | ⟨h6, x, t', q1, q2, q3, q4⟩
  · rw [if_pos h6]
    exact rejectC_spec h2 (by rw [h3]; exact hm) e (by rw [h5]; exact he)
  · rw [if_neg h6]
    refine ⟨_, rfl, h2.move ⟨x, q1, by rw [q2, q4 t rfl h8 hv], Or.inr q3⟩ (by rw [h5]; exact he) ?_⟩
    intro t' s' _
    refine Or.inr ?_
    intro l n hl hn
    rw [h4] at hl
    exact h.clean h.fresh t' s' l n hl hn

theorem Less.ci {c c' : Cell} (h : CI c) (hl : Less c c') {b : Nat}
    (hc : ∀ b', c'.ctrl b' = if b' = b then none else c.ctrl b') (hcl : ∀ t s, Clean c' b t s) : CI c' := by
  refine ⟨by rw [hl.w]; exact h.w, by intro t s; rw [hl.ex, hl.w]; exact h.en t s, ?_,
    by rw [hl.w, hl.fct]; exact h.fct, ?_⟩
  · intro b' t s hb
    rw [hc] at hb
    rw [hl.w]
    split at hb
    · cases hb
    · exact h.ctrl b' t s hb
  · intro t s l n hn1 hn
    obtain ⟨l0, g1, g2⟩ := hl.sub t s l hn1
    refine (h.nodes t s l0 n g1 (g2 n hn)).keep ?_
    intro b' hb'
    have hne : b' ≠ b := fun hq => hcl t s l n hn1 hn (by rw [hb', hq])
    refine ⟨fun y hy => by rw [hl.w]; exact hy, fun hq => Or.inr ?_⟩
    rw [hc, if_neg hne]; exact hq

theorem upgradeC_spec {cfg : Cfg} {c : Cell} (h : CI c) (b : Nat) : ∃ c', upgradeC cfg c b = some c' ∧ CI c' := by
  unfold upgradeC
  cases hx : c.w.tbf b with
  | none => exact ⟨c, rfl, h⟩
  | some x =>
    simp only []
    split
    · exact ⟨c, rfl, h⟩
    · rename_i hd
      obtain ⟨c1, h1, h2, h3, h4⟩ := relTbf_spec h hx
      rw [h1]
      simp only [Option.bind_some]
      have i1 := h2.ci h h3 h4
      have hx1 : c1.w.tbf b = some x := by rw [h2.w]; exact hx
      obtain ⟨w', k1, k2, k3, k4, k5, k6, k7⟩ := upgrade_spec (cfg := cfg) i1.w hx1 hd
      rw [k1]
      simp only [Option.bind_some]
      rcases k7 with ⟨y, g1, g2, g3, g4⟩ | ⟨t, f, hg⟩
      · rw [g1]
        simp only [g4, if_true]
        refine ⟨_, rfl, k2, ?_, ?_, ?_, ?_⟩
        · intro t s; show (c1.ulc t s).isSome = (w'.pdch t s).enabled; rw [k5, i1.en]
        · intro b' t s hb
          have hb : c1.ctrl b' = some (t, s) := hb
          have hne : b' ≠ b := by
            intro hq
            rw [h3, if_pos hq] at hb
            cases hb
          show (∃ x, w'.tbf b' = some x ∧ _) ∧ (w'.pdch t s).enabled = true
          rw [k6 b' hne, k5]
          exact i1.ctrl b' t s hb
        · intro b' z hz
          have hz : w'.tbf b' = some z := hz
          show (c1.fct z.ms).isSome = true
          by_cases hne : b' = b
          · rw [hne, g1] at hz
            cases hz
            rw [g2]
            exact i1.fct b x hx1
          · rw [k6 b' hne] at hz
            exact i1.fct b' z hz
        · intro t s l n hl hn
          have hl : c1.ulc t s = some l := hl
          refine (i1.nodes t s l n hl hn).keep ?_
          intro b' hb'
          have hne : b' ≠ b := fun hq => h4 t s l n hl hn (by rw [hb', hq])
          refine ⟨fun z hz => ?_, fun hq => Or.inr hq⟩
          show w'.tbf b' = some z
          rw [k6 b' hne]; exact hz
      · obtain ⟨z, z1, z2, z3, z4, -⟩ := hg.tbf
        rw [z1]
        simp only []
        rw [if_neg (by rw [z4]; simp)]
        obtain ⟨c2, q1, q2, -⟩ := tookRes_spec i1 k2 k5 k6 h4 hg
        exact ⟨c2, q1, q2⟩

/-! ## Blocks -/

/-- Changing the blocks of one PDCH. -/
theorem CI.blocks {c : Cell} (h : CI c) {t s : Nat} {l l' : List Node} (hl : c.ulc t s = some l)
    (hs : ∀ n ∈ l', n ∈ l ∨ InOrder c t s n) : CI (c.setUlc t s (some l')) := by
  refine ⟨h.w, ?_, h.ctrl, h.fct, ?_⟩
  · intro t' s'
    show (if t' = t ∧ s' = s then some l' else c.ulc t' s').isSome = _
    split
    · rename_i hh
      have := h.en t s
      rw [hl] at this
      rw [hh.1, hh.2]
      exact this
    · exact h.en t' s'
  · intro t' s' k n hk hn
    have hk : (if t' = t ∧ s' = s then some l' else c.ulc t' s') = some k := hk
    have : InOrder c t' s' n := by
      split at hk
      · rename_i hh
        cases hk
        rw [hh.1, hh.2]
        rcases hs n hn with h1 | h1
        · exact h.nodes t s l n hl h1
        · exact h1
      · exact h.nodes t' s' k n hk hn
    exact this.keep fun b _ => ⟨fun _ hx => hx, fun hq => Or.inr hq⟩

theorem addNode_mem (it : Node) : ∀ (l l' : List Node), addNode it l = some l' → ∀ n ∈ l', n ∈ l ∨ n = it := by
  intro l
  induction l with
  | nil =>
    intro l' h n hn
    simp only [addNode, Option.some.injEq] at h
    subst h
    exact Or.inr (List.mem_singleton.1 hn)
  | cons a l ih =>
    intro l' h n hn
    unfold addNode at h
    split at h
    · cases h
      rcases List.mem_cons.1 hn with h1 | h1
      · exact Or.inr h1
      · exact Or.inl h1
    · split at h
      · rw [Option.map_eq_some_iff] at h
        obtain ⟨l1, h1, h2⟩ := h
        subst h2
        rcases List.mem_cons.1 hn with h3 | h3
        · exact Or.inl (by rw [h3]; exact List.mem_cons_self)
        · rcases ih l1 h1 n h3 with h4 | h4
          · exact Or.inl (List.mem_cons_of_mem _ h4)
          · exact Or.inr h4
      · cases h

theorem reserve_mem (l : List Node) (fn : Nat) (o : Owner) : ∀ n ∈ (reserve l fn o).2, n ∈ l ∨ n.owner = o := by
  intro n hn
  unfold reserve at hn
  split at hn
  · rename_i l' hl'
    rcases addNode_mem _ l l' hl' n hn with h | h
    · exact Or.inl h
    · exact Or.inr (by rw [h])
  · exact Or.inl hn

theorem suits_iff (r : Nat) (d : Dir) : suits r d = true ↔ ((r = 2 → d = .ul) ∧ (r = 3 → d = .dl)) := by
  unfold suits pollUlAck pollDlAck
  by_cases h2 : r = 2
  · rw [if_pos h2, beq_iff_eq]
    constructor
    · exact fun h => ⟨fun _ => h, fun h3 => by omega⟩
    · exact fun h => h.1 h2
  · rw [if_neg h2]
    by_cases h3 : r = 3
    · rw [if_pos h3, beq_iff_eq]
      exact ⟨fun h => ⟨fun h' => absurd h' h2, fun _ => h⟩, fun h => h.2 h3⟩
    · rw [if_neg h3]
      exact ⟨fun _ => ⟨fun h => absurd h h2, fun h => absurd h h3⟩, fun _ => rfl⟩

theorem touch_ok {c : Cell} {t s : Nat} {n : Node} (h : InOrder c t s n) : touch c n.owner = some () := by
  unfold InOrder at h
  unfold touch
  split at h
  · rename_i id hb
    rw [hb]
  · rename_i b hb
    obtain ⟨⟨x, h1, h2⟩, -⟩ := h
    rw [hb]
    simp only [h1, Option.bind_some, h2, if_true]
  · rename_i b r hb
    obtain ⟨⟨x, h1, h2⟩, -⟩ := h
    have := (suits_iff r x.dir).2 h2
    rw [hb]
    simp only [h1, Option.bind_some, this, if_true]

theorem noneOf_clean {c : Cell} {b t s : Nat} {l : List Node} (hl : c.ulc t s = some l) (h : noneOf b l = true) :
    Clean c b t s := by
  intro l' n hl' hn he
  rw [hl] at hl'
  cases hl'
  have := List.all_eq_true.1 h n hn
  cases ho : n.owner with
  | sba id => rw [ho] at he; cases he
  | usf b' => rw [ho] at he this; cases he; simp at this
  | poll b' r => rw [ho] at he this; cases he; simp at this

theorem step_ci {cfg : Cfg} {c : Cell} (h : CI c) (op : Op) (hc : careful c op = true) :
    ∃ c', step cfg c op = some c' ∧ CI c' := by
  cases op with
  | newMs cls =>
    obtain ⟨w', h1, h2⟩ := step_inv (cfg := cfg) h.w (.newMs cls)
    simp only [step]
    rw [h1]
    simp only [Alloc.step, Option.some.injEq] at h1
    refine ⟨_, rfl, h.world h2 ?_ ?_⟩
    · rw [← h1]; intro _ _; rfl
    · rw [← h1]; rfl
  | setClass m cls =>
    obtain ⟨w', h1, h2⟩ := step_inv (cfg := cfg) h.w (.setClass m cls)
    simp only [step]
    rw [h1]
    simp only [Alloc.step] at h1
    refine ⟨_, rfl, h.world h2 ?_ ?_⟩
    · split at h1 <;> (cases h1; intro _ _; rfl)
    · split at h1 <;> (cases h1; rfl)
  | alloc m req e =>
    simp only [step]
    split
    · rename_i hm
      obtain ⟨c', h1, h2, -⟩ := allocC_spec (cfg := cfg) h hm req e
      exact ⟨c', h1, h2⟩
    · exact ⟨c, rfl, h⟩
  | request m t s e =>
    simp only [step]
    split
    · rename_i hm
      have he := hm.2
      simp only [Cell.en, Bool.and_eq_true, decide_eq_true_eq] at he
      refine requestC_spec h hm.1 e he.2 he.1.1 ?_
      intro v hv
      have hc : (match (c.w.ms m).trx with
        | none => true
        | some t' => t' == t) = true := hc
      rw [hv] at hc
      exact eq_of_beq hc
    · exact ⟨c, rfl, h⟩
  | upgrade b => exact upgradeC_spec h b
  | free b =>
    simp only [step]
    cases hx : c.w.tbf b with
    | none => exact ⟨c, rfl, h⟩
    | some x =>
      obtain ⟨c', h1, h2, -⟩ := freeC_spec h hx
      exact ⟨c', by simpa using h1, h2⟩
  | idle m =>
    simp only [step]
    split
    · rename_i hm
      obtain ⟨w', h1, h2, h3, h4, h5, -⟩ := msIdle_inv h.w hm
      rw [h1]
      simp only [Option.map_some]
      have hw := h.world h2 h5 h3
      split
      · exact ⟨_, rfl, hw⟩
      · rename_i hno
        refine ⟨_, rfl, hw.w, hw.en, hw.ctrl, ?_, ?_⟩
        · intro b x hx
          have hx : w'.tbf b = some x := hx
          show (if x.ms = m then none else c.fct x.ms).isSome = true
          rw [h3] at hx
          split
          · rename_i hxm
            exfalso
            apply hno
            unfold hasTbf
            rw [List.any_eq_true]
            exact ⟨b, List.mem_range.2 (h.w.t.fresh b x hx), by rw [hx]; simpa using hxm⟩
          · exact h.fct b x hx
        · intro t s l n hl hn
          exact (hw.nodes t s l n hl hn).keep fun b _ => ⟨fun _ hx => hx, fun hq => Or.inr hq⟩
    · exact ⟨c, rfl, h⟩
  | enable t s tsc =>
    simp only [step]
    split
    · rename_i hh
      obtain ⟨w', h1, h2, h3, h4, h5, -⟩ := enablePdch_inv h.w tsc hh.1 hh.2.1 hh.2.2
      rw [h1]
      have hen : ∀ t' s', (w'.pdch t' s').enabled = if t' = t ∧ s' = s then true else (c.w.pdch t' s').enabled := by
        unfold enablePdch at h1
        rw [if_neg (by rw [hh.2.2]; simp)] at h1
        cases h1
        intro t' s'
        simp only [World.setPdch]
        split <;> rfl
      refine ⟨_, rfl, h2, ?_, ?_, ?_, ?_⟩
      · intro t' s'
        show (if t' = t ∧ s' = s then some [] else c.ulc t' s').isSome = (w'.pdch t' s').enabled
        rw [hen]
        split
        · rfl
        · exact h.en t' s'
      · intro b t' s' hb
        show (∃ x, w'.tbf b = some x ∧ _) ∧ (w'.pdch t' s').enabled = true
        obtain ⟨g1, g2⟩ := h.ctrl b t' s' hb
        rw [h3, hen]
        refine ⟨g1, ?_⟩
        split
        · rfl
        · exact g2
      · intro b x hx
        have hx : w'.tbf b = some x := hx
        rw [h3] at hx
        exact h.fct b x hx
      · intro t' s' l n hl hn
        have hl : (if t' = t ∧ s' = s then some [] else c.ulc t' s') = some l := hl
        split at hl
        · cases hl; cases hn
        · refine (h.nodes t' s' l n hl hn).keep fun b _ => ⟨fun x hx => ?_, fun hq => Or.inr hq⟩
          show w'.tbf b = some x
          rw [h3]; exact hx
    · exact ⟨c, rfl, h⟩
  | disable t s =>
    simp only [step]
    split
    · rename_i he; exact disableC_spec h he
    · exact ⟨c, rfl, h⟩
  | assigned b =>
    simp only [step]
    cases hx : c.w.tbf b with
    | none => exact ⟨c, rfl, h⟩
    | some x =>
      simp only []
      obtain ⟨⟨t, s⟩, hp⟩ := Option.isSome_iff_exists.1 (h.fct b x hx)
      unfold assignCtrl
      rw [hp]
      have hmv : mayMove c b = true := hc
      unfold mayMove at hmv
      rw [hx] at hmv
      simp only [hp, Bool.and_eq_true] at hmv
      have hg := hmv.1
      unfold hasSlot at hg
      rw [hx] at hg
      simp only [Bool.and_eq_true, beq_iff_eq] at hg
      refine ⟨_, rfl, h.move ⟨x, hx, hg.1, Or.inl hg.2⟩ (h.slot_en hx hg.1 hg.2) ?_⟩
      · intro t' s' hq
        have := hmv.2
        rw [hq] at this
        simp only [Bool.or_eq_true] at this
        rcases this with g | g
        · refine Or.inl ⟨x, hx, ?_⟩
          unfold hasSlot at g
          rw [hx] at g
          simpa using g
        · obtain ⟨l, hl⟩ := h.ulc_some (h.ctrl b t' s' hq).2
          rw [hl] at g
          exact Or.inr (noneOf_clean hl g)
  | poll b t s fn r =>
    simp only [step]
    split
    · unfold pollC
      cases hx : c.w.tbf b with
      | none => exact ⟨c, rfl, h⟩
      | some x =>
        simp only []
        split
        · exact ⟨c, rfl, h⟩
        · rename_i hno
          have h1 : c.ctrl b = some (t, s) := Decidable.byContradiction fun hq => hno (Or.inl hq)
          have h2 : suits r x.dir = true := by
            cases hq : suits r x.dir with
            | true => rfl
            | false => exact absurd (Or.inr hq) hno
          obtain ⟨l, hl⟩ := h.ulc_some (h.ctrl b t s h1).2
          rw [hl]
          simp only []
          split
          · exact ⟨c, rfl, h⟩
          · refine ⟨_, rfl, h.blocks hl ?_⟩
            intro n hn
            rcases reserve_mem l _ _ n hn with h3 | h3
            · exact Or.inl h3
            · refine Or.inr ?_
              unfold InOrder
              rw [h3]
              exact ⟨⟨x, hx, (suits_iff r x.dir).1 h2⟩, Or.inr h1⟩
    · exact ⟨c, rfl, h⟩
  | usf b t s fn =>
    simp only [step]
    split
    · rename_i he
      unfold usfC
      cases hx : c.w.tbf b with
      | none => exact ⟨c, rfl, h⟩
      | some x =>
        simp only []
        split
        · rename_i hh
          simp only [Cell.en, Bool.and_eq_true] at he
          obtain ⟨l, hl⟩ := h.ulc_some he.2
          rw [hl]
          simp only []
          split
          · refine ⟨_, rfl, h.blocks hl ?_⟩
            intro n hn
            rcases reserve_mem l _ _ n hn with h3 | h3
            · exact Or.inl h3
            · refine Or.inr ?_
              unfold InOrder
              rw [h3]
              exact ⟨⟨x, hx, hh.1⟩, x, hx, hh.2⟩
          · exact ⟨c, rfl, h⟩
        · exact ⟨c, rfl, h⟩
    · exact ⟨c, rfl, h⟩
  | sba t s id last =>
    simp only [step]
    split
    · rename_i he
      simp only [Cell.en, Bool.and_eq_true] at he
      obtain ⟨l, hl⟩ := h.ulc_some he.2
      unfold sbaC
      rw [hl]
      refine ⟨_, rfl, h.blocks hl ?_⟩
      intro n hn
      rcases reserve_mem l _ _ n hn with h3 | h3
      · exact Or.inl h3
      · refine Or.inr ?_
        unfold InOrder
        rw [h3]
        trivial
    · exact ⟨c, rfl, h⟩
  | answered t s fn =>
    simp only [step]
    split
    · rename_i he
      simp only [Cell.en, Bool.and_eq_true] at he
      obtain ⟨l, hl⟩ := h.ulc_some he.2
      unfold answeredC
      rw [hl]
      simp only [Option.bind_some]
      cases hg : getNode l fn with
      | none => exact ⟨c, rfl, h⟩
      | some n =>
        have hn : n ∈ l := List.mem_of_find?_eq_some hg
        simp only []
        rw [touch_ok (h.nodes t s l n hl hn)]
        refine ⟨_, rfl, h.blocks hl ?_⟩
        intro k hk
        unfold releaseFn at hk
        rw [hg] at hk
        exact Or.inl (List.mem_of_mem_erase hk)
    · exact ⟨c, rfl, h⟩
  | timeout t s fn =>
    simp only [step]
    split
    · rename_i he
      simp only [Cell.en, Bool.and_eq_true] at he
      obtain ⟨l, hl⟩ := h.ulc_some he.2
      unfold timeoutC
      rw [hl]
      simp only [Option.bind_some]
      cases l with
      | nil => exact ⟨c, rfl, h⟩
      | cons n l' =>
        simp only []
        split
        · exact ⟨c, rfl, h⟩
        · rw [touch_ok (h.nodes t s _ n hl List.mem_cons_self)]
          exact ⟨_, rfl, h.blocks hl fun k hk => Or.inl (List.mem_cons_of_mem _ hk)⟩
    · exact ⟨c, rfl, h⟩

theorem init_ci : CI Cell.init :=
  ⟨init_inv, fun _ _ => rfl, fun _ _ _ h => (by cases h), fun _ _ h => (by cases h), fun _ _ _ _ h => (by cases h)⟩

theorem run_ci {cfg : Cfg} : ∀ (ops : List Op) (c : Cell), CI c → Careful cfg c ops →
    ∃ c', run cfg c ops = some c' ∧ CI c' := by
  intro ops
  induction ops with
  | nil => intro c h _; exact ⟨c, rfl, h⟩
  | cons op ops ih =>
    intro c h hc
    obtain ⟨c1, h1, h2⟩ := step_ci (cfg := cfg) h op hc.1
    obtain ⟨c2, h3, h4⟩ := ih c1 h2 (hc.2 c1 h1)
    exact ⟨c2, by unfold run at h3 ⊢; rw [List.foldlM_cons, h1]; exact h3, h4⟩

end Verif.Polls
