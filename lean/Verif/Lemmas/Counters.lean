import Verif.Spec.Counters
/-!
# Lemmas about the counters of a cell
-/

namespace Verif.Alloc

/-- Nothing that is counted changes. -/
structure Keep (w w' : World) : Prop where
  made : w'.made = w.made
  gone : w'.gone = w.gone
  fails : w'.fails = w.fails
  tbfN : w'.tbfN = w.tbfN
  kind : ∀ b, (w'.tbf b).map Tbf.dir = (w.tbf b).map Tbf.dir

theorem Keep.refl (w : World) : Keep w w := ⟨rfl, rfl, rfl, rfl, fun _ => rfl⟩

theorem Keep.trans {a b c : World} (h : Keep a b) (h' : Keep b c) : Keep a c :=
  ⟨h'.made.trans h.made, h'.gone.trans h.gone, h'.fails.trans h.fails, h'.tbfN.trans h.tbfN,
    fun b => (h'.kind b).trans (h.kind b)⟩

theorem Keep.setPdch (w : World) (t s : Nat) (p : Pdch) : Keep w (w.setPdch t s p) := ⟨rfl, rfl, rfl, rfl, fun _ => rfl⟩
theorem Keep.setMs (w : World) (m : Nat) (x : Ms) : Keep w (w.setMs m x) := ⟨rfl, rfl, rfl, rfl, fun _ => rfl⟩

theorem Keep.setTbf {w : World} {b : Nat} {x x' : Tbf} (h : w.tbf b = some x) (hd : x'.dir = x.dir) :
    Keep w (w.setTbf b (some x')) := by
  refine ⟨rfl, rfl, rfl, rfl, fun c => ?_⟩
  show (if c = b then some x' else w.tbf c).map Tbf.dir = _
  by_cases hc : c = b
  · subst hc; rw [if_pos rfl, h]; simp [hd]
  · rw [if_neg hc]

theorem Keep.foldlM {α : Type} {f : World → α → Option World} (hf : ∀ w a w', f w a = some w' → Keep w w') :
    ∀ (l : List α) (w w' : World), l.foldlM f w = some w' → Keep w w' := by
  intro l
  induction l with
  | nil => intro w w' h; cases h; exact .refl _
  | cons a l ih =>
    intro w w' h
    rw [List.foldlM_cons] at h
    cases h1 : f w a with
    | none => rw [h1] at h; cases h
    | some w1 => rw [h1] at h; exact (hf _ _ _ h1).trans (ih _ _ h)

theorem Keep.foldl {α : Type} {f : World → α → World} (hf : ∀ w a, Keep w (f w a)) :
    ∀ (l : List α) (w : World), Keep w (l.foldl f w) := by
  intro l
  induction l with
  | nil => intro w; exact .refl _
  | cons a l ih => intro w; exact (hf w a).trans (ih _)

theorem keep_numTbfs (w : World) (t s : Nat) (d : Dir) (e a : Bool) : Keep w (numTbfsUpdate w t s d e a) :=
  ⟨rfl, rfl, rfl, rfl, fun _ => rfl⟩

theorem keep_attach (w : World) (t s b : Nat) (d : Dir) (e : Bool) (i u : Nat) : Keep w (attachTbf w t s b d e i u) :=
  ⟨rfl, rfl, rfl, rfl, fun _ => rfl⟩

theorem detach_tbf {w w' : World} {t s : Nat} {d : Dir} {e : Bool} {i u : Nat} (h : detachTbf w t s d e i u = some w') :
    Keep w w' ∧ w'.tbf = w.tbf := by
  unfold detachTbf at h
  generalize (if e = true then (w.pdch t s).egprs d else (w.pdch t s).gprs d) = n at h
  by_cases hn : n = 0
  · rw [if_pos hn] at h; cases h
  · rw [if_neg hn] at h
    cases h; exact ⟨⟨rfl, rfl, rfl, rfl, fun _ => rfl⟩, rfl⟩

theorem keep_applyStep {b : Nat} {r : Res} {w w' : World} {ts : Nat} (h : applyStep b r w ts = some w') : Keep w w' := by
  unfold applyStep at h
  split at h
  · cases h
  · rename_i x hx
    split at h
    · cases h
    · split at h
      · cases h; exact .refl _
      · split at h
        · split at h
          · cases h
          · cases h; refine Keep.trans (Keep.setTbf (x := x) hx ?_) (keep_attach ..); rfl
        · cases h; refine Keep.trans (Keep.setTbf (x := x) hx ?_) (keep_attach ..); rfl

theorem keep_applyRes {w w' : World} {b : Nat} {r : Res} (h : applyRes w b r = some w') : Keep w w' := by
  unfold applyRes at h
  split at h
  · cases h
  · rename_i x hx
    refine Keep.trans (Keep.setTbf (x := x) hx ?_) (Keep.foldlM (f := applyStep b r) (fun _ _ _ => keep_applyStep) _ _ _ h)
    rfl

theorem keep_unlinkStep {b : Nat} {w w' : World} {ts : Nat} (h : unlinkStep b w ts = some w') : Keep w w' := by
  unfold unlinkStep at h
  split at h
  · cases h
  · rename_i x hx
    split at h
    · cases h; exact .refl _
    · split at h
      · cases h1 : detachTbf w _ ts x.dir x.egprs _ (x.usf ts) with
        | none => rw [h1] at h; cases h
        | some w1 =>
          rw [h1] at h
          cases h
          obtain ⟨k, e⟩ := detach_tbf h1
          exact k.trans (Keep.setTbf (x := x) (by rw [e]; exact hx) rfl)
      · cases h

theorem keep_unlink {w w' : World} {b : Nat} (h : unlink w b = some w') : Keep w w' := by
  unfold unlink at h
  cases h1 : (List.range 8).foldlM (unlinkStep b) w with
  | none => rw [h1] at h; cases h
  | some w1 =>
    rw [h1] at h
    have k := Keep.foldlM (fun _ _ _ => keep_unlinkStep) _ _ _ h1
    simp only [Option.bind_some] at h
    split at h
    · cases h
    · rename_i x hx
      cases h
      exact k.trans (Keep.setTbf (x := x) hx rfl)

theorem keep_reserve (w : World) (t : Nat) (d : Dir) (n : Nat) : Keep w (reserveSlots w t d n) := by
  unfold reserveSlots
  refine Keep.foldl (fun w s => ?_) _ _
  split
  · exact .setPdch ..
  · exact .refl _

theorem keep_unreserve {w w' : World} {t : Nat} {d : Dir} {n : Nat} (h : unreserveSlots w t d n = some w') : Keep w w' := by
  unfold unreserveSlots at h
  refine Keep.foldlM (fun w s w' h => ?_) _ _ _ h
  split at h
  · cases h1 : (w.pdch t s).subReserved d with
    | none => rw [h1] at h; cases h
    | some p => rw [h1] at h; cases h; exact .setPdch ..
  · cases h; exact .refl _

theorem keep_dropReserved {w w' : World} {m : Nat} {x : Ms} (h : dropReserved w m x = some w') : Keep w w' := by
  unfold dropReserved at h
  split at h
  · cases h; exact .refl _
  · rename_i t ht
    cases h1 : unreserveSlots w t .dl x.dl with
    | none => rw [h1] at h; cases h
    | some w1 =>
      rw [h1] at h
      simp only [Option.bind_some] at h
      cases h2 : unreserveSlots w1 t .ul x.ul with
      | none => rw [h2] at h; cases h
      | some w2 =>
        rw [h2] at h; cases h
        exact (keep_unreserve h1).trans ((keep_unreserve h2).trans (.setMs ..))

theorem keep_setReserved {w w' : World} {m : Nat} {trx : Option Nat} {u d : Nat} (h : setReserved w m trx u d = some w') :
    Keep w w' := by
  unfold setReserved at h
  cases h1 : dropReserved w m (w.ms m) with
  | none => simp only [h1] at h; cases h
  | some w1 =>
    simp only [h1, Option.map_some] at h
    cases h
    refine (keep_dropReserved h1).trans ?_
    split
    · exact .setMs ..
    · exact (Keep.setMs ..).trans ((keep_reserve ..).trans (keep_reserve ..))

theorem keep_takeRes {w w' : World} {m b : Nat} {r : Res} (h : takeRes w m b r = some w') : Keep w w' := by
  unfold takeRes at h
  simp only [] at h
  split at h
  · cases h1 : setReserved w m (some r.trx) r.ul r.dl with
    | none => rw [h1] at h; cases h
    | some w1 =>
      rw [h1] at h
      exact (keep_setReserved h1).trans ((Keep.setMs ..).trans (keep_applyRes h))
  · exact (Keep.setMs ..).trans (keep_applyRes h)

/-! ## The balance -/

theorem existing_keep {w w' : World} (hn : w'.tbfN = w.tbfN) (hk : ∀ b, (w'.tbf b).map Tbf.dir = (w.tbf b).map Tbf.dir)
    (d : Dir) : existing w' d = existing w d := by
  unfold existing
  rw [hn]
  congr 2
  funext b
  have := hk b
  unfold isTbf
  cases h1 : w.tbf b <;> cases h2 : w'.tbf b <;> simp_all

/-- Allocated TBFs are released or exist; numbers from `tbfN` on are not in use. -/
structure Bal (w : World) : Prop where
  sum : ∀ d, w.made d = w.gone d + existing w d
  fresh : ∀ b, w.tbfN ≤ b → w.tbf b = none

theorem Bal.keep {w w' : World} (h : Bal w) (k : Keep w w') : Bal w' := by
  refine ⟨fun d => ?_, fun b hb => ?_⟩
  · rw [k.made, k.gone, existing_keep k.tbfN k.kind, h.sum]
  · have := k.kind b
    rw [k.tbfN] at hb
    rw [h.fresh b hb] at this
    cases h1 : w'.tbf b with
    | none => rfl
    | some x => rw [h1] at this; cases this

theorem Bal.fails {w : World} (h : Bal w) (b : Bool) (n : Nat) : Bal { w with disabled := b, fails := n } :=
  ⟨fun d => h.sum d, h.fresh⟩

/-- One TBF of direction `d0` comes into being. -/
theorem existing_new {w w' : World} {x : Tbf} (hn : w'.tbfN = w.tbfN + 1) (hx : w'.tbf w.tbfN = some x)
    (ho : ∀ b, b ≠ w.tbfN → w'.tbf b = w.tbf b) (d : Dir) :
    existing w' d = existing w d + if d = x.dir then 1 else 0 := by
  unfold existing
  rw [hn, List.range_succ, List.filter_append, List.length_append]
  congr 1
  · congr 1
    refine List.filter_congr fun b hb => ?_
    have : b ≠ w.tbfN := by have := List.mem_range.1 hb; omega
    unfold isTbf
    rw [ho b this]
  · rw [List.filter_cons]
    unfold isTbf
    rw [hx]
    cases hd : x.dir <;> cases d <;> simp [hd]

/-- One TBF of direction `x.dir` is gone. -/
theorem existing_del {w w' : World} {b : Nat} {x : Tbf} (hn : w'.tbfN = w.tbfN) (hx : w.tbf b = some x) (hb : b < w.tbfN)
    (hx' : w'.tbf b = none) (ho : ∀ c, c ≠ b → w'.tbf c = w.tbf c) (d : Dir) :
    existing w d = existing w' d + if d = x.dir then 1 else 0 := by
  unfold existing
  rw [hn]
  have key : ∀ l : List Nat, l.Nodup →
      (l.filter (isTbf w d)).length = (l.filter (isTbf w' d)).length + if b ∈ l ∧ d = x.dir then 1 else 0 := by
    intro l
    induction l with
    | nil => simp
    | cons a l ih =>
      intro hnd
      rw [List.nodup_cons] at hnd
      have ih := ih hnd.2
      rw [List.filter_cons, List.filter_cons]
      by_cases hab : a = b
      · subst hab
        have e1 : isTbf w' d a = false := by unfold isTbf; rw [hx']
        have e2 : isTbf w d a = (x.dir == d) := by unfold isTbf; rw [hx]
        rw [e1, e2]
        rw [if_neg (fun hh => hnd.1 hh.1)] at ih
        cases hd : x.dir <;> cases d <;> simp_all
      · have e1 : isTbf w' d a = isTbf w d a := by unfold isTbf; rw [ho a hab]
        rw [e1]
        have e2 : (b ∈ a :: l ∧ d = x.dir) ↔ (b ∈ l ∧ d = x.dir) := by
          rw [List.mem_cons]
          constructor
          · rintro ⟨h | h, h'⟩
            · exact absurd h.symm hab
            · exact ⟨h, h'⟩
          · rintro ⟨h, h'⟩; exact ⟨.inr h, h'⟩
        split
        · simp only [List.length_cons, ih, e2]; omega
        · simp only [ih, e2]
  rw [key _ List.nodup_range]
  simp only [List.mem_range, hb, true_and]

theorem bal_new {w : World} (h : Bal w) (m : Nat) (d : Dir) (e : Bool) : Bal (newTbf w m d e) := by
  refine ⟨fun d' => ?_, fun b hb => ?_⟩
  · rw [existing_new (w := w) (w' := newTbf w m d e) (x := ⟨d, m, e, none, none, fun _ => false, fun _ => 255⟩) rfl
      (by simp [newTbf, World.setTbf]) (fun b hb => by simp [newTbf, World.setTbf, hb])]
    show incCtr w.made d d' = w.gone d' + _
    have := h.sum d'
    unfold incCtr
    by_cases hd : d' = d
    · subst hd; simp; omega
    · simp [hd]; exact this
  · have hb : w.tbfN + 1 ≤ b := hb
    show (if b = w.tbfN then _ else w.tbf b) = none
    rw [if_neg (by omega), h.fresh b (by omega)]

theorem bal_free {w w' : World} {b : Nat} (h : Bal w) (hf : freeTbf w b = some w') : Bal w' := by
  unfold freeTbf at hf
  cases h1 : unlink w b with
  | none => rw [h1] at hf; cases hf
  | some w1 =>
    rw [h1] at hf
    cases hf
    have hb1 := h.keep (keep_unlink h1)
    cases hx : w1.tbf b with
    | none =>
      refine ⟨fun d => ?_, fun c hc => ?_⟩
      · show w1.made d = goneAfter w1 b d + _
        rw [existing_keep (w := w1) (w' := { w1.setTbf b none with gone := goneAfter w1 b }) rfl (fun c => by
          show (if c = b then none else w1.tbf c).map Tbf.dir = _
          by_cases hc : c = b
          · rw [if_pos hc, hc, hx]
          · rw [if_neg hc])]
        unfold goneAfter
        rw [hx]
        exact hb1.sum d
      · show (if c = b then none else w1.tbf c) = none
        split
        · rfl
        · exact hb1.fresh c hc
    | some x =>
      have hlt : b < w1.tbfN := by
        refine Decidable.byContradiction fun hc => ?_
        rw [hb1.fresh b (by omega)] at hx
        cases hx
      refine ⟨fun d => ?_, fun c hc => ?_⟩
      · show w1.made d = goneAfter w1 b d + _
        have e := existing_del (w := w1) (w' := { w1.setTbf b none with gone := goneAfter w1 b }) rfl hx hlt
          (by simp [World.setTbf]) (fun c hc => by simp [World.setTbf, hc]) d
        have := hb1.sum d
        rw [e] at this
        generalize existing _ d = k at this ⊢
        have eg : goneAfter w1 b d = w1.gone d + if d = x.dir then 1 else 0 := by
          unfold goneAfter incCtr
          rw [hx]
          by_cases hd : d = x.dir <;> simp [hd]
        rw [eg]
        omega
      · show (if c = b then none else w1.tbf c) = none
        split
        · rfl
        · exact hb1.fresh c hc

theorem bal_foldlM {α : Type} {f : World → α → Option World} (hf : ∀ w a w', Bal w → f w a = some w' → Bal w') :
    ∀ (l : List α) (w w' : World), Bal w → l.foldlM f w = some w' → Bal w' := by
  intro l
  induction l with
  | nil => intro w w' hb h; cases h; exact hb
  | cons a l ih =>
    intro w w' hb h
    rw [List.foldlM_cons] at h
    cases h1 : f w a with
    | none => rw [h1] at h; cases h
    | some w1 => rw [h1] at h; exact ih _ _ (hf _ _ _ hb h1) h

theorem bal_alloc {cfg : Cfg} {w w' : World} {m : Nat} {req : Req} {e : Bool} (h : Bal w)
    (ha : allocTbf cfg w m req e = some w') : Bal w' := by
  unfold allocTbf at ha
  dsimp only at ha
  split at ha
  · cases ha; exact h.fails _ _
  · exact (bal_new (w := { w with disabled := _ }) (h.fails _ _) m req.dir e).keep (keep_takeRes ha)

theorem bal_upgrade {cfg : Cfg} {w w' : World} {b : Nat} (h : Bal w) (ha : upgrade cfg w b = some w') : Bal w' := by
  unfold upgrade at ha
  split at ha
  · cases ha; exact h
  · rename_i x hx
    split at ha
    · cases ha; exact h
    · cases h1 : unlink w b with
      | none => rw [h1] at ha; cases ha
      | some w1 =>
        rw [h1] at ha
        simp only [Option.bind_some] at ha
        have hb := h.keep (keep_unlink h1)
        split at ha
        · cases ha; exact hb.fails _ _
        · exact Bal.keep (w := { w1 with disabled := _ }) (hb.fails _ _) (keep_takeRes ha)

theorem bal_freeIf {w w' : World} {b : Option Nat} (h : Bal w) (hf : freeIf w b = some w') : Bal w' := by
  unfold freeIf at hf
  split at hf
  · cases hf; exact h
  · exact bal_free h hf

theorem bal_freeExtra {w w' : World} {b : Nat} (h : Bal w) (hf : freeExtra w b = some w') : Bal w' := by
  unfold freeExtra at hf
  split at hf
  · exact bal_free h hf
  · cases hf; exact h

theorem bal_step {cfg : Cfg} {w w' : World} {op : Op} (h : Bal w) (hs : step cfg w op = some w') : Bal w' := by
  cases op with
  | newMs cls => cases hs; exact ⟨fun d => h.sum d, h.fresh⟩
  | setClass m cls =>
    simp only [step] at hs
    split at hs
    · cases hs; exact h.keep (.setMs ..)
    · cases hs; exact h
  | alloc m req e =>
    simp only [step] at hs
    split at hs
    · exact bal_alloc h hs
    · cases hs; exact h
  | upgrade b => exact bal_upgrade h hs
  | reject m t s e =>
    simp only [step] at hs
    split at hs
    · cases hs
      unfold rejectUl
      dsimp only
      exact (bal_new (h.keep (Keep.setMs ..)) m .ul e).keep
        (Keep.setTbf (x := ⟨.ul, m, e, none, none, fun _ => false, fun _ => 255⟩) (by simp [newTbf, World.setTbf]) rfl)
    · cases hs; exact h
  | free b => exact bal_freeExtra h hs
  | idle m =>
    simp only [step] at hs
    split at hs
    · unfold msIdle at hs
      split at hs
      · cases hs; exact h
      · cases h1 : setReserved w m none 0 0 with
        | none => rw [h1] at hs; cases hs
        | some w1 => rw [h1] at hs; cases hs; exact h.keep ((keep_setReserved h1).trans (.setMs ..))
    · cases hs; exact h
  | enable t s tsc =>
    simp only [step] at hs
    split at hs
    · unfold enablePdch at hs
      split at hs
      · cases hs
      · cases hs; exact h.keep ⟨rfl, rfl, rfl, rfl, fun _ => rfl⟩
    · cases hs; exact h
  | disable t s extra =>
    simp only [step] at hs
    split at hs
    · unfold disablePdch at hs
      split at hs
      · cases hs
      · cases h1 : (List.range 32).foldlM (freeTfi t s) w with
        | none => rw [h1] at hs; cases hs
        | some w1 =>
          rw [h1] at hs
          simp only [Option.bind_some] at hs
          have b1 : Bal w1 := bal_foldlM (fun w a w' hb hf => by
            unfold freeTfi at hf
            cases h2 : freeIf w ((w.pdch t s).tbfs .ul a) with
            | none => rw [h2] at hf; cases hf
            | some w2 => rw [h2] at hf; exact bal_freeIf (bal_freeIf hb h2) hf) _ _ _ h h1
          cases h2 : extra.foldlM freeExtra w1 with
          | none => rw [h2] at hs; cases hs
          | some w2 =>
            rw [h2] at hs
            simp only [Option.bind_some] at hs
            have b2 : Bal w2 := bal_foldlM (fun w a w' hb hf => bal_freeExtra hb hf) _ _ _ b1 h2
            cases h3 : (List.range w2.msN).foldlM (unreserveMs t s) w2 with
            | none => rw [h3] at hs; cases hs
            | some w3 =>
              rw [h3] at hs
              simp only [Option.map_some] at hs
              cases hs
              refine (b2.keep (Keep.foldlM (fun w a w' hf => ?_) _ _ _ h3)).keep ⟨rfl, rfl, rfl, rfl, fun _ => rfl⟩
              unfold unreserveMs at hf
              dsimp only at hf
              split at hf
              · cases hf; exact .refl _
              · split at hf
                · cases hf; exact .refl _
                · exact keep_setReserved hf
    · cases hs; exact h

theorem bal_run {cfg : Cfg} {w : World} {ops : List Op} (h : run cfg World.init ops = some w) : Bal w :=
  bal_foldlM (fun _ _ _ hb hs => bal_step hb hs) ops _ _ ⟨fun _ => rfl, fun _ _ => rfl⟩ h

end Verif.Alloc
