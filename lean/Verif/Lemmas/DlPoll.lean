import Verif.Spec.DlPoll
/-! # Lemmas about polling for downlink acknowledgements -/

namespace Verif.DlPoll

open Verif.Seg (Tx Llc Block append appendGprs appendEgprs dummyFrame fill createBlock liPadding AR)
open Verif.RlcDl (Win Env takeNext)

/-! ### Filling a block -/

theorem append_cv (edge : Bool) (n : Nat) (f : Bool) (t : Tx) (h : (append edge n f t).1.cv ≠ t.cv) :
    f = true ∧ (append edge n f t).2 ≠ .needMore := by
  unfold append appendEgprs appendGprs liPadding at *
  revert h
  cases edge <;> cases f <;> simp only [if_true, if_false, Bool.false_eq_true] <;> (repeat' split) <;> simp_all

theorem append_num (edge : Bool) (n : Nat) (f : Bool) (t : Tx) : (append edge n f t).1.num ≠ 0 := by
  unfold append appendEgprs appendGprs liPadding
  cases edge <;> cases f <;> simp only [if_true, if_false, Bool.false_eq_true] <;> (repeat' split) <;> simp_all

/-- What fits with room for a delimiter is complete. -/
theorem append_fits (edge : Bool) (n : Nat) (f : Bool) (t : Tx) (h : t.cur.length - t.idx < n - t.off) :
    (append edge n f t).2 ≠ .needMore ∧ (t.cur.length - t.idx = 0 → 2 ≤ n - t.off → f = false → (append edge n f t).2 = .spaceLeft) := by
  unfold append appendEgprs appendGprs
  have h1 : ¬ t.cur.length - t.idx > n - t.off := by omega
  have h2 : ¬ t.cur.length - t.idx = n - t.off := by omega
  cases edge <;> cases f <;> simp only [h1, h2, if_true, if_false, Bool.false_eq_true, false_and] <;> (repeat' split) <;>
    simp_all <;> omega

theorem dummy_len (m : Nat) (h : 6 ≤ m) : (dummyFrame m).length ≤ m ∧ dummyFrame m ≠ [] := by
  unfold dummyFrame
  refine ⟨?_, by simp⟩
  simp only [List.length_append, List.length_cons, List.length_nil, List.length_replicate]
  omega

theorem sched_nil (l : List (Bool × List Nat)) : (⟨[], 0, [], l⟩ : Llc).schedule = ⟨[], 0, [], l⟩ := rfl

theorem fill_last (edge : Bool) (n : Nat) (fin : Nat → Bool) : ∀ (k : Nat) (t : Tx) (s : Llc) (b : Block) (l : Llc),
    fill edge n fin k t s = some (b, l) → t.cv ≠ 0 → b.cv = 0 → fillAsks edge n fin k t s = true
  | 0, _, _, _, _, h, _, _ => by simp [fill] at h
  | k + 1, t, s, b, l, h, hc, hb => by
    unfold fill at h
    unfold fillAsks
    by_cases h0 : s.cur.length = 0 ∧ t.num ≠ 0
    · rw [if_pos h0]
    · rw [if_neg h0] at h ⊢
      simp only at h ⊢
      generalize (if s.cur.length = 0 then ({ s with cur := dummyFrame (n - t.off - 1), idx := 0, loaded := s.loaded ++ [(true, dummyFrame (n - t.off - 1))] } : Llc) else s) = s1 at h ⊢
      generalize hf : (s1.queue.isEmpty && fin k) = f at h ⊢
      have hcv := append_cv edge n f { t with cur := s1.cur, idx := s1.idx }
      revert h
      generalize append edge n f { t with cur := s1.cur, idx := s1.idx } = r at hcv ⊢
      obtain ⟨t', ar⟩ := r
      simp only at hcv ⊢
      intro h
      split at h
      · rename_i h1
        simp only [Option.some.injEq, Prod.mk.injEq] at h
        exfalso
        have h2 : t'.cv = 0 := by rw [← h.1] at hb; exact hb
        exact (hcv (by omega)).2 h1
      · rename_i h1
        rw [if_neg h1]
        cases f with
        | true => simp
        | false =>
          have h3 : t'.cv = t.cv := Classical.byContradiction fun x => by cases (hcv x).1
          split at h
          · rename_i h2
            rw [if_pos h2, fill_last edge n fin k t' _ b l h (by omega) hb]
            simp
          · simp only [Option.some.injEq, Prod.mk.injEq] at h
            exfalso
            rw [← h.1] at hb
            exact hc (h3 ▸ hb)

theorem sched_ne (s : Llc) (h : ∀ f ∈ s.queue, f ≠ []) :
    (s.schedule.cur = [] → s.schedule.queue = []) ∧ (∀ f ∈ s.schedule.queue, f ≠ []) := by
  unfold Llc.schedule
  by_cases h0 : s.cur.length ≠ 0
  · rw [if_pos h0]
    exact ⟨fun x => absurd (congrArg List.length x) h0, h⟩
  · rw [if_neg h0]
    cases e : s.queue with
    | nil => exact ⟨fun _ => e, fun f hf => by rw [e] at hf; cases hf⟩
    | cons g q =>
      rw [e] at h
      exact ⟨fun x => absurd x (h g List.mem_cons_self), fun f hf => h f (List.mem_cons_of_mem _ hf)⟩

/-- Nothing is added to the queue. -/
theorem fill_queue (edge : Bool) (n : Nat) (fin : Nat → Bool) : ∀ (k : Nat) (t : Tx) (s : Llc) (b : Block) (l : Llc),
    fill edge n fin k t s = some (b, l) → (∀ f ∈ s.queue, f ≠ []) → ∀ f ∈ l.queue, f ≠ []
  | 0, _, _, _, _, h, _ => by simp [fill] at h
  | k + 1, t, s, b, l, h, hq => by
    unfold fill at h
    by_cases h0 : s.cur.length = 0 ∧ t.num ≠ 0
    · rw [if_pos h0] at h
      simp only [Option.some.injEq, Prod.mk.injEq] at h
      rw [← h.2]; exact hq
    · rw [if_neg h0] at h
      simp only at h
      have hs1 : (if s.cur.length = 0 then ({ s with cur := dummyFrame (n - t.off - 1), idx := 0, loaded := s.loaded ++ [(true, dummyFrame (n - t.off - 1))] } : Llc) else s).queue = s.queue := by
        split <;> rfl
      generalize (if s.cur.length = 0 then ({ s with cur := dummyFrame (n - t.off - 1), idx := 0, loaded := s.loaded ++ [(true, dummyFrame (n - t.off - 1))] } : Llc) else s) = s1 at h hs1
      revert h
      generalize append edge n (s1.queue.isEmpty && fin k) { t with cur := s1.cur, idx := s1.idx } = r
      obtain ⟨t', ar⟩ := r
      intro h
      simp only at h
      split at h
      · simp only [Option.some.injEq, Prod.mk.injEq] at h
        rw [← h.2]; exact hs1 ▸ hq
      · split at h
        · exact fill_queue edge n fin k t' _ b l h (sched_ne _ (hs1 ▸ hq)).2
        · simp only [Option.some.injEq, Prod.mk.injEq] at h
          rw [← h.2]; exact (sched_ne _ (hs1 ▸ hq)).2

theorem fill_empties (edge : Bool) (n : Nat) (hn : 20 ≤ n) (fin : Nat → Bool) : ∀ (k : Nat) (t : Tx) (s : Llc) (b : Block) (l : Llc),
    fill edge n fin k t s = some (b, l) → (t.num = 0 → t.off = 0) → (s.cur = [] → s.queue = []) → (∀ f ∈ s.queue, f ≠ []) →
      fillAsks edge n fin k t s = true →
      l.cur = [] ∧ l.queue = []
  | 0, _, _, _, _, h, _, _, _, _ => by simp [fill] at h
  | k + 1, t, s, b, l, h, hz, hq, hn0, ha => by
    unfold fill at h
    unfold fillAsks at ha
    by_cases h0 : s.cur.length = 0 ∧ t.num ≠ 0
    · rw [if_pos h0] at h
      simp only [Option.some.injEq, Prod.mk.injEq] at h
      have : s.cur = [] := List.length_eq_zero_iff.1 h0.1
      rw [← h.2]
      exact ⟨this, hq this⟩
    · rw [if_neg h0] at h ha
      simp only at h ha
      have hd : s.cur.length = 0 → (t.num = 0 ∧ t.off = 0 ∧ s.queue = []) := fun x => by
        have hx : t.num = 0 := Classical.byContradiction fun y => h0 ⟨x, y⟩
        exact ⟨hx, hz hx, hq (List.length_eq_zero_iff.1 x)⟩
      have hs1 : ∀ s1, s1 = (if s.cur.length = 0 then ({ s with cur := dummyFrame (n - t.off - 1), idx := 0, loaded := s.loaded ++ [(true, dummyFrame (n - t.off - 1))] } : Llc) else s) →
          s1.queue = s.queue ∧ (s.cur.length = 0 → s1.cur.length - s1.idx < n - t.off) := by
        intro s1 e
        by_cases hx : s.cur.length = 0
        · rw [if_pos hx] at e
          subst e
          obtain ⟨_, h2, _⟩ := hd hx
          have := (dummy_len (n - t.off - 1) (by omega)).1
          exact ⟨rfl, fun _ => by simp only; omega⟩
        · rw [if_neg hx] at e
          subst e
          exact ⟨rfl, fun y => absurd y hx⟩
      generalize hg : (if s.cur.length = 0 then ({ s with cur := dummyFrame (n - t.off - 1), idx := 0, loaded := s.loaded ++ [(true, dummyFrame (n - t.off - 1))] } : Llc) else s) = s1 at h ha
      obtain ⟨q1, q2⟩ := hs1 s1 hg.symm
      generalize hf : (s1.queue.isEmpty && fin k) = f at h ha
      have hfit := fun x => (append_fits edge n f { t with cur := s1.cur, idx := s1.idx } x).1
      have hnum := append_num edge n f { t with cur := s1.cur, idx := s1.idx }
      revert h ha
      generalize append edge n f { t with cur := s1.cur, idx := s1.idx } = r at hfit hnum ⊢
      obtain ⟨t', ar⟩ := r
      simp only at hfit hnum ⊢
      intro h ha
      by_cases h1 : ar = .needMore
      · rw [if_pos h1] at ha
        exact absurd h1 (hfit (q2 (of_decide_eq_true ha)))
      · rw [if_neg h1] at h ha
        have hx : s1.queue = [] → ({ s1 with cur := [], idx := 0 } : Llc).schedule = ⟨[], 0, [], s1.loaded⟩ := by
          intro e; simp [Llc.schedule, e]
        have hy : ({ s1 with cur := [], idx := 0 } : Llc).schedule.cur = [] → ({ s1 with cur := [], idx := 0 } : Llc).schedule.queue = [] := by
          exact (sched_ne _ (q1 ▸ hn0)).1
        by_cases hs : ar = .spaceLeft
        · rw [if_pos hs] at h
          by_cases he : s1.queue = []
          · rw [hx he] at h
            cases k with
            | zero => simp [fill] at h
            | succ k =>
              unfold fill at h
              rw [if_pos ⟨rfl, hnum⟩] at h
              simp only [Option.some.injEq, Prod.mk.injEq] at h
              rw [← h.2]
              exact ⟨rfl, rfl⟩
          · rw [if_pos hs] at ha
            have hnd : s.cur.length ≠ 0 := fun x => he (by rw [q1]; exact (hd x).2.2)
            have hnf : f = false := by rw [← hf]; simp [he]
            rw [hnf, decide_eq_false hnd, Bool.false_or, Bool.false_or] at ha
            exact fill_empties edge n hn fin k t' _ b l h (fun x => absurd x hnum) hy (sched_ne _ (q1 ▸ hn0)).2 ha
        · rw [if_neg hs] at h ha
          simp only [Option.some.injEq, Prod.mk.injEq] at h
          have he : s1.queue = [] := by
            rw [Bool.or_false, Bool.or_eq_true] at ha
            rcases ha with ha | ha
            · rw [q1]; exact (hd (of_decide_eq_true ha)).2.2
            · rw [← hf, Bool.and_eq_true] at ha; exact List.isEmpty_iff.1 ha.1
          rw [← h.2, hx he]
          exact ⟨rfl, rfl⟩

/-- The block that is made. -/
theorem create_spec {edge : Bool} {n : Nat} {fin : Nat → Bool} {s : Llc} {b : Block} {l : Llc} (hn : 20 ≤ n) (hq : ∀ f ∈ s.queue, f ≠ [])
    (h : createBlock edge n fin s = some (b, l)) :
    (b.cv = 0 → createAsks edge n fin s = true) ∧ (createAsks edge n fin s = true → l.cur = [] ∧ l.queue = []) ∧ (∀ f ∈ l.queue, f ≠ []) := by
  obtain ⟨h1, h2⟩ := sched_ne s hq
  exact ⟨fill_last edge n fin _ _ _ b l h (by simp), fill_empties edge n hn fin _ _ _ b l h (fun _ => rfl) h1 h2,
    fill_queue edge n fin _ _ _ b l h h2⟩

/-- Nothing to send: the mobile is to be asked. -/
theorem create_idle {edge : Bool} {n : Nat} {fin : Nat → Bool} {s : Llc} (hn : 20 ≤ n) (hq : s.queue = []) (hc : s.cur.length ≤ s.idx) :
    createAsks edge n fin s = true := by
  have e : s.schedule = s := by
    unfold Llc.schedule
    split
    · rfl
    · rw [hq]
  unfold createAsks
  rw [e]
  unfold fillAsks
  by_cases h0 : s.cur.length = 0
  · simp only [h0, true_and, ne_eq, not_true_eq_false, if_false, decide_true, Bool.true_or, if_true, ite_self]
  · simp only [h0, false_and, if_false, decide_false, Bool.false_or, if_neg, not_false_eq_true]
    obtain ⟨f1, f2⟩ := append_fits edge n (s.queue.isEmpty && fin (n + 1))
      { blk := List.replicate n 0x2b, off := 0, num := 0, e := 1, cv := 15, cur := s.cur, idx := s.idx } (by simp only; omega)
    have hnum := append_num edge n (s.queue.isEmpty && fin (n + 1))
      { blk := List.replicate n 0x2b, off := 0, num := 0, e := 1, cv := 15, cur := s.cur, idx := s.idx }
    rw [if_neg f1]
    cases hf : fin (n + 1) with
    | true => simp [hq]
    | false =>
      rw [hf] at f1 f2 hnum
      rw [if_pos (f2 (by simp only; omega) (by simp only; omega) (by simp))]
      have : ({ s with cur := [], idx := 0 } : Llc).schedule.cur.length = 0 := by simp [Llc.schedule, hq]
      unfold fillAsks
      rw [if_pos ⟨this, hnum⟩]
      simp

/-! ### The window -/

theorem markResend_keep : ∀ (k : Nat) (w : Win) (b c : Nat), (RlcDl.markResendLoop k w b c).1.sns = w.sns ∧ (RlcDl.markResendLoop k w b c).1.vs = w.vs
  | 0, _, _, _ => ⟨rfl, rfl⟩
  | k + 1, w, b, c => by
    unfold RlcDl.markResendLoop
    split
    · exact ⟨rfl, rfl⟩
    · split
      · exact markResend_keep k _ _ _
      · exact markResend_keep k _ _ _

theorem restart_keep (w : Win) : w.restart.1.sns = w.sns ∧ w.restart.1.vs = w.vs := by
  unfold Win.restart
  split
  · exact ⟨rfl, rfl⟩
  · exact markResend_keep _ _ _ _

theorem update_keep : ∀ (bits : List Bool) (w : Win) (b l r : Nat), (RlcDl.updateLoop w b bits l r).1.sns = w.sns
  | [], _, _, _, _ => rfl
  | x :: bits, w, b, l, r => by
    unfold RlcDl.updateLoop
    simp only
    split
    · rfl
    · split
      · exact update_keep bits _ _ _ _
      · exact update_keep bits _ _ _ _

theorem move_keep : ∀ (k : Nat) (w : Win) (b m : Nat), (RlcDl.moveLoop k w b m).1.sns = w.sns
  | 0, _, _, _ => rfl
  | k + 1, w, b, m => by
    unfold RlcDl.moveLoop
    split
    · rfl
    · split
      · exact move_keep k _ _ _
      · rfl

theorem ackNack_keep (w : Win) (b : Nat) (bits : List Bool) : (w.ackNack b bits).sns = w.sns := by
  have h1 := update_keep (bits.take w.distance) w b 0 0
  have h2 := move_keep (w.update bits b).1.sns (w.update bits b).1 (w.update bits b).1.va 0
  unfold Win.ackNack
  exact h2.trans h1

/-- V(S) moves if and only if a block is made. -/
theorem takeNext_vs : ∀ (k : Nat) (e : Env) (w w' : Win) (r : Option (Nat × RlcDl.Why)), takeNext k e w = some (w', r) →
    w'.sns = w.sns ∧ (w'.vs = w.vs ∧ (∀ b y, r = some (b, y) → ¬ (y = .fresh ∨ y = .dummy)) ∨
      w'.vs = (w.vs + 1) % w.sns ∧ ∃ b y, r = some (b, y) ∧ (y = .fresh ∨ y = .dummy))
  | 0, _, _, _, _, h => by simp [takeNext] at h
  | k + 1, e, w, w', r, h => by
    have retry : ∀ x, (if w.restart.2 then takeNext k e w.restart.1 else
          some (w.restart.1, some (w.restart.1.modSns (w.restart.1.vs + w.restart.1.sns - 1), RlcDl.Why.final))) = some x →
        x = (w', r) → w'.sns = w.sns ∧ (w'.vs = w.vs ∧ (∀ b y, r = some (b, y) → ¬ (y = .fresh ∨ y = .dummy)) ∨
          w'.vs = (w.vs + 1) % w.sns ∧ ∃ b y, r = some (b, y) ∧ (y = .fresh ∨ y = .dummy)) := by
      intro x hx e'
      subst e'
      obtain ⟨k1, k2⟩ := restart_keep w
      split at hx
      · have := takeNext_vs k e _ _ _ hx
        rw [k1, k2] at this
        exact this
      · simp only [Option.some.injEq, Prod.mk.injEq] at hx
        obtain ⟨rfl, rfl⟩ := hx
        exact ⟨k1, Or.inl ⟨k2, fun b y hy => by
          simp only [Option.some.injEq, Prod.mk.injEq] at hy
          rw [← hy.2]; simp⟩⟩
    have none_ : ∀ {w0 : Win}, w0.sns = w.sns → w0.vs = w.vs → some (w0, (none : Option (Nat × RlcDl.Why))) = some (w', r) →
        w'.sns = w.sns ∧ (w'.vs = w.vs ∧ (∀ b y, r = some (b, y) → ¬ (y = .fresh ∨ y = .dummy)) ∨
          w'.vs = (w.vs + 1) % w.sns ∧ ∃ b y, r = some (b, y) ∧ (y = .fresh ∨ y = .dummy)) := by
      intro w0 e1 e2 hx
      simp only [Option.some.injEq, Prod.mk.injEq] at hx
      obtain ⟨rfl, rfl⟩ := hx
      exact ⟨e1, Or.inl ⟨e2, fun b y hy => by cases hy⟩⟩
    have old : ∀ {w0 : Win} {b0 : Nat}, w0.sns = w.sns → w0.vs = w.vs → some (w0, some (b0, RlcDl.Why.resend)) = some (w', r) →
        w'.sns = w.sns ∧ (w'.vs = w.vs ∧ (∀ b y, r = some (b, y) → ¬ (y = .fresh ∨ y = .dummy)) ∨
          w'.vs = (w.vs + 1) % w.sns ∧ ∃ b y, r = some (b, y) ∧ (y = .fresh ∨ y = .dummy)) := by
      intro w0 b0 e1 e2 hx
      simp only [Option.some.injEq, Prod.mk.injEq] at hx
      obtain ⟨rfl, rfl⟩ := hx
      exact ⟨e1, Or.inl ⟨e2, fun b y hy => by
        simp only [Option.some.injEq, Prod.mk.injEq] at hy
        rw [← hy.2]; simp⟩⟩
    have new : ∀ {y0 : RlcDl.Why}, (y0 = .fresh ∨ y0 = .dummy) → some (w.createNew.1, some (w.createNew.2, y0)) = some (w', r) →
        w'.sns = w.sns ∧ (w'.vs = w.vs ∧ (∀ b y, r = some (b, y) → ¬ (y = .fresh ∨ y = .dummy)) ∨
          w'.vs = (w.vs + 1) % w.sns ∧ ∃ b y, r = some (b, y) ∧ (y = .fresh ∨ y = .dummy)) := by
      intro y0 hy hx
      simp only [Option.some.injEq, Prod.mk.injEq] at hx
      obtain ⟨rfl, rfl⟩ := hx
      exact ⟨rfl, Or.inr ⟨rfl, _, _, rfl, hy⟩⟩
    unfold takeNext at h
    simp only at h
    split at h
    · exact none_ rfl rfl h
    · split at h
      · split at h
        · split at h
          · exact none_ rfl rfl h
          · split at h
            · exact none_ rfl rfl h
            · split at h
              · exact none_ rfl rfl h
              · refine old ?_ ?_ h <;> rfl
        · refine old ?_ ?_ h <;> rfl
      · split at h
        · exact retry _ h rfl
        · split at h
          · exact retry _ h rfl
          · split at h
            · exact new (Or.inl rfl) h
            · split at h
              · exact retry _ h rfl
              · exact new (Or.inr rfl) h

/-! ### One call of `take_next_bsn` -/

/-- The queue holds no empty frame; sequence numbers are useful. -/
structure Ok (t : DlData.Tbf) : Prop where
  queue : ∀ f ∈ t.llc.queue, f ≠ []
  sns : 2 < t.win.sns

/-- Nothing is left of the frames. -/
def Gone (t : DlData.Tbf) : Prop := t.llc.cur = [] ∧ t.llc.queue = []

/-- Nothing is to be sent for the first time. -/
def Quiet (t : DlData.Tbf) : Prop := t.llc.queue = [] ∧ t.llc.cur.length ≤ t.llc.idx

theorem send_spec {edge : Bool} {t u : DlData.Tbf} {prev : Option Nat} {c : Call} {b : Option (Nat × Block)} (hn : 20 ≤ c.n) (h0 : Ok t)
    (h : t.send edge prev c.prevEdge c.preempt c.n c.fin = some (u, b)) :
    Ok u ∧ u.win.sns = t.win.sns ∧
      (u.win.vs = t.win.vs ∧ u.llc = t.llc ∧ u.finished = t.finished ∧ takeAsks edge t prev c = false ∨
        u.win.vs = (t.win.vs + 1) % t.win.sns ∧ (u.finished = true → takeAsks edge t prev c = true) ∧
          (takeAsks edge t prev c = true → Gone u) ∧ (Quiet t → takeAsks edge t prev c = true)) := by
  unfold DlData.Tbf.send at h
  unfold takeAsks
  cases ht : takeNext 2 (t.env prev c.prevEdge c.preempt) t.win with
  | none => rw [ht] at h; cases h
  | some r =>
    obtain ⟨w, r⟩ := r
    rw [ht] at h
    obtain ⟨h1, h2⟩ := takeNext_vs _ _ _ _ _ ht
    cases r with
    | none =>
      simp only [Option.some.injEq, Prod.mk.injEq] at h
      obtain ⟨rfl, rfl⟩ := h
      refine ⟨⟨h0.queue, h1 ▸ h0.sns⟩, h1, Or.inl ⟨?_, rfl, rfl, rfl⟩⟩
      rcases h2 with h2 | ⟨_, b, y, hx, _⟩
      · exact h2.1
      · cases hx
    | some r =>
      obtain ⟨b0, y⟩ := r
      simp only at h ⊢
      by_cases hy : y = .fresh ∨ y = .dummy
      · rw [if_pos hy] at h ⊢
        cases hc : createBlock edge c.n c.fin t.llc with
        | none => rw [hc] at h; cases h
        | some q =>
          obtain ⟨k, l⟩ := q
          rw [hc] at h
          simp only [Option.some.injEq, Prod.mk.injEq] at h
          obtain ⟨rfl, rfl⟩ := h
          obtain ⟨c1, c2, c3⟩ := create_spec hn h0.queue hc
          refine ⟨⟨c3, h1 ▸ h0.sns⟩, h1, Or.inr ⟨?_, fun x => c1 (of_decide_eq_true x), c2, fun q => create_idle hn q.1 q.2⟩⟩
          rcases h2 with h2 | h2
          · exact absurd hy (h2.2 _ _ rfl)
          · exact h2.1
      · rw [if_neg hy] at h ⊢
        simp only [Option.some.injEq, Prod.mk.injEq] at h
        obtain ⟨rfl, rfl⟩ := h
        refine ⟨⟨h0.queue, h1 ▸ h0.sns⟩, h1, Or.inl ⟨?_, rfl, rfl, rfl⟩⟩
        rcases h2 with h2 | ⟨_, b, y', hx, hy'⟩
        · exact h2.1
        · simp only [Option.some.injEq, Prod.mk.injEq] at hx
          exact absurd (hx.2 ▸ hy') hy

/-! ### A radio block -/

/-- The flags after the data blocks were chosen. -/
def Ask.wish (p : Ask) (asks : Bool) : Ask := { p with req := p.req || asks }

theorem mod_succ_ne {v n : Nat} (h : 2 < n) : (v + 1) % n ≠ v ∧ ((v + 1) % n + 1) % n ≠ v := by
  by_cases hv : v < n
  · by_cases h1 : v + 1 < n
    · rw [Nat.mod_eq_of_lt h1]
      refine ⟨by omega, ?_⟩
      by_cases h2 : v + 1 + 1 < n
      · rw [Nat.mod_eq_of_lt h2]; omega
      · have : v + 1 + 1 = n := by omega
        rw [this, Nat.mod_self]; omega
    · have : v + 1 = n := by omega
      rw [this, Nat.mod_self]
      refine ⟨by omega, ?_⟩
      rw [Nat.mod_eq_of_lt (by omega)]; omega
  · have h1 := Nat.mod_lt (v + 1) (show n > 0 by omega)
    have h2 := Nat.mod_lt ((v + 1) % n + 1) (show n > 0 by omega)
    omega

theorem radio_spec {edge : Bool} {t t' : Tbf} {ctrl free a : Bool} {c1 : Call} {c2 : Option Call} {bs : List (Nat × Block)}
    (hn : 20 ≤ c1.n) (hn2 : ∀ c ∈ c2, 20 ≤ c.n) (h0 : Ok t.data) (h : radio edge t ctrl free c1 c2 = some (t', bs, a)) (hb : bs ≠ []) :
    Ok t'.data ∧ ∃ asks : Bool, (t'.p, a) = (t.p.wish asks).poll ctrl free ∧
      (asks = true → Gone t'.data ∧ t'.data.win.vs ≠ t.data.win.vs) ∧
      (t'.data.win.vs ≠ t.data.win.vs → t'.data.finished = true → asks = true) ∧
      (t'.data.win.vs ≠ t.data.win.vs → Quiet t.data → asks = true) := by
  unfold radio at h
  cases h1 : t.data.send edge none c1.prevEdge c1.preempt c1.n c1.fin with
  | none => rw [h1] at h; cases h
  | some r =>
    obtain ⟨d, b⟩ := r
    rw [h1] at h
    obtain ⟨g1, g2, g3⟩ := send_spec hn h0 h1
    cases b with
    | none =>
      simp only [Option.some.injEq, Prod.mk.injEq] at h
      exact absurd h.2.1.symm hb
    | some b =>
      have hm := mod_succ_ne (v := t.data.win.vs) h0.sns
      cases c2 with
      | none =>
        simp only [Option.some.injEq, Prod.mk.injEq] at h
        obtain ⟨rfl, _, rfl⟩ := h
        refine ⟨g1, takeAsks edge t.data none c1, rfl, ?_⟩
        simp only
        rcases g3 with ⟨e1, _, _, e4⟩ | ⟨e1, e2, e3, e4⟩
        · rw [e4]
          exact ⟨fun x => (by cases x), fun x => absurd e1 x, fun x => absurd e1 x⟩
        · exact ⟨fun x => ⟨e3 x, by rw [e1]; exact hm.1⟩, fun _ x => e2 x, fun _ x => e4 x⟩
      | some c =>
        simp only at h
        cases h2 : d.send edge (some b.1) c.prevEdge c.preempt c.n c.fin with
        | none => rw [h2] at h; cases h
        | some r =>
          obtain ⟨d', b'⟩ := r
          rw [h2] at h
          obtain ⟨k1, k2, k3⟩ := send_spec (hn2 c rfl) g1 h2
          simp only [Option.some.injEq, Prod.mk.injEq] at h
          obtain ⟨rfl, _, rfl⟩ := h
          refine ⟨k1, takeAsks edge t.data none c1 || takeAsks edge d (some b.1) c, ?_, ?_⟩
          · unfold Ask.wish
            simp only [Bool.or_assoc]
          · simp only
            rcases g3 with ⟨e1, e2, e3, e4⟩ | ⟨e1, e2, e3, e4⟩
            · rw [e4, Bool.false_or]
              rcases k3 with ⟨f1, _, _, f4⟩ | ⟨f1, f2, f3, f4⟩
              · rw [f4]
                exact ⟨fun x => (by cases x), fun x => absurd (f1.trans e1) x, fun x => absurd (f1.trans e1) x⟩
              · refine ⟨fun x => ⟨f3 x, by rw [f1, e1, g2]; exact hm.1⟩, fun _ x => f2 x, fun _ x => f4 ?_⟩
                unfold Quiet at x ⊢
                rw [e2]; exact x
            · rcases k3 with ⟨f1, f2, f3, f4⟩ | ⟨f1, f2, f3, f4⟩
              · rw [f4, Bool.or_false]
                refine ⟨fun x => ⟨?_, by rw [f1, e1]; exact hm.1⟩, fun _ x => e2 (f3 ▸ x), fun _ x => e4 x⟩
                have := e3 x
                unfold Gone at this ⊢
                rw [f2]; exact this
              · refine ⟨fun x => ⟨?_, by rw [f1, e1, g2]; exact hm.2⟩, fun _ x => by rw [f2 x, Bool.or_true], fun _ x => by rw [e4 x, Bool.true_or]⟩
                rcases Bool.or_eq_true _ _ ▸ x with x | x
                · have := e3 x
                  exact f3 (f4 ⟨this.2, by rw [this.1]; exact Nat.zero_le _⟩)
                · exact f3 x

end Verif.DlPoll
