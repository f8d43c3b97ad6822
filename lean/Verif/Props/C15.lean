import Verif.Spec.LlcQueue
import Verif.Props.C16
/-!
# C15: Only expired or congestion-dropped frames are discarded at dequeue
-/

namespace Verif.Llc

theorem pick_none {q : Queue} (h : pick q = none) : all q = [] := by
  unfold pick firstPrio nprio firstPrio firstPrio firstPrio at h
  unfold all
  grind

/-- The picked frame is the first one in the order of service. -/
theorem pick_some {q q1 : Queue} {f : Frame} {p : Nat} (h : pick q = some (q1, f, p)) :
    all q = f :: all q1 ∧ q1.size = q.size - 1 ∧ q1.octets = q.octets - f.data.length ∧
    q1.useCodel = q.useCodel ∧ q1.codel = q.codel ∧ p < 3 ∧ q.pq p = f :: q1.pq p ∧
    (∀ j, j ≠ p → q1.pq j = q.pq j) ∧ ∀ j, j < p → q.pq j = [] := by
  unfold pick at h
  have hp : ∀ p, firstPrio q nprio 0 = some p → p < 3 ∧ q.pq p ≠ [] ∧ ∀ j, j < p → q.pq j = [] := by
    intro p hp
    unfold nprio firstPrio firstPrio firstPrio firstPrio at hp
    split at hp
    · split at hp
      · split at hp
        · simp at hp
        · simp at hp; subst hp
          refine ⟨by omega, by assumption, fun j hj => ?_⟩
          rcases (by omega : j = 0 ∨ j = 1) with rfl | rfl <;> assumption
      · simp at hp; subst hp
        refine ⟨by omega, by assumption, fun j hj => ?_⟩
        rcases (by omega : j = 0) with rfl; assumption
    · simp at hp; subst hp
      exact ⟨by omega, by assumption, fun j hj => by omega⟩
  split at h
  · simp at h
  rename_i p' hp'
  obtain ⟨h1, h2, h3⟩ := hp p' hp'
  split at h
  · simp at h
  rename_i f' l hl
  simp only [Option.some.injEq, Prod.mk.injEq] at h
  obtain ⟨rfl, rfl, rfl⟩ := h
  refine ⟨?_, rfl, rfl, rfl, rfl, h1, ?_, ?_, h3⟩
  · unfold all upd
    dsimp only
    rcases (by omega : p' = 0 ∨ p' = 1 ∨ p' = 2) with rfl | rfl | rfl
    · simp [hl]
    · simp [hl, h3 0 (by omega)]
    · simp [hl, h3 0 (by omega), h3 1 (by omega)]
  · simp [upd, hl]
  · intro j hj; simp [upd, hj]

theorem expired_iff (now e : Int) : expired now e = true ↔ e ≠ 0 ∧ e < now := by
  unfold expired
  split <;> simp_all

/-- As `Discard`, with `b`: something was discarded before the list. -/
def DiscardF (now hyst : Int) (b : Bool) (cd : Bool) (f : Frame) : Prop :=
  cd = true ∨ (f.expire ≠ 0 ∧ f.expire < now) ∨
    (b = true ∧ f.expire ≠ 0 ∧ f.expire < now + hyst ∧ canBeDiscarded f.data = true)

theorem placed_pick {q q1 : Queue} {f : Frame} {p : Nat} (h : pick q = some (q1, f, p))
    (hp : Placed q) : Placed q1 ∧ prio f = p := by
  obtain ⟨-, -, -, -, -, h6, h7, h8, -⟩ := pick_some h
  refine ⟨fun i hi g hg => ?_, hp p h6 f (by rw [h7]; exact List.mem_cons_self)⟩
  by_cases e : i = p
  · subst e; exact hp i hi g (by rw [h7]; exact List.mem_cons_of_mem _ hg)
  · rw [h8 i e] at hg; exact hp i hi g hg

theorem dequeueLoop_spec (now hyst : Int) (hh : 0 ≤ hyst) (T : Int) (M : Nat) :
    ∀ (n : Nat) (q : Queue) (dropped : List Frame), (all q).length < n → Accounted q →
    (∀ j, (q.codel j).target = T ∧ (q.codel j).maxpacket = M) →
    ∀ q' d r, dequeueLoop now hyst n q dropped = (q', d, r) →
    ∃ (k : Nat) (cd : Nat → Bool), d = dropped ++ (all q).take k ∧ k ≤ (all q).length ∧
      all q' = (all q).drop (k + 1) ∧ r.map (·.1) = (all q)[k]? ∧
      (∀ i < k, ∃ f, (all q)[i]? = some f ∧
        DiscardF now hyst (dropped ≠ [] ∨ 0 < i) (cd i) f) ∧
      (∀ f, (all q)[k]? = some f → ¬ DiscardF now hyst (dropped ≠ [] ∨ 0 < k) (cd k) f) ∧
      (∀ i, cd i = true → q.useCodel = true ∧ ∃ f, (all q)[i]? = some f ∧ T ≤ now - f.recv ∧
        M < octetsOf ((all q).drop (i + 1))) ∧
      Accounted q' ∧ (∀ j, (q'.codel j).target = T ∧ (q'.codel j).maxpacket = M) ∧
      q'.useCodel = q.useCodel ∧
      (∀ f p, r = some (f, p) → p < 3 ∧ ∀ j < p, q'.pq j = []) ∧
      (Placed q → Placed q' ∧ ∀ f p, r = some (f, p) → prio f = p) := by
  intro n
  induction n with
  | zero => intro q _ h; omega
  | succ n ih =>
    intro q dropped hn hacc hpar q' d r hrun
    unfold dequeueLoop at hrun
    cases hpk : pick q with
    | none =>
      have hnil := pick_none hpk
      rw [hpk] at hrun
      simp only [Prod.mk.injEq] at hrun
      obtain ⟨rfl, rfl, rfl⟩ := hrun
      refine ⟨0, fun _ => false, ?_⟩
      simp [hnil, hacc, hpar]
    | some x =>
      obtain ⟨q1, f, p⟩ := x
      rw [hpk] at hrun
      obtain ⟨h1, h2, h3, h4, h5, h6, h7, h8, h9⟩ := pick_some hpk
      dsimp only at hrun
      have hpl := fun h => placed_pick hpk h
      have hlen : (all q).length = (all q1).length + 1 := by rw [h1]; rfl
      have hoct : octetsOf (all q) = f.data.length + octetsOf (all q1) := by rw [h1]; simp [octetsOf]
      have hacc1 : Accounted q1 := by
        unfold Accounted at hacc ⊢; omega
      have hcg := Codel.control_cong (q1.codel p) f.recv now q1.octets
      have hcp := Codel.control_params (q1.codel p) (some f.recv) now q1.octets
      generalize hc : Codel.control (q1.codel p) (some f.recv) now q1.octets = c at hrun hcg hcp
      generalize hq2 : (if q1.useCodel = true then { q1 with codel := upd q1.codel p c.1 } else q1) = q2 at hrun
      have e1 : q2.pq = q1.pq ∧ q2.size = q1.size ∧ q2.octets = q1.octets ∧ q2.useCodel = q1.useCodel := by
        rw [← hq2]; split <;> exact ⟨rfl, rfl, rfl, rfl⟩
      have e2 : all q2 = all q1 := by unfold all; rw [e1.1]
      have e3 : Accounted q2 := by
        unfold Accounted at hacc1 ⊢; rw [e2]; omega
      have e4 : ∀ j, (q2.codel j).target = T ∧ (q2.codel j).maxpacket = M := by
        intro j
        have := hpar j
        have hpp := hpar p
        rw [← hq2]
        rw [h5] at hcp
        split
        · dsimp only [upd]
          split
          · rw [hcp.2.1, hcp.2.2]; exact hpp
          · rw [h5]; exact this
        · rw [h5]; exact this
      have e5 : Placed q → Placed q2 := by
        intro h; have := (hpl h).1; unfold Placed at this ⊢; rw [e1.1]; exact this
      -- the frame is kept
      have keep : (q2, dropped, some (f, p)) = (q', d, r) →
          (q1.useCodel && c.2) = false → ¬ DiscardF now hyst (dropped ≠ []) false f →
          ∃ (k : Nat) (cd : Nat → Bool), d = dropped ++ (all q).take k ∧ k ≤ (all q).length ∧
            all q' = (all q).drop (k + 1) ∧ r.map (·.1) = (all q)[k]? ∧
            (∀ i < k, ∃ f, (all q)[i]? = some f ∧
              DiscardF now hyst (dropped ≠ [] ∨ 0 < i) (cd i) f) ∧
            (∀ f, (all q)[k]? = some f → ¬ DiscardF now hyst (dropped ≠ [] ∨ 0 < k) (cd k) f) ∧
            (∀ i, cd i = true → q.useCodel = true ∧ ∃ f, (all q)[i]? = some f ∧ T ≤ now - f.recv ∧
              M < octetsOf ((all q).drop (i + 1))) ∧
            Accounted q' ∧ (∀ j, (q'.codel j).target = T ∧ (q'.codel j).maxpacket = M) ∧
            q'.useCodel = q.useCodel ∧
            (∀ f p, r = some (f, p) → p < 3 ∧ ∀ j < p, q'.pq j = []) ∧
            (Placed q → Placed q' ∧ ∀ f p, r = some (f, p) → prio f = p) := by
        intro hr _ hnd
        simp only [Prod.mk.injEq] at hr
        obtain ⟨rfl, rfl, rfl⟩ := hr
        refine ⟨0, fun _ => false, by simp, by omega, by rw [h1, e2]; rfl, by rw [h1]; rfl,
          fun i hi => by omega, ?_, by simp, e3, e4, by rw [e1.2.2.2, h4], ?_, ?_⟩
        · intro g hg
          rw [h1] at hg
          simp only [List.getElem?_cons_zero, Option.some.injEq] at hg
          subst hg
          simpa using hnd
        · intro g p' hg
          simp only [Option.some.injEq, Prod.mk.injEq] at hg
          obtain ⟨rfl, rfl⟩ := hg
          refine ⟨h6, fun j hj => ?_⟩
          rw [e1.1, h8 j (by omega)]
          exact h9 j hj
        · intro h
          refine ⟨e5 h, fun g p' hg => ?_⟩
          simp only [Option.some.injEq, Prod.mk.injEq] at hg
          obtain ⟨rfl, rfl⟩ := hg
          exact (hpl h).2
      -- the frame is discarded
      have drop : ∀ b : Bool, dequeueLoop now hyst n q2 (dropped ++ [f]) = (q', d, r) →
          (b = true → q1.useCodel = true ∧ c.2 = true) → DiscardF now hyst (dropped ≠ []) b f →
          ∃ (k : Nat) (cd : Nat → Bool), d = dropped ++ (all q).take k ∧ k ≤ (all q).length ∧
            all q' = (all q).drop (k + 1) ∧ r.map (·.1) = (all q)[k]? ∧
            (∀ i < k, ∃ f, (all q)[i]? = some f ∧
              DiscardF now hyst (dropped ≠ [] ∨ 0 < i) (cd i) f) ∧
            (∀ f, (all q)[k]? = some f → ¬ DiscardF now hyst (dropped ≠ [] ∨ 0 < k) (cd k) f) ∧
            (∀ i, cd i = true → q.useCodel = true ∧ ∃ f, (all q)[i]? = some f ∧ T ≤ now - f.recv ∧
              M < octetsOf ((all q).drop (i + 1))) ∧
            Accounted q' ∧ (∀ j, (q'.codel j).target = T ∧ (q'.codel j).maxpacket = M) ∧
            q'.useCodel = q.useCodel ∧
            (∀ f p, r = some (f, p) → p < 3 ∧ ∀ j < p, q'.pq j = []) ∧
            (Placed q → Placed q' ∧ ∀ f p, r = some (f, p) → prio f = p) := by
        intro b hr hb hd
        obtain ⟨k, cd, i1, i2, i3, i4, i5, i6, i7, i8, i9, i10, i11, i12⟩ :=
          ih q2 (dropped ++ [f]) (by rw [e2]; omega) e3 e4 q' d r hr
        rw [e2] at i1 i2 i3 i4 i5 i6 i7
        refine ⟨k + 1, fun i => match i with | 0 => b | i + 1 => cd i, ?_, by omega, ?_, ?_, ?_, ?_, ?_,
          i8, i9, by rw [i10, e1.2.2.2, h4], i11, fun h => i12 (e5 h)⟩
        · rw [i1, h1]; simp
        · rw [i3, h1]; rfl
        · rw [i4, h1]; rfl
        · intro i hi
          cases i with
          | zero =>
            refine ⟨f, by rw [h1]; rfl, ?_⟩
            simpa using hd
          | succ i =>
            obtain ⟨g, hg, hgd⟩ := i5 i (by omega)
            refine ⟨g, by rw [h1]; exact hg, ?_⟩
            simpa using hgd
        · intro g hg
          rw [h1] at hg
          have := i6 g hg
          simpa using this
        · intro i hi
          cases i with
          | zero =>
            obtain ⟨hu, hcd⟩ := hb hi
            rw [h4] at hu
            refine ⟨hu, f, by rw [h1]; rfl, ?_⟩
            have hpp := hpar p
            rw [← h5] at hpp
            have := hcg hcd
            rw [hpp.1, hpp.2] at this
            refine ⟨this.1, ?_⟩
            rw [h1]
            simp only [Nat.zero_add, List.drop_succ_cons, List.drop_zero]
            have := this.2
            rw [hacc1.2] at this
            omega
          | succ i =>
            obtain ⟨hu, g, hg⟩ := i7 i hi
            rw [e1.2.2.2, h4] at hu
            refine ⟨hu, g, ?_⟩
            rw [h1]
            exact hg
      by_cases hcd : (q1.useCodel && c.2) = true
      · rw [if_pos hcd] at hrun
        rw [Bool.and_eq_true] at hcd
        exact drop true hrun (fun _ => hcd) (Or.inl rfl)
      rw [if_neg hcd] at hrun
      have hcd' : (q1.useCodel && c.2) = false := by simpa using hcd
      by_cases hx : expired (now + hyst) f.expire = true
      · have hx' := (expired_iff _ _).1 hx
        rw [hx] at hrun
        simp only [Bool.not_true, Bool.false_eq_true, if_false] at hrun
        by_cases hy : expired now f.expire = true
        · have hy' := (expired_iff _ _).1 hy
          rw [hy] at hrun
          simp only [Bool.not_true, Bool.false_and, Bool.false_eq_true, if_false] at hrun
          exact drop false hrun (by simp) (Or.inr (Or.inl hy'))
        · have hy' := fun h => hy ((expired_iff _ _).2 h)
          have hy0 : expired now f.expire = false := by simpa using hy
          rw [hy0] at hrun
          simp only [Bool.not_false, Bool.true_and] at hrun
          by_cases hz : (decide (dropped = []) || !canBeDiscarded f.data) = true
          · rw [if_pos hz] at hrun
            refine keep hrun hcd' ?_
            unfold DiscardF
            simp at hz
            simp
            refine ⟨fun a => by have := not_and.1 hy' a; omega, fun a b c => ?_⟩
            rcases hz with hz | hz
            · exact absurd hz a
            · exact hz
          · rw [if_neg hz] at hrun
            simp at hz
            refine drop false hrun (by simp) (Or.inr (Or.inr ⟨by simpa using hz.1, hx'.1, hx'.2, hz.2⟩))
      · have hx' := fun h => hx ((expired_iff _ _).2 h)
        have hx0 : expired (now + hyst) f.expire = false := by simpa using hx
        rw [hx0] at hrun
        simp only [Bool.not_false, if_true] at hrun
        refine keep hrun hcd' ?_
        unfold DiscardF
        intro h
        rcases h with h | h | h
        · simp at h
        · exact hx' ⟨h.1, by omega⟩
        · exact hx' ⟨h.2.1, h.2.2.1⟩

/-! ## Invariants of all queues -/

theorem mergeCounts (q o : Queue) : (moveAndMerge q o).1.size = (all (moveAndMerge q o).1).length ∧
    (moveAndMerge q o).1.octets = octetsOf (all (moveAndMerge q o).1) := by
  have h1 : ∀ (l : List Frame) n, l.foldl (fun n f => n + f.data.length) n = n + octetsOf l := by
    intro l
    induction l with
    | nil => intro n; simp [octetsOf]
    | cons a l ih => intro n; rw [List.foldl_cons, ih]; simp [octetsOf]; omega
  simp only [moveAndMerge, all, nprio, List.range, List.range.loop, List.foldl_cons, List.foldl_nil, h1]
  simp [octetsOf]
  omega

theorem merge_perm (a b : List Frame) : (merge a b).Perm (a ++ b) := by
  induction a, b using merge.induct with
  | case1 l => simp [merge]
  | case2 l h =>
    cases l with
    | nil => simp [merge]
    | cons x l => simp [merge]
  | case3 a l1 b l2 h ih =>
    rw [merge, if_pos h]
    exact List.Perm.cons _ ih
  | case4 a l1 b l2 h ih =>
    rw [merge, if_neg h]
    refine (List.Perm.cons _ ih).trans ?_
    exact (List.perm_middle (a := b) (l₁ := a :: l1) (l₂ := l2)).symm

theorem framePrio_lt (d : List Nat) : framePrio d < 3 := by
  unfold framePrio sapiPrio; split
  · omega
  · split <;> omega

theorem all_enqueue_len (q : Queue) (p : Nat) (hp : p < 3) (f : Frame) (l : List Frame)
    (h : l.Perm (f :: q.pq p)) :
    (all { q with pq := upd q.pq p l }).Perm (f :: all q) := by
  unfold all upd
  dsimp only
  rcases (by omega : p = 0 ∨ p = 1 ∨ p = 2) with rfl | rfl | rfl
  · simp only [if_true, if_false, (by decide : ¬ 1 = 0), (by decide : ¬ 2 = 0)]
    exact (h.append_right _).append_right _
  · simp only [if_true, if_false, (by decide : ¬ 0 = 1), (by decide : ¬ 2 = 1)]
    exact ((h.append_left _).trans List.perm_middle).append_right _
  · simp only [if_true, if_false, (by decide : ¬ 0 = 2), (by decide : ¬ 1 = 2)]
    exact (h.append_left _).trans List.perm_middle

theorem octets_perm {a b : List Frame} (h : a.Perm b) : octetsOf a = octetsOf b :=
  (h.map _).sum_nat

theorem accounted_of_perm {q q' : Queue} {f : Frame} (h : Accounted q)
    (hp : (all q').Perm (f :: all q)) (h1 : q'.size = q.size + 1)
    (h2 : q'.octets = q.octets + f.data.length) : Accounted q' := by
  obtain ⟨a, b⟩ := h
  have e1 := hp.length_eq
  have e2 := octets_perm hp
  have e3 : octetsOf (f :: all q) = f.data.length + octetsOf (all q) := by simp [octetsOf]
  simp only [List.length_cons] at e1
  exact ⟨by omega, by omega⟩

/-- All queues keep an exact account, sort frames by priority, and have a fixed CoDel target. -/
def Inv (q : Queue) : Prop := Accounted q ∧ Placed q ∧
  ∀ j, (q.codel j).target = (q.codel 0).target ∧ (q.codel j).maxpacket = 512

theorem inv_init (interval : Nat) : Inv (initQueue interval) := by
  refine ⟨⟨rfl, rfl⟩, ?_, ?_⟩
  · intro i _ f hf
    simp [initQueue] at hf
  · intro j
    refine ⟨rfl, ?_⟩
    simp only [initQueue]
    split
    · rfl
    · simp only [Codel.setInterval]; rfl

theorem inv_enqueue {q : Queue} (h : Inv q) (d : List Nat) (now e : Int) : Inv (enqueue q d now e) := by
  obtain ⟨h1, h2, h3⟩ := h
  refine ⟨accounted_of_perm (f := ⟨d, now, e⟩) h1
    (all_enqueue_len q _ (framePrio_lt d) ⟨d, now, e⟩ _ (List.perm_append_comm)) rfl rfl, ?_, h3⟩
  intro i hi f hf
  simp only [enqueue, upd] at hf
  split at hf
  · simp only [List.mem_append, List.mem_singleton] at hf
    rename_i hi'
    rcases hf with hf | rfl
    · rw [hi']; exact h2 _ (framePrio_lt d) f hf
    · rw [hi']; rfl
  · exact h2 i hi f hf

theorem inv_prepend {q : Queue} (h : Inv q) (f : Frame) : Inv (prepend q f (prio f)) := by
  obtain ⟨h1, h2, h3⟩ := h
  refine ⟨accounted_of_perm (f := f) h1
    (all_enqueue_len q _ (framePrio_lt _) f _ (List.Perm.refl _)) rfl rfl, ?_, h3⟩
  intro i hi g hg
  simp only [prepend, upd] at hg
  split at hg
  · simp only [List.mem_cons] at hg
    rename_i hi'
    rcases hg with rfl | hg
    · rw [hi']
    · rw [hi']; exact h2 _ (framePrio_lt _) g hg
  · exact h2 i hi g hg

theorem inv_clear {q : Queue} (h : Inv q) : Inv (clear q) :=
  ⟨⟨rfl, rfl⟩, fun i _ f hf => by simp [clear] at hf, h.2.2⟩

theorem inv_dequeue {q q' : Queue} {d r} {now hyst : Int} (hh : 0 ≤ hyst) (h : Inv q)
    (hd : dequeue now hyst q = (q', d, r)) : Inv q' := by
  obtain ⟨h1, h2, h3⟩ := h
  have hn : (all q).length < q.size + 1 := by rw [h1.1]; omega
  obtain ⟨k, cd, -, -, -, -, -, -, -, i8, i9, -, -, i12⟩ :=
    dequeueLoop_spec now hyst hh _ _ _ q [] hn h1 h3 q' d r hd
  exact ⟨i8, (i12 h2).1, fun j => ⟨by rw [(i9 j).1, (i9 0).1], (i9 j).2⟩⟩

theorem inv_merge {q o : Queue} (h : Inv q) (h' : Inv o) :
    Inv (moveAndMerge q o).1 ∧ Inv (moveAndMerge q o).2 := by
  refine ⟨⟨mergeCounts q o, ?_, h.2.2⟩, ⟨rfl, rfl⟩, ?_, h'.2.2⟩
  · intro i hi f hf
    have hi' : i < nprio := hi
    simp only [moveAndMerge, if_pos hi'] at hf
    have := (merge_perm _ _).mem_iff.1 hf
    rw [List.mem_append] at this
    rcases this with hf | hf
    · exact h.2.1 i hi f hf
    · exact h'.2.1 i hi f hf
  · intro i _ f hf
    simp [moveAndMerge] at hf

theorem reach_inv {q : Queue} (h : Reach q) : Inv q := by
  induction h with
  | init i => exact inv_init i
  | enq d now e _ ih => exact inv_enqueue ih d now e
  | deq now hyst hh _ hd ih => exact inv_dequeue hh ih hd
  | back f _ ih => exact inv_prepend ih f
  | clear _ ih => exact inv_clear ih
  | merge _ _ ih ih' => exact (inv_merge ih ih').1
  | merged _ _ ih ih' => exact (inv_merge ih ih').2

/-! ## C15 -/

theorem discard_iff (now hyst : Int) (l : List Frame) (cd : Nat → Bool) (i : Nat) :
    Discard now hyst l cd i ↔ ∃ f, l[i]? = some f ∧ DiscardF now hyst (decide (0 < i)) (cd i) f := by
  simp [Discard, DiscardF]

/-- Taking the next frame discards exactly the first frames (in order of service) that are past
their lifetime, selected by CoDel or by the hysteresis, hands out the first one that is not, and
leaves the rest. CoDel selects a frame only if it is enabled, the frame waited for at least the
target time and more than 512 octets are queued behind it. -/
theorem C15_dequeue {q : Queue} (hq : Reach q) (now hyst : Int) (hh : 0 ≤ hyst) :
    ∃ (k : Nat) (cd : Nat → Bool),
      (dequeue now hyst q).2.1 = (all q).take k ∧
      (dequeue now hyst q).2.2.map (·.1) = (all q)[k]? ∧
      all (dequeue now hyst q).1 = (all q).drop (k + 1) ∧
      (∀ i < k, Discard now hyst (all q) cd i) ∧ ¬ Discard now hyst (all q) cd k ∧
      k ≤ (all q).length ∧
      (∀ i, cd i = true → q.useCodel = true ∧ ∃ f, (all q)[i]? = some f ∧
        (q.codel 0).target ≤ now - f.recv ∧ 512 < octetsOf ((all q).drop (i + 1))) := by
  obtain ⟨h1, h2, h3⟩ := reach_inv hq
  have hn : (all q).length < q.size + 1 := by rw [h1.1]; omega
  obtain ⟨k, cd, i1, i2, i3, i4, i5, i6, i7, -⟩ :=
    dequeueLoop_spec now hyst hh _ _ _ q [] hn h1 h3 _ _ _ rfl
  refine ⟨k, cd, by rw [List.nil_append] at i1; exact i1, i4, i3, ?_, ?_, i2, i7⟩
  · intro i hi
    rw [discard_iff]
    simpa using i5 i hi
  · rw [discard_iff]
    rintro ⟨f, hf, hd⟩
    exact i6 f hf (by simpa using hd)

/-- A frame past its lifetime is never handed out. -/
theorem C15_never_expired {q : Queue} (hq : Reach q) (now hyst : Int) (hh : 0 ≤ hyst) (f : Frame)
    (p : Nat) (h : (dequeue now hyst q).2.2 = some (f, p)) : ¬ (f.expire ≠ 0 ∧ f.expire < now) := by
  obtain ⟨k, cd, -, h2, -, -, h5, -⟩ := C15_dequeue hq now hyst hh
  rw [h] at h2
  intro he
  exact h5 ⟨f, h2.symm, Or.inr (Or.inl he)⟩

/-- If all frames expired, all are discarded and the queue ends empty. -/
theorem C15_all_expired {q : Queue} (hq : Reach q) (now hyst : Int) (hh : 0 ≤ hyst)
    (he : ∀ f ∈ all q, f.expire ≠ 0 ∧ f.expire < now) :
    (dequeue now hyst q).2.1 = all q ∧ (dequeue now hyst q).2.2 = none ∧
    all (dequeue now hyst q).1 = [] := by
  obtain ⟨k, cd, h1, h2, h3, -, h5, h6, -⟩ := C15_dequeue hq now hyst hh
  have hk : k = (all q).length := by
    apply Decidable.byContradiction
    intro hne
    have hlt : k < (all q).length := by omega
    exact h5 ⟨(all q)[k], List.getElem?_eq_getElem hlt,
      Or.inr (Or.inl (he _ (List.getElem_mem hlt)))⟩
  subst hk
  rw [List.getElem?_eq_none (Nat.le_refl _)] at h2
  refine ⟨by rw [h1, List.take_length], by simpa using h2, by rw [h3, List.drop_eq_nil_of_le (by omega)]⟩

/-- Without CoDel and with unlimited lifetimes nothing is ever discarded. -/
theorem C15_nothing_lost {q : Queue} (hq : Reach q) (now hyst : Int) (hh : 0 ≤ hyst)
    (hc : q.useCodel = false) (he : ∀ f ∈ all q, f.expire = 0) :
    (dequeue now hyst q).2.1 = [] ∧ (dequeue now hyst q).2.2.map (·.1) = (all q).head? := by
  obtain ⟨k, cd, h1, h2, -, h4, -, -, h7⟩ := C15_dequeue hq now hyst hh
  have hk : k = 0 := by
    apply Decidable.byContradiction
    intro hne
    obtain ⟨f, hf, hd⟩ := h4 0 (by omega)
    have hm : f ∈ all q := List.mem_of_getElem? hf
    have := he f hm
    rcases hd with hd | hd | hd
    · have := (h7 0 hd).1; simp [hc] at this
    · exact hd.1 this
    · omega
  subst hk
  exact ⟨by simpa using h1, by rw [h2]; exact List.head?_eq_getElem?.symm⟩

/-- Lifetimes: 0xffff (from the SGSN or set by the operator) means that the frame never expires;
otherwise the frame is past its lifetime once the given centiseconds have passed. -/
theorem C15_lifetime (force csec : Nat) (t now : Int) (ht : 0 < t) :
    expired now (lifetime force csec t) = true ↔
      (if force ≠ 0 then force else csec) ≠ 0xffff ∧
      now > t + (if force ≠ 0 then force else csec) * 10000000 := by
  rw [expired_iff]
  unfold lifetime
  split <;> rename_i h <;> simp at h ⊢ <;> omega

/-- Which frames the hysteresis may discard: more than 60 octets, not signalling (SAPI 1), and the
three highest bits of the first octet are 110. -/
theorem C15_droppable (a : Nat) (d : List Nat) (ha : a < 256) :
    canBeDiscarded (a :: d) = true ↔ 60 ≤ d.length ∧ a % 16 ≠ 1 ∧ a / 32 = 6 := by
  have h1 : a &&& 0x0f = a % 16 := Nat.and_two_pow_sub_one_eq_mod a 4
  have h2 : ∀ a < 256, (a &&& 0xe0 = 0xc0 ↔ a / 32 = 6) := by decide +kernel
  unfold canBeDiscarded
  simp only [List.length_cons, List.headD_cons, h1]
  by_cases e1 : d.length + 1 ≤ 60
  · rw [if_pos e1]; simp; omega
  rw [if_neg e1]
  by_cases e2 : a % 16 = 1
  · rw [if_pos e2]; simp [e2]
  rw [if_neg e2]
  by_cases e3 : a &&& 0xe0 = 0xc0
  · simp [e2, e3, (h2 a ha).1 e3]; omega
  · have e4 : ¬ a / 32 = 6 := fun h => e3 ((h2 a ha).2 h)
    simp [e3, e4]

/-- The first octet of an LLC frame is its address field, with protocol discriminator bit 0 in
every valid frame (3GPP TS 44.064 6.2.1). The code tests the bits of a UI control field there, so
the hysteresis never discards a valid LLC frame: only expired frames and those selected by CoDel
are discarded. -/
theorem C15_hysteresis_void {q : Queue} (hq : Reach q) (now hyst : Int) (hh : 0 ≤ hyst)
    (hv : ∀ f ∈ all q, ∃ a d, f.data = a :: d ∧ a < 128) :
    ∃ cd : Nat → Bool, (∀ i, cd i = true → q.useCodel = true) ∧
      ∀ i f, (dequeue now hyst q).2.1[i]? = some f → cd i = true ∨ (f.expire ≠ 0 ∧ f.expire < now) := by
  obtain ⟨k, cd, h1, -, -, h4, -, -, h7⟩ := C15_dequeue hq now hyst hh
  refine ⟨cd, fun i hi => (h7 i hi).1, ?_⟩
  intro i f hf
  rw [h1] at hf
  have hik : i < k := by
    have := (List.getElem?_eq_some_iff.1 hf).1
    rw [List.length_take] at this
    omega
  rw [List.getElem?_take, if_pos hik] at hf
  obtain ⟨g, hg, hd⟩ := h4 i hik
  rw [hf] at hg
  simp only [Option.some.injEq] at hg
  subst hg
  rcases hd with hd | hd | ⟨-, -, -, hd⟩
  · exact Or.inl hd
  · exact Or.inr hd
  · obtain ⟨a, d, e, ha⟩ := hv f (List.mem_of_getElem? hf)
    rw [e, C15_droppable a d (by omega)] at hd
    omega

/-- Frames that are not valid LLC frames (discriminator bit set) can meet the condition. -/
example : canBeDiscarded (0xc3 :: List.replicate 60 0) = true := by decide +kernel

end Verif.Llc
