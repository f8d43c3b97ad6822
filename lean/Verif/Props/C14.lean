import Verif.Props.C15
/-!
# C14: Per-mobile LLC queue is FIFO per priority, lossless and correctly accounted
-/

namespace Verif.Llc

/-- The reported size and octet count equal the content, in every queue that can come up. -/
theorem C14_accounting {q : Queue} (hq : Reach q) :
    q.size = (all q).length ∧ q.octets = octetsOf (all q) := (reach_inv hq).1

theorem hist_reach {q l} (h : Hist q l) : Reach q := by
  induction h with
  | init i => exact .init i
  | enq d now e _ ih => exact .enq d now e ih
  | deq now hyst hh _ hd ih => exact .deq now hyst hh ih hd
  | back f s _ _ ih => exact .back f ih
  | clear _ ih => exact .clear ih

/-- Dequeue splits the frames in order of service into discarded, handed out and left ones. -/
theorem dequeue_split {q q' d r} {now hyst : Int} (hq : Reach q) (hh : 0 ≤ hyst)
    (hd : dequeue now hyst q = (q', d, r)) :
    all q = d ++ (r.map (·.1)).toList ++ all q' := by
  obtain ⟨k, cd, h1, h2, h3, -, -, h6, -⟩ := C15_dequeue hq now hyst hh
  rw [hd] at h1 h2 h3
  dsimp only at h1 h2 h3
  rw [h1, h2, h3]
  by_cases hk : k < (all q).length
  · rw [List.getElem?_eq_getElem hk, Option.toList_some, List.append_assoc, List.singleton_append,
      List.getElem_cons_drop, List.take_append_drop]
  · rw [List.getElem?_eq_none (by omega), List.take_of_length_le (by omega),
      List.drop_eq_nil_of_le (by omega)]
    simp

theorem filter_placed {q : Queue} (hp : Placed q) (j : Nat) (hj : j < 3) :
    (all q).filter (fun f => prio f = j) = q.pq j := by
  have e : ∀ i, i < 3 → (q.pq i).filter (fun f => prio f = j) = if i = j then q.pq i else [] := by
    intro i hi
    split
    · rename_i h; subst h
      exact List.filter_eq_self.2 (fun f hf => by simpa using hp i hi f hf)
    · rename_i h
      exact List.filter_eq_nil_iff.2 (fun f hf => by simpa [hp i hi f hf] using h)
  unfold all
  rw [List.filter_append, List.filter_append, e 0 (by omega), e 1 (by omega), e 2 (by omega)]
  rcases (by omega : j = 0 ∨ j = 1 ∨ j = 2) with rfl | rfl | rfl <;> simp

/-- Nothing is lost, duplicated or altered: what was put in is what was handed out, discarded or
is still there. -/
theorem C14_lossless {q : Queue} {l : Log} (h : Hist q l) :
    (l.sent ++ l.disc ++ all q).Perm l.inp := by
  induction h with
  | init i => simp [all, initQueue]
  | @enq q l d now e h ih =>
    dsimp only
    have h1 := all_enqueue_len q _ (framePrio_lt d) ⟨d, now, e⟩ _ (List.perm_append_comm (l₂ := [(⟨d, now, e⟩ : Frame)]))
    refine (List.Perm.append_left _ h1).trans ?_
    refine List.perm_middle.trans ?_
    refine (List.Perm.cons _ ih).trans ?_
    exact (List.perm_append_comm (l₁ := [_]))
  | @deq q l q' d r now hyst hh h hd ih =>
    dsimp only
    have := dequeue_split (hist_reach h) hh hd
    rw [this] at ih
    refine List.Perm.trans ?_ ih
    generalize (r.map (·.1)).toList = r'
    simp only [List.append_assoc]
    refine List.Perm.append_left _ ?_
    rw [← List.append_assoc, ← List.append_assoc, ← List.append_assoc, ← List.append_assoc]
    refine List.Perm.append_right _ ?_
    rw [List.append_assoc]
    exact List.perm_append_comm
  | @back q l f s h hs ih =>
    dsimp only
    have h1 := all_enqueue_len q _ (framePrio_lt f.data) f _ (List.Perm.refl (f :: q.pq (prio f)))
    refine (List.Perm.append_left _ h1).trans ?_
    rw [hs] at ih
    refine List.Perm.trans ?_ ih
    simp only [List.append_assoc, List.singleton_append]
    refine List.Perm.append_left _ ?_
    exact List.perm_middle
  | clear h ih =>
    dsimp only
    have : all (clear ‹Queue›) = [] := rfl
    rw [this, List.append_nil, ← List.append_assoc]
    exact ih

/-- Within each priority, frames are handed out in the order in which they were put in, and the
frames still queued are in that order behind them: the frames handed out followed by those queued
are the frames put in, with nothing but discarded frames missing. -/
theorem C14_fifo {q : Queue} {l : Log} (h : Hist q l) (j : Nat) (hj : j < 3) :
    (l.sent.filter (fun f => prio f = j) ++ q.pq j).Sublist (l.inp.filter (fun f => prio f = j)) := by
  induction h with
  | init i => simp [initQueue]
  | @enq q l d now e h ih =>
    simp only [enqueue, upd, List.filter_append]
    by_cases hp : j = framePrio d
    · subst hp
      simp only [if_true]
      rw [← List.append_assoc]
      refine ih.append ?_
      simp [prio]
    · rw [if_neg hp]
      exact ih.trans (List.sublist_append_left _ _)
  | @deq q l q' d r now hyst hh h hd ih =>
    have hs := dequeue_split (hist_reach h) hh hd
    have hi := reach_inv (hist_reach h)
    have hi' := reach_inv (hist_reach (Hist.deq now hyst hh h hd))
    rw [← filter_placed hi.2.1 j hj] at ih
    rw [← filter_placed hi'.2.1 j hj]
    refine List.Sublist.trans ?_ ih
    rw [hs]
    simp only [List.filter_append, List.append_assoc]
    exact (List.sublist_append_right _ _).append_left _
  | @back q l f s h hs ih =>
    rw [hs] at ih
    simp only [prepend, upd]
    by_cases hp : j = prio f
    · subst hp
      simpa [List.filter_append] using ih
    · rw [if_neg hp]
      have hp' : ¬ prio f = j := fun h => hp h.symm
      simpa [List.filter_append, hp'] using ih
  | @clear q l h ih =>
    simp only [clear, List.append_nil]
    exact (List.sublist_append_left _ _).trans ih

/-- A frame is handed out only when no frame of a higher priority is left. -/
theorem C14_priority {q : Queue} (hq : Reach q) (now hyst : Int) (hh : 0 ≤ hyst) (f : Frame) (p : Nat)
    (h : (dequeue now hyst q).2.2 = some (f, p)) :
    p = prio f ∧ ∀ g ∈ all (dequeue now hyst q).1, p ≤ prio g := by
  obtain ⟨h1, h2, h3⟩ := reach_inv hq
  have hn : (all q).length < q.size + 1 := by rw [h1.1]; omega
  obtain ⟨k, cd, -, -, -, -, -, -, -, -, -, -, i11, i12⟩ :=
    dequeueLoop_spec now hyst hh _ _ _ q [] hn h1 h3 (dequeue now hyst q).1 (dequeue now hyst q).2.1
      (dequeue now hyst q).2.2 rfl
  refine ⟨((i12 h2).2 f p h).symm, ?_⟩
  have hpl := (i12 h2).1
  have hem := (i11 f p h).2
  intro g hg
  have hm : ∃ i, i < 3 ∧ g ∈ (dequeue now hyst q).1.pq i := by
    unfold all at hg
    simp only [List.mem_append] at hg
    rcases hg with (hg | hg) | hg
    · exact ⟨0, by omega, hg⟩
    · exact ⟨1, by omega, hg⟩
    · exact ⟨2, by omega, hg⟩
  obtain ⟨i, hi, hgi⟩ := hm
  have := hpl i hi g hgi
  apply Decidable.byContradiction
  intro hlt
  rw [hem i (by omega)] at hgi
  simp at hgi

/-- Putting the frame handed out last back restores the queue without the discarded frames. -/
theorem C14_put_back {q : Queue} (hq : Reach q) (now hyst : Int) (hh : 0 ≤ hyst) (f : Frame) (p : Nat)
    (h : (dequeue now hyst q).2.2 = some (f, p)) :
    all q = (dequeue now hyst q).2.1 ++ all (prepend (dequeue now hyst q).1 f p) := by
  have hs := dequeue_split (q' := (dequeue now hyst q).1) (d := (dequeue now hyst q).2.1)
    (r := (dequeue now hyst q).2.2) hq hh rfl
  obtain ⟨hp, hge⟩ := C14_priority hq now hyst hh f p h
  have hpl : Placed (dequeue now hyst q).1 := (reach_inv (Reach.deq now hyst hh hq rfl)).2.1
  rw [h] at hs
  simp only [Option.map_some, Option.toList_some] at hs
  have hp3 : p < 3 := hp ▸ framePrio_lt _
  have hem : ∀ j, j < p → (dequeue now hyst q).1.pq j = [] := by
    intro j hj
    apply List.eq_nil_iff_forall_not_mem.2
    intro g hg
    have h1 := hpl j (by omega) g hg
    have h2 := hge g (by
      unfold all
      simp only [List.mem_append]
      rcases (by omega : j = 0 ∨ j = 1) with rfl | rfl
      · exact Or.inl (Or.inl hg)
      · exact Or.inl (Or.inr hg))
    omega
  rw [hs, List.append_assoc]
  congr 1
  unfold all prepend upd
  dsimp only
  rcases (by omega : p = 0 ∨ p = 1 ∨ p = 2) with h0 | h0 | h0
  · subst h0; simp
  · rw [h0]; simp [hem 0 (by omega)]
  · rw [h0]; simp [hem 0 (by omega), hem 1 (by omega)]

theorem merge_sublist (a b : List Frame) : a.Sublist (merge a b) ∧ b.Sublist (merge a b) := by
  induction a, b using merge.induct with
  | case1 l => simp [merge]
  | case2 l h =>
    cases l with
    | nil => simp [merge]
    | cons x l => simp [merge]
  | case3 a l1 b l2 h ih =>
    rw [merge, if_pos h]
    exact ⟨ih.1.cons_cons a, ih.2.cons a⟩
  | case4 a l1 b l2 h ih =>
    rw [merge, if_neg h]
    exact ⟨ih.1.cons b, ih.2.cons_cons b⟩

/-- Ordered by time of reception. -/
def ByTime (l : List Frame) : Prop := l.Pairwise (fun a b => a.recv ≤ b.recv)

theorem merge_byTime (a b : List Frame) (ha : ByTime a) (hb : ByTime b) : ByTime (merge a b) := by
  unfold ByTime at *
  induction a, b using merge.induct with
  | case1 l => simpa [merge] using hb
  | case2 l h =>
    cases l with
    | nil => simp [merge]
    | cons x l => simpa [merge] using ha
  | case3 a l1 b l2 h ih =>
    rw [merge, if_pos h]
    rw [List.pairwise_cons] at ha ⊢
    refine ⟨?_, ih ha.2 hb⟩
    intro g hg
    have hg := (merge_perm _ _).mem_iff.1 hg
    rw [List.mem_append, List.mem_cons] at hg
    rw [List.pairwise_cons] at hb
    rcases hg with hg | rfl | hg
    · exact ha.1 g hg
    · omega
    · have := hb.1 g hg; omega
  | case4 a l1 b l2 h ih =>
    rw [merge, if_neg h]
    rw [List.pairwise_cons] at hb ⊢
    refine ⟨?_, ih ha hb.2⟩
    intro g hg
    have hg := (merge_perm _ _).mem_iff.1 hg
    rw [List.mem_append, List.mem_cons] at hg
    rw [List.pairwise_cons] at ha
    rcases hg with (rfl | hg) | hg
    · omega
    · have := ha.1 g hg; omega
    · exact hb.1 g hg

/-- Merging the queues of two mobiles keeps all frames of both, per priority, each in its old
order and by time of reception if both were so ordered; the other queue is empty afterwards. -/
theorem C14_merge (q o : Queue) (j : Nat) (hj : j < 3) :
    ((moveAndMerge q o).1.pq j).Perm (q.pq j ++ o.pq j) ∧
    (q.pq j).Sublist ((moveAndMerge q o).1.pq j) ∧ (o.pq j).Sublist ((moveAndMerge q o).1.pq j) ∧
    (ByTime (q.pq j) → ByTime (o.pq j) → ByTime ((moveAndMerge q o).1.pq j)) ∧
    (moveAndMerge q o).2.pq j = [] ∧ (moveAndMerge q o).2.size = 0 ∧ (moveAndMerge q o).2.octets = 0 := by
  have e : (moveAndMerge q o).1.pq j = merge (q.pq j) (o.pq j) := by
    simp only [moveAndMerge, if_pos (show j < nprio from hj)]
  rw [e]
  exact ⟨merge_perm _ _, (merge_sublist _ _).1, (merge_sublist _ _).2, merge_byTime _ _, rfl, rfl, rfl⟩

/-- The three classes: GPRS mobility management (SAPI 1) first, then tunnelling of messages and SMS
(SAPIs 2, 7, 8), then all other SAPIs. -/
theorem C14_classes (a : Nat) (d : List Nat) (r e : Int) :
    prio ⟨a :: d, r, e⟩ = (if a % 16 = 1 then 0 else if a % 16 ∈ [2, 7, 8] then 1 else 2) := by
  simp [prio, framePrio, sapiPrio]

/-! ## A concrete history -/

def demo0 : Queue := enqueue (enqueue (enqueue (initQueue 0) [3, 9] 100 0) [0xc3, 7] 200 500) [1, 5] 300 0

/-- Signalling first, then user data in order; an expired frame is discarded. -/
example : (dequeue 400 0 demo0).2 = ([], some (⟨[1, 5], 300, 0⟩, 0)) ∧
    (dequeue 600 0 (dequeue 600 0 (dequeue 400 0 demo0).1).1).2 = ([⟨[0xc3, 7], 200, 500⟩], none) ∧
    (all (dequeue 600 0 (dequeue 400 0 demo0).1).1).length = 1 := by decide +kernel

example : Hist demo0 ⟨[⟨[3, 9], 100, 0⟩, ⟨[0xc3, 7], 200, 500⟩, ⟨[1, 5], 300, 0⟩], [], []⟩ :=
  .enq _ _ _ (.enq _ _ _ (.enq _ _ _ (.init 0)))

end Verif.Llc
