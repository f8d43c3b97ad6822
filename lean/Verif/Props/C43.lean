import Verif.Props.C14
import Verif.Props.C33
/-!
# C43: merging two records of one mobile

`merge b s i o` is `ms_merge_and_clear_ms` of mobile `o` into mobile `i`. The code has the property
until the downlink TBF of `o` gets its first acknowledgement, and if no TBF that was replaced has a
timer pending; otherwise frames are lost (`C43_acked_lost`) or the loop does not end (`C43_hang`).
-/

namespace Verif.Store

open Verif.Llc (Frame Queue ByTime)

/-- Frames of priority `j` in a list of frames with priority. -/
def ofPrio (j : Nat) (l : List (Frame × Nat)) : List Frame := (l.filter (·.2 = j)).map (·.1)

theorem prepend_all (l : List (Frame × Nat)) (q : Queue) (j : Nat) :
    (l.foldl (fun q x => Llc.prepend q x.1 x.2) q).pq j = ofPrio j l.reverse ++ q.pq j := by
  induction l generalizing q with
  | nil => rfl
  | cons x l ih =>
    rw [List.foldl_cons, ih]
    simp only [ofPrio, List.reverse_cons, List.filter_append, List.map_append, List.append_assoc, Llc.prepend, Llc.upd]
    congr 1
    by_cases h : x.2 = j
    · rw [if_pos h.symm]; simp [h]
    · rw [if_neg (Ne.symm h)]; simp [h]

/-- Until the first acknowledgement the TBF knows all frames handed to it. -/
theorem LlcHist.frames {q t u} (h : LlcHist q t u) (ha : t.acked = false) : u = t.sent.reverse ++ t.tx.toList := by
  induction h with
  | start => rfl
  | enq _ _ _ _ ih => exact ih ha
  | @sched q t u now hyst h ht ih =>
    unfold schedNext at *
    rw [ht] at *
    dsimp only at *
    rw [ih ha]
    simp
  | @dummy q t u n h ht ih =>
    unfold putDummy at *
    rw [ht] at *
    dsimp only at *
    rw [ih ha]
    simp
  | @complete q t u h ih =>
    unfold Store.complete at *
    cases ht : t.tx with
    | none => rw [ht] at ih ha; simp only at ha; rw [ih ha]; simp [ht]
    | some x =>
      rw [ht] at ih ha
      dsimp only at ha ⊢
      rw [ih ha, ha]
      simp
  | @ack q t u keep h hk ih =>
    unfold dlAck at ha
    split at ha
    · rename_i hc; rw [hc] at ha; cases ha
    · cases ha
  | timers b h ih => exact ih ha

theorem copyBack_pq (q : Queue) (t : DlTbf) (j : Nat) :
    (copyBack q t).pq j = ofPrio j (t.sent.reverse ++ t.tx.toList) ++ q.pq j := by
  unfold copyBack
  rw [prepend_all, prepend_all]
  simp only [ofPrio, List.filter_append, List.map_append, List.append_assoc]
  congr 2
  cases t.tx <;> rfl

/-- Frames not acknowledged in the downlink TBF of a mobile. -/
def Unacked (m : Mob) (u : List (Frame × Nat)) : Prop :=
  match m.dl with
  | none => u = []
  | some t => LlcHist m.q t u ∧ t.acked = false

/-- C43, user data: after the merge, the surviving mobile has, per priority, its own frames and
those of the old mobile, first the ones handed to the TBF and not acknowledged, then the queued ones;
both in their old order, and by time of reception if both were. Partial: only before the first
acknowledgement in the downlink TBF of the old mobile. -/
theorem C43_frames_partial (b : Clock) (s s' : St) (hi : Ids s) (i o : Nat) (m om : Mob) (u : List (Frame × Nat))
    (h1 : get? s i = some m) (h2 : get? s o = some om) (hu : Unacked om u) (h : merge b s i o = some s') :
    ∃ m', get? s' i = some m' ∧ ∀ j < 3,
      (m'.q.pq j).Perm (m.q.pq j ++ (ofPrio j u ++ om.q.pq j)) ∧
      (m.q.pq j).Sublist (m'.q.pq j) ∧ (ofPrio j u ++ om.q.pq j).Sublist (m'.q.pq j) ∧
      (ByTime (m.q.pq j) → ByTime (ofPrio j u ++ om.q.pq j) → ByTime (m'.q.pq j)) := by
  have hids' := (merge_sub h).1.ids hi
  obtain ⟨hne, m0, om0, om', h1', h2', h3, rfl⟩ := merge_eq h
  rw [h1] at h1'; cases h1'
  rw [h2] at h2'; cases h2'
  have hb : ∀ j, om.backlog.pq j = ofPrio j u ++ om.q.pq j := by
    intro j
    unfold Mob.backlog
    unfold Unacked at hu
    split
    · rename_i hd; rw [hd] at hu; simp only at hu; rw [hu]; rfl
    · rename_i t hd
      rw [hd] at hu
      rw [copyBack_pq, ← hu.1.frames hu.2]
  generalize hm' : ({ m.takeOver om with q := (Llc.moveAndMerge m.q om.backlog).1 } : Mob) = m'
  have hmem : (i, m') ∈ (modify (modify s i fun x => { x.takeOver om with q := (Llc.moveAndMerge m.q om.backlog).1 }) o
      fun _ => { om' with q := (Llc.moveAndMerge m.q om.backlog).2 }).ms := by
    refine mem_modify.2 ⟨(i, m'), mem_modify.2 ⟨_, get_mem h1, by rw [if_pos rfl]; exact congrArg _ hm'.symm⟩, ?_⟩
    rw [if_neg (Ne.symm hne)]
  have hmem' : (i, m') ∈ (checkIdle b (modify (modify s i fun x => { x.takeOver om with q := (Llc.moveAndMerge m.q om.backlog).1 }) o
      fun _ => { om' with q := (Llc.moveAndMerge m.q om.backlog).2 }) o).ms := by
    unfold checkIdle
    split
    · exact hmem
    · split
      · exact hmem
      · split
        · exact List.mem_filter.2 ⟨hmem, by simpa using Ne.symm hne⟩
        · exact mem_modify.2 ⟨_, hmem, by rw [if_neg (Ne.symm hne)]⟩
  refine ⟨m', get_of_mem hids'.1 hmem', fun j hj => ?_⟩
  have := Llc.C14_merge m.q om.backlog j hj
  rw [hb j] at this
  have hq : m'.q = (Llc.moveAndMerge m.q om.backlog).1 := by rw [← hm']
  rw [hq]
  exact ⟨this.1, this.2.1, this.2.2.1, this.2.2.2.1⟩

/-- C43, release: after the merge the old mobile is not found any more under any TLLI or IMSI (with
the identities as they come up, `C33_lookup_partial`), and if it has no other user and no TBF with a
timer pending it is gone. -/
theorem C43_released (b : Clock) (s s' : St) (hi : Ids s) (i o : Nat) (om : Mob)
    (h2 : get? s o = some om) (h : merge b s i o = some s') :
    (∀ t, byTlli s' t ≠ some o) ∧ (∀ im, byImsi s' im ≠ some o) ∧
    (∀ om', get? s' o = some om' → (∀ t, om'.check t = false) ∧ om'.imsi = [] ∧ om'.old = [] ∧ (∀ j, om'.q.pq j = []) ∧
      om'.users ≠ 0) ∧
    (om.refs = 0 → om.ul ≠ some true → (∀ t, om.dl = some t → t.timers = false) → get? s' o = none) := by
  have hids' := (merge_sub h).1.ids hi
  have hclr := (merge_sub h).2
  obtain ⟨hne, m0, om0, om1, h1', h2', h3, he⟩ := merge_eq h
  rw [h2] at h2'; cases h2'
  -- the cleared record
  generalize hx : ({ om1 with q := (Llc.moveAndMerge m0.q om.backlog).2 } : Mob) = x at he
  generalize hs2 : modify (modify s i fun x => { x.takeOver om with q := (Llc.moveAndMerge m0.q om.backlog).1 }) o (fun _ => x) = s2 at he
  have hid2 : Ids s2 := by rw [← hs2]; exact ids_modify' (ids_modify' hi _ _) _ _
  have hxo : (o, x) ∈ s2.ms := by
    rw [← hs2]
    refine mem_modify.2 ⟨(o, om), mem_modify.2 ⟨_, get_mem h2, by rw [if_neg hne]⟩, by rw [if_pos rfl]⟩
  have hgx := get_of_mem hid2.1 hxo
  have hom1 : om1 = { om.drained with ul := om.drained.ul.filter id, dl := om.drained.dl.filter (·.timers), old := [], tlli := noTlli, newDl := noTlli, newUl := noTlli, imsi := [] } := by
    unfold Mob.reset at h3
    split at h3
    · cases h3
    · cases h3; rfl
  have hany : x.anyTlli = noTlli := by rw [← hx, hom1]; simp [Mob.anyTlli]
  have hims : x.imsi = [] := by rw [← hx, hom1]
  have hold : x.old = [] := by rw [← hx, hom1]
  have hpq : ∀ j, x.q.pq j = [] := by intro j; rw [← hx]; rfl
  have hfin : s' = if x.users ≠ 0 then s2 else free s2 o := by
    rw [he]
    unfold checkIdle
    rw [hgx]
    dsimp only
    split
    · rfl
    · rw [if_pos (Or.inr hany)]
  have hget : ∀ om', get? s' o = some om' → om' = x ∧ x.users ≠ 0 := by
    intro om' hg
    rw [hfin] at hg
    split at hg
    · rename_i hu
      rw [hgx] at hg
      cases hg
      exact ⟨rfl, hu⟩
    · have := get_mem hg
      simp [free] at this
  refine ⟨fun t ht => ?_, fun im hm => ?_, fun om' hg => ?_, fun hr hul hdl => ?_⟩
  · obtain ⟨m, hm, hc⟩ := byTlli_some ht
    rw [hclr _ hm rfl] at hc; cases hc
  · unfold byImsi getMs at hm
    simp only [ne_eq, not_true_eq_false, or_self, if_false] at hm
    split at hm
    · rename_i him
      cases hf : s'.ms.find? (fun p => !decide (p.2.imsi = []) && decide (p.2.imsi = im)) with
      | none => simp only [decide_not, hf, Option.map_none] at hm; cases hm
      | some p =>
        simp only [decide_not, hf, Option.map_some, Option.some.injEq] at hm
        have hp := List.mem_of_find?_eq_some hf
        have hp1 := List.find?_some hf
        have hpo : get? s' o = some p.2 := get_of_mem hids'.1 (by rw [← hm]; exact hp)
        have := (hget _ hpo).1
        rw [this, hims] at hp1
        simp at hp1
    · cases hm
  · obtain ⟨rfl, hu⟩ := hget _ hg
    refine ⟨fun t => ?_, hims, hold, hpq, hu⟩
    rw [← hx]
    exact reset_check h3 _ t
  · cases hg : get? s' o with
    | none => rfl
    | some om' =>
      obtain ⟨rfl, hu⟩ := hget _ hg
      exfalso
      apply hu
      rw [← hx, hom1]
      have e1 : om.drained.ul.filter id = none := by
        unfold Mob.drained
        cases h : om.ul with
        | none => rfl
        | some v => cases v with
          | false => rfl
          | true => exact absurd h hul
      have e2 : om.drained.dl.filter (·.timers) = none := by
        unfold Mob.drained
        cases h : om.dl with
        | none => rfl
        | some v => simp [hdl v h]
      simp only [Mob.users, e1, e2]
      simp [Mob.drained, hr]

/-- C43, release of a record that was kept for the sake of a TBF: it goes with its last user. -/
theorem C43_released_later (b : Clock) (c : Nat) (s s' : St) (hi : Ids s) (o : Nat) (om : Mob) (h : get? s o = some om)
    (hno : ∀ t, om.check t = false) (op : Op) (hop : op = .freeUl o ∧ om.ul.isSome = true ∨ op = .freeDl o ∧ om.dl.isSome = true)
    (h1 : om.users = 1) (hs : step b c s op = some s') : get? s' o = none := by
  have hany : om.anyTlli = noTlli := by
    refine Decidable.byContradiction fun hne => ?_
    have := anyTlli_check om hne
    rw [hno] at this; cases this
  have key : ∀ f : Mob → Mob, (f om).users = 0 → (f om).anyTlli = om.anyTlli →
      get? (checkIdle b (modify s o f) o) o = none := by
    intro f hf ha
    have hm : (o, f om) ∈ (modify s o f).ms := mem_modify.2 ⟨_, get_mem h, by rw [if_pos rfl]⟩
    unfold checkIdle
    rw [get_of_mem (ids_modify' hi o f).1 hm]
    dsimp only
    rw [if_neg (by simp [hf]), if_pos (Or.inr (by rw [ha, hany]))]
    cases hg : get? (free (modify s o f) o) o with
    | none => rfl
    | some m' => have := get_mem hg; simp [free] at this
  rcases hop with ⟨rfl, hu⟩ | ⟨rfl, hu⟩
  · cases hs
    refine key _ ?_ rfl
    simp only [Mob.users, hu, if_true] at h1 ⊢
    simp only [Option.isSome_none, Bool.false_eq_true, if_false]
    omega
  · cases hs
    refine key _ ?_ rfl
    simp only [Mob.users, hu, if_true] at h1 ⊢
    simp only [Option.isSome_none, Bool.false_eq_true, if_false]
    omega

/-- C43, termination. Partial: exactly if no TBF replaced by a newer one has a timer pending
(`C43_hang` shows that it can). -/
theorem C43_terminates_partial (b : Clock) (s : St) (i o : Nat) (m om : Mob) (hne : o ≠ i)
    (h1 : get? s i = some m) (h2 : get? s o = some om) :
    (merge b s i o).isSome = true ↔ ∀ x ∈ om.old, x = false := by
  unfold merge
  rw [if_neg hne, h1, h2]
  dsimp only
  have : om.drained.old = om.old := rfl
  unfold Mob.reset
  rw [this]
  by_cases h : om.old.any id = true
  · rw [if_pos h]
    simp only [Option.isSome_none, Bool.false_eq_true, false_iff]
    intro hall
    rw [List.any_eq_true] at h
    obtain ⟨x, hx, ht⟩ := h
    rw [hall x hx] at ht
    cases ht
  · rw [if_neg h]
    simp only [Option.isSome_some, true_iff]
    intro x hx
    cases x with
    | false => rfl
    | true => exact absurd (List.any_eq_true.2 ⟨true, hx, rfl⟩) h

/-! ### Where the code fails -/

/-- C43 fails: the loop of `ms_reset` does not end. A mobile is known under TLLI 1 and has a
downlink TBF that waits for the acknowledgement of its last block (T3191 pending), the mobile does
not answer and the TBF is given up, a new TBF replaces it while T3191 still runs; then a block with
TLLI 1 comes on the uplink TBF of another access. -/
theorem C43_hang : ∃ s, runOps ⟨0, 60⟩ 0 ⟨[], 0⟩
      [.pdu { tlli := 1, att := some false }, .llc 0 (Llc.initQueue 0) { timers := true }, .attachDl 0 false, .access] = some s ∧
    step ⟨0, 60⟩ 0 s (.announce 1 1) = none := ⟨_, rfl, rfl⟩

/-- C43 fails: a frame sent completely after the first acknowledgement and not acknowledged itself is
lost. -/
theorem C43_acked_lost : ∃ (q : Queue) (t : DlTbf) (u : List (Frame × Nat)) (f : Frame),
    LlcHist q t u ∧ (f, 2) ∈ u ∧ ∀ j, f ∉ (copyBack q t).pq j := by
  let q0 := Llc.enqueue (Llc.initQueue 0) [3, 1] 0 0
  let r := schedNext 1 0 q0 (dlAck {})
  have h : LlcHist r.1 (complete r.2) [(⟨[3, 1], 0, 0⟩, 2)] :=
    .complete (.sched (u := []) 1 0 (.ack (u := []) (fun _ => true) (.enq [3, 1] 0 0 (.start (Llc.initQueue 0) false)) (by simp)) rfl)
  refine ⟨_, _, _, ⟨[3, 1], 0, 0⟩, h, List.mem_cons_self, fun j => ?_⟩
  rw [copyBack_pq]
  have e1 : (complete r.2).sent = [] := rfl
  have e2 : (complete r.2).tx = none := rfl
  have e3 : r.1.pq j = [] := by
    show Llc.upd (Llc.upd _ 2 _) 2 [] j = []
    unfold Llc.upd
    split
    · rfl
    · rfl
  rw [e1, e2, e3]
  simp [ofPrio]

/-! An instance of the hypotheses: mobile 0 with TLLI 1, a frame in transmission, one sent and one in
the queue; mobile 1 has its own frame. -/

def fr (n : Nat) : Frame := ⟨[3, n], n, 0⟩
def oldMob : Mob := { newMob 0 0 with tlli := 1, q := Llc.enqueue (Llc.initQueue 0) [3, 5] 5 0
                                      dl := some { tx := some (fr 4, 2), sent := [(fr 1, 2)] } }
def newerMob : Mob := { newMob 0 0 with newUl := 1, ul := some true, q := Llc.enqueue (Llc.initQueue 0) [3, 3] 3 0 }
example : ∃ s', merge ⟨0, 60⟩ ⟨[(1, newerMob), (0, oldMob)], 2⟩ 1 0 = some s' ∧ (get? s' 0).isNone = true ∧
    ∃ m', get? s' 1 = some m' ∧ m'.q.pq 2 = [fr 1, fr 3, fr 4, fr 5] :=
  ⟨_, rfl, by decide +kernel, _, rfl, (show _ = Llc.merge [fr 3] [fr 1, fr 4, fr 5] from rfl).trans (by simp [Llc.merge, fr])⟩
example : ∃ q t, LlcHist q t [(fr 1, 2), (fr 4, 2)] ∧ t = { tx := some (fr 4, 2), sent := [(fr 1, 2)] } ∧ q.pq 2 = [fr 5] := by
  let q0 := Llc.enqueue (Llc.enqueue (Llc.enqueue (Llc.initQueue 0) [3, 1] 1 0) [3, 4] 4 0) [3, 5] 5 0
  let a := schedNext 1 0 q0 {}
  refine ⟨_, _, .sched (u := [(fr 1, 2)]) 1 0 (.complete (.sched (u := []) 1 0 (.enq [3, 5] 5 0 (.enq [3, 4] 4 0 (.enq [3, 1] 1 0 (.start (Llc.initQueue 0) false)))) rfl)) rfl, ?_, ?_⟩ <;> decide +kernel

end Verif.Store
