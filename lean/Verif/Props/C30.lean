import Verif.Lemmas.SchedCtrl
import Verif.Props.C29
/-!
# C30: Control messages before data
-/

namespace Verif.Sched

open Verif.Cs

/-- A message of kind `k` is pending for TBF `r`. -/
def Pending (e : Env) (k : CK) (r : Ref) : Prop := r ∈ refs e.trxUl e.trxDl ∧ r.rts k = true

/-- C30, soundness: a control message that is sent is one that is pending, and a paging request is
one that is available. -/
theorem C30_sent_pending (c : Cfg) (e : Env) (s s1 : St) (o : Out) (h : rts c e s = some (s1, o)) (hi : Ids e)
    (m : Ctrl) (hm : o.blk = .ctrl m) : (∃ k r, m = .msg k r ∧ Pending e k r) ∨ (m = .paging ∧ e.paging = true) := by
  have h1 := ((rts_ctrl h).2.2 m).1 hm
  cases m with
  | msg k r =>
    have := selCtrl_msg hi (Prod.ext h1 rfl : selCtrl e s.nextCtrl s.app = (some (.msg k r), _, _))
    exact .inl ⟨k, r, rfl, cand_mem this.1⟩
  | paging =>
    right
    refine ⟨rfl, ?_⟩
    unfold selCtrl at h1
    dsimp only at h1
    split at h1
    · cases h1
    · split at h1
      · cases h1
      · split at h1
        · cases h1
        · dsimp only at h1
          split at h1
          · assumption
          · cases h1
  | app m =>
    exfalso
    unfold selCtrl at h1
    dsimp only at h1
    split at h1
    · cases h1
    · split at h1
      · cases h1
      · split at h1
        · cases h1
        · dsimp only at h1
          split at h1 <;> cases h1

/-- C30, control first. Partial: the property is claimed for all requests; it is proved for those
at which every pending message can be built and no mobile waits for application information. Then
a block that is not a control block (data, dummy or no block) means that nothing is pending. -/
theorem C30_control_first_partial (c : Cfg) (e : Env) (s s1 : St) (o : Out) (h : rts c e s = some (s1, o))
    (hn : NoApp e s.app) (hcan : ∀ k r, Pending e k r → e.can k r = true)
    (hb : ∀ m, o.blk ≠ .ctrl m) : e.paging = false ∧ ∀ k r, ¬ Pending e k r := by
  have hnone : (selCtrl e s.nextCtrl s.app).1 = none := by
    cases hx : (selCtrl e s.nextCtrl s.app).1 with
    | none => rfl
    | some m => exact absurd (((rts_ctrl h).2.2 m).2 hx) (hb m)
  obtain ⟨h1, h2⟩ := selCtrl_none hn (Prod.ext hnone rfl : selCtrl e s.nextCtrl s.app = (none, _, _)) (by simp)
  constructor
  · cases hp : e.paging with
    | false => rfl
    | true => rw [hp] at h1; cases h1
  · intro k r hk
    obtain ⟨k', r', hr', hk', hc'⟩ := h2 ⟨k, r, hk⟩
    rw [hcan k' r' ⟨hr', hk'⟩] at hc'
    cases hc'

/-- C30, the same for the messages of TBFs: they come before paging requests. -/
theorem C30_tbf_before_paging_partial (c : Cfg) (e : Env) (s s1 : St) (o : Out) (h : rts c e s = some (s1, o))
    (hn : NoApp e s.app) (hcan : ∀ k r, Pending e k r → e.can k r = true)
    (hp : ∃ k r, Pending e k r) : ∃ k r, o.blk = .ctrl (.msg k r) := by
  refine Classical.byContradiction fun hno => ?_
  have hm : ∀ k r, (selCtrl e s.nextCtrl s.app).1 ≠ some (.msg k r) :=
    fun k r hx => hno ⟨k, r, ((rts_ctrl h).2.2 _).2 hx⟩
  obtain ⟨_, h2⟩ := selCtrl_none hn (Prod.ext rfl rfl : selCtrl e s.nextCtrl s.app = (_, _, _)) hm
  obtain ⟨k', r', hr', hk', hc'⟩ := h2 hp
  rw [hcan k' r' ⟨hr', hk'⟩] at hc'
  cases hc'

/-! ### Rotation of the kinds -/

/-- Kind `k` is pending, no mobile waits for application information, and each TBF for which it is
pending has nothing else pending, can be sent the message now, and the message does not replace
the TBF on which it is sent: downlink assignments are sent on uplink TBFs and vice versa. -/
structure Steady (k : CK) (x : St × Env × Out) : Prop where
  ids : Ids x.2.1
  noApp : NoApp x.2.1 x.1.app
  some : ∃ r, Pending x.2.1 k r
  all : ∀ r, Pending x.2.1 k r → x.2.1.can k r = true ∧ (∀ k' r', Pending x.2.1 k' r' → r' = r → k' = k) ∧
    (k = .dlAss → r.up = true) ∧ (k = .ulAss → r.up = false ∨ r.t.ulAss = .sendRej)

theorem steady_step {c : Cfg} {e : Env} {s s1 : St} {o : Out} (h : rts c e s = some (s1, o)) {k : CK}
    (hs : Steady k (s, e, o)) :
    s1.nextCtrl = (s.nextCtrl + 1) % 4 ∧ (s.nextCtrl % 4 = k.idx → ∃ r, o.blk = .ctrl (.msg k r)) := by
  obtain ⟨hi, hn, ⟨r0, hr0⟩, hall⟩ := hs
  dsimp only at *
  obtain ⟨h1, _, h3⟩ := rts_ctrl h
  have hsome : ∃ r, cand e.trxUl e.trxDl k = some r := by
    cases hc : cand e.trxUl e.trxDl k with
    | some r => exact ⟨r, rfl⟩
    | none => have := cand_none hc r0 hr0.1; rw [hr0.2] at this; cases this
  obtain ⟨r, hr⟩ := hsome
  obtain ⟨hcan, hex, hd, hu⟩ := hall r (cand_mem hr)
  have hk : entryKind (cand e.trxUl e.trxDl) r = some k := by
    have hne : ∀ k' ≠ k, same (cand e.trxUl e.trxDl k') r = false := by
      intro k' hk'
      cases hsm : same (cand e.trxUl e.trxDl k') r with
      | false => rfl
      | true =>
        have := (same_eq hi (cand_mem hr).1).1 hsm
        exact absurd (hex k' r (cand_mem this) rfl) hk'
    have he : same (cand e.trxUl e.trxDl k) r = true := (same_eq hi (cand_mem hr).1).2 hr
    unfold entryKind
    cases k with
    | ulAss =>
      rw [he]
      rcases hu rfl with hu | hu
      · cases hx : (r.t.ulAss == UlAss.sendRej) <;> simp [hu]
      · simp [hu]
    | dlAss => simp [hne .ulAss nofun, he, hd rfl]
    | ulAck => simp [hne .ulAss nofun, hne .dlAss nofun, he]
    | nacc => simp [hne .ulAss nofun, hne .dlAss nofun, hne .ulAck nofun, he]
  have hloop : ∃ x, ctrlLoop e.can (cand e.trxUl e.trxDl) 4 s.nextCtrl = some x ∧
      (s.nextCtrl % 4 = k.idx → x = (k, r)) := by
    cases hl : ctrlLoop e.can (cand e.trxUl e.trxDl) 4 s.nextCtrl with
    | none => have := ctrlLoop_kind hl k r hr k hk; rw [hcan] at this; cases this
    | some x =>
      refine ⟨x, rfl, fun hidx => ?_⟩
      have ht : tryEntry e.can (cand e.trxUl e.trxDl) s.nextCtrl = some (k, r) := by
        unfold tryEntry
        rw [entry_idx _ k _ hidx, hr]
        simp only [Option.bind_some]
        rw [hk]
        simp only [Option.bind_some, hcan, if_true]
      unfold ctrlLoop at hl
      rw [ht] at hl
      cases hl
      rfl
  obtain ⟨⟨k', r'⟩, hx, hkr⟩ := hloop
  have hsel : selCtrl e s.nextCtrl s.app = (some (.msg k' r'), (s.nextCtrl + 1) % 4, s.app) := by
    unfold selCtrl
    dsimp only
    rw [schedApp_no hn]
    simp only [hx]
    rfl
  refine ⟨by rw [h1, hsel], fun hidx => ⟨r, (h3 _).2 ?_⟩⟩
  have := hkr hidx
  simp only [Prod.mk.injEq] at this
  rw [hsel, this.1, this.2]

theorem steady_trace {c : Cfg} {k : CK} : ∀ {s s' : St} {tr : List (St × Env × Out)}, Trace c s tr s' → s.Ok →
    (∀ x ∈ tr, Steady k x) → (k.idx + 4 - s.nextCtrl) % 4 < tr.length →
    ∃ x ∈ tr, ∃ r, x.2.2.blk = .ctrl (.msg k r) := by
  intro s s' tr h
  induction h with
  | nil => intro _ _ h; simp at h
  | @cons s s1 s2 tr e o u a hr _ ih =>
    intro hok hst hlen
    obtain ⟨h1, h2⟩ := steady_step hr (hst _ List.mem_cons_self)
    have hc : s.nextCtrl < 4 := hok.ctrl
    have hk4 : k.idx < 4 := by cases k <;> decide
    dsimp only at h1 h2
    by_cases hidx : s.nextCtrl % 4 = k.idx
    · obtain ⟨r, hr'⟩ := h2 hidx
      exact ⟨_, List.mem_cons_self, r, hr'⟩
    · have hlen' : (k.idx + 4 - s1.nextCtrl) % 4 < tr.length := by
        rw [h1]
        simp only [List.length_cons] at hlen
        omega
      obtain ⟨x, hx, r, hr'⟩ := ih (rts_ok hr (hok.any u a)) (fun x hx => hst x (List.mem_cons_of_mem _ hx)) hlen'
      exact ⟨x, List.mem_cons_of_mem _ hx, r, hr'⟩

/-- C30, rotation. Partial: the property is claimed for every kind that is pending; it is proved for
kinds that can be sent throughout and whose TBFs have nothing else pending. Such a kind is served
within any four consecutive blocks of a history. -/
theorem C30_rotation_partial (c : Cfg) (s : St) (pre mid post : List (St × Env × Out))
    (h : Trace c {} (pre ++ mid ++ post) s) (k : CK) (hlen : 4 ≤ mid.length) (hst : ∀ x ∈ mid, Steady k x) :
    ∃ x ∈ mid, ∃ r, x.2.2.blk = .ctrl (.msg k r) := by
  obtain ⟨s1, h1, _⟩ := Trace.split (pre ++ mid) h
  obtain ⟨s2, h2, h3⟩ := Trace.split pre h1
  exact steady_trace h3 (h2.ok init_ok) hst (by have := Nat.mod_lt (k.idx + 4 - s2.nextCtrl) (by decide : 4 > 0); omega)

/-! ### Rotation of the uplink TBFs that wait for their acknowledgement -/

/-- Identifiers behind `f` in a list. -/
def after (f : Nat) : List Nat → List Nat
  | [] => []
  | a :: l => if a = f then l else after f l

/-- Identifiers of the uplink TBFs, in the order of the list of the TRX. -/
def ulIds (x : St × Env × Out) : List Nat := x.2.1.trxUl.map (·.id)

/-- Between two requests, TBFs are put at the head of the list or removed; `f` stays. -/
def Chained (f : Nat) : List (St × Env × Out) → Prop
  | x :: y :: l => (∃ new sub, ulIds y = new ++ sub ∧ f ∉ new ∧
      sub.Sublist ((listsAfter x.2.1 x.2.2.blk).1.map (·.id))) ∧ Chained f (y :: l)
  | _ => True

/-- Acknowledgements sent to uplink TBFs. -/
def acks (tr : List (St × Env × Out)) : Nat :=
  tr.countP fun x => match x.2.2.blk with
    | .ctrl (.msg .ulAck _) => true
    | _ => false

theorem after_append {f : Nat} {a b : List Nat} (h : f ∉ a) : after f (a ++ b) = after f b := by
  induction a with
  | nil => rfl
  | cons x a ih =>
    simp only [List.mem_cons, not_or] at h
    simp only [List.cons_append, after]
    rw [if_neg (fun e => h.1 e.symm), ih h.2]

theorem after_sublist_self {f : Nat} {l : List Nat} : (after f l).Sublist l := by
  induction l with
  | nil => exact List.Sublist.refl _
  | cons a l ih =>
    unfold after
    split
    · exact List.sublist_cons_self a l
    · exact ih.trans (List.sublist_cons_self a l)

theorem after_sublist {f : Nat} {a l : List Nat} (hs : a.Sublist l) (hf : f ∈ a) (hn : l.Nodup) :
    (after f a).Sublist (after f l) := by
  induction hs with
  | slnil => cases hf
  | @cons a l x hs ih =>
    rw [List.nodup_cons] at hn
    have : x ≠ f := fun e => hn.1 (hs.subset (e ▸ hf))
    rw [after, if_neg this]
    exact ih hf hn.2
  | @cons_cons a l x hs ih =>
    rw [List.nodup_cons] at hn
    unfold after
    split
    · exact hs
    · rename_i hx
      rcases List.mem_cons.1 hf with rfl | hf
      · exact absurd rfl hx
      · exact ih hf hn.2

theorem after_filter {f g : Nat} (hg : g ≠ f) (l : List Nat) :
    after f (l.filter (· != g)) = (after f l).filter (· != g) := by
  induction l with
  | nil => rfl
  | cons a l ih =>
    by_cases ha : a = g
    · rw [List.filter_cons_of_neg (by simp [ha]), after, if_neg (by rw [ha]; exact hg), ih]
    · rw [List.filter_cons_of_pos (by simp [ha]), after, after, ih]
      split <;> rfl

theorem ids_filter (l : List CtlT) (g : Nat) :
    (l.filter (·.id != g)).map (·.id) = (l.map (·.id)).filter (· != g) := by
  rw [List.filter_map]; rfl

theorem rotate_ids (l : List CtlT) (g : Nat) :
    ∃ p, (rotate l g).map (·.id) = p ++ (l.map (·.id)).filter (· != g) ∧ ∀ x ∈ p, x = g := by
  unfold rotate
  rw [List.map_append, ids_filter]
  refine ⟨_, rfl, fun x hx => ?_⟩
  simp only [List.mem_map, List.mem_filter, beq_iff_eq] at hx
  obtain ⟨t, ⟨_, h1⟩, h2⟩ := hx
  rw [← h2, h1]

theorem rotate_nodup {l : List CtlT} {g : Nat} (h : (l.map (·.id)).Nodup) : ((rotate l g).map (·.id)).Nodup := by
  unfold rotate
  have hp : (l.filter (·.id == g) ++ l.filter (fun t => !(t.id == g))).Perm l := List.filter_append_perm _ l
  exact (hp.map (·.id)).nodup_iff.2 h

/-- The candidate for an acknowledgement comes last in the list. -/
theorem cand_behind {e : Env} {r : Ref} (h : cand e.trxUl e.trxDl .ulAck = some r)
    {f : CtlT} (hf : f ∈ e.trxUl) (hp : f.ulAckRts = true) (hne : f.id ≠ r.t.id) (hn : (e.trxUl.map (·.id)).Nodup) :
    r.up = true ∧ r.t.id ∈ after f.id (e.trxUl.map (·.id)) := by
  obtain ⟨l1, l2, h1, h2, h3⟩ := cand_some h
  have hup : r.up = true := by
    simp only [Ref.rts, Bool.and_eq_true] at h2
    exact h2.1
  refine ⟨hup, ?_⟩
  -- position of r in the uplink list
  have hmem : (⟨true, f⟩ : Ref) ∈ l1 := by
    have : (⟨true, f⟩ : Ref) ∈ refs e.trxUl e.trxDl := by
      unfold refs
      exact List.mem_append_left _ (List.mem_map.2 ⟨f, hf, rfl⟩)
    rw [h1] at this
    simp only [List.mem_append, List.mem_cons] at this
    rcases this with h | h | h
    · exact h
    · exact absurd (by rw [← h]) hne
    · have := h3 _ h
      simp [Ref.rts, hp] at this
  have hul : ∃ m1 m2, e.trxUl = m1 ++ r.t :: m2 ∧ f ∈ m1 := by
    unfold refs at h1
    rcases List.append_eq_append_iff.1 h1.symm with ⟨as, ha, hb⟩ | ⟨bs, ha, hb⟩
    · cases as with
      | nil =>
        exfalso
        simp only [List.nil_append] at hb
        have hx : r ∈ List.map (fun t => (⟨false, t⟩ : Ref)) e.trxDl := hb ▸ List.mem_cons_self
        obtain ⟨t, _, ht⟩ := List.mem_map.1 hx
        rw [← ht] at hup
        cases hup
      | cons a as =>
        simp only [List.cons_append, List.cons.injEq] at hb
        obtain ⟨rfl, _⟩ := hb
        obtain ⟨m1, m2, hm1, hm2, hm3⟩ := List.map_eq_append_iff.1 ha
        obtain ⟨t, m3, hm4, hm5, _⟩ := List.map_eq_cons_iff.1 hm3
        refine ⟨m1, m3, ?_, ?_⟩
        · rw [hm1, hm4, ← hm5]
        · rw [← hm2] at hmem
          obtain ⟨t', ht', he⟩ := List.mem_map.1 hmem
          simp only [Ref.mk.injEq, true_and] at he
          rw [← he]; exact ht'
    · exfalso
      have hx : r ∈ List.map (fun t => (⟨false, t⟩ : Ref)) e.trxDl := by rw [hb]; simp
      obtain ⟨t, _, ht⟩ := List.mem_map.1 hx
      rw [← ht] at hup
      cases hup
  obtain ⟨m1, m2, h5, h6⟩ := hul
  obtain ⟨n1, n2, rfl⟩ := List.append_of_mem h6
  rw [h5] at hn ⊢
  simp only [List.map_append, List.map_cons, List.append_assoc, List.cons_append] at hn ⊢
  have hnot : f.id ∉ List.map (·.id) n1 := by
    intro hx
    rw [List.nodup_append] at hn
    exact hn.2.2 _ hx f.id List.mem_cons_self rfl
  rw [after_append hnot]
  simp [after]

/-- C30, rotation of TBFs: an uplink TBF that waits for its acknowledgement and is not sent any
control message sees at most one acknowledgement for each TBF behind it in the list. -/
theorem C30_ack_rotation (c : Cfg) (f : Nat) : ∀ (x : St × Env × Out) (mid : List (St × Env × Out)) (s s' : St),
    Trace c s (x :: mid) s' → Chained f (x :: mid) →
    (∀ y ∈ x :: mid, Ids y.2.1 ∧ (ulIds y).Nodup ∧ ∃ t ∈ y.2.1.trxUl, t.id = f ∧ t.ulAckRts = true) →
    (∀ y ∈ x :: mid, ∀ k r, y.2.2.blk = .ctrl (.msg k r) → r.up = true → r.t.id ≠ f) →
    acks (x :: mid) ≤ (after f (ulIds x)).length := by
  intro x mid
  -- what one request does to the TBFs behind f
  have step : ∀ (s s1 : St) (e : Env) (o : Out), rts c e s = some (s1, o) → Ids e → (e.trxUl.map (·.id)).Nodup →
      (∃ t ∈ e.trxUl, t.id = f ∧ t.ulAckRts = true) →
      (∀ k r, o.blk = .ctrl (.msg k r) → r.up = true → r.t.id ≠ f) →
      ((listsAfter e o.blk).1.map (·.id)).Nodup ∧
      (after f ((listsAfter e o.blk).1.map (·.id))).length +
        (match o.blk with | .ctrl (.msg .ulAck _) => 1 | _ => 0) ≤ (after f (e.trxUl.map (·.id))).length := by
    intro s s1 e o hr hi hnd ⟨t, ht, htf, hta⟩ hno
    cases hb : o.blk with
    | data _ _ _ => exact ⟨hnd, Nat.le_refl _⟩
    | dummy => exact ⟨hnd, Nat.le_refl _⟩
    | empty => exact ⟨hnd, Nat.le_refl _⟩
    | ctrl m =>
      cases m with
      | app _ => exact ⟨hnd, Nat.le_refl _⟩
      | paging => exact ⟨hnd, Nat.le_refl _⟩
      | msg k r =>
        unfold listsAfter
        dsimp only
        cases hup : r.up with
        | false =>
          simp only [Bool.false_eq_true, if_false]
          refine ⟨hnd, ?_⟩
          cases k with
          | ulAck =>
            exfalso
            have h1 := ((rts_ctrl hr).2.2 _).1 hb
            have := selCtrl_msg hi (Prod.ext h1 rfl : selCtrl e s.nextCtrl s.app = (some (.msg .ulAck r), _, _))
            have := (cand_mem this.1).2
            simp [Ref.rts, hup] at this
          | _ => exact Nat.le_refl _
        | true =>
          simp only [if_true]
          refine ⟨rotate_nodup hnd, ?_⟩
          have hg : r.t.id ≠ f := hno k r hb hup
          obtain ⟨p, hp1, hp2⟩ := rotate_ids e.trxUl r.t.id
          have hfp : f ∉ p := fun h => hg (hp2 f h).symm
          rw [hp1, after_append hfp, after_filter hg]
          have hle := List.length_filter_le (· != r.t.id) (after f (e.trxUl.map (·.id)))
          cases k with
          | ulAck =>
            have h1 := ((rts_ctrl hr).2.2 _).1 hb
            have := selCtrl_msg hi (Prod.ext h1 rfl : selCtrl e s.nextCtrl s.app = (some (.msg .ulAck r), _, _))
            have hbe := (cand_behind this.1 ht hta (by rw [htf]; exact fun e => hg e.symm) hnd).2
            rw [htf] at hbe
            have hlt : ((after f (e.trxUl.map (·.id))).filter (· != r.t.id)).length <
                (after f (e.trxUl.map (·.id))).length := by
              rcases Nat.lt_or_eq_of_le hle with h | h
              · exact h
              · exfalso
                have := (List.length_filter_eq_length_iff).1 h r.t.id hbe
                simp at this
            exact hlt
          | _ => exact hle
  induction mid generalizing x with
  | nil =>
    intro s s' h _ hw hno
    cases h with
    | @cons _ s1 _ _ e o u a hr _ =>
      obtain ⟨h1, h2, h3⟩ := hw _ List.mem_cons_self
      have := (step _ _ e o hr h1 h2 h3 (hno _ List.mem_cons_self)).2
      unfold acks
      simp only [List.countP_cons, List.countP_nil, Nat.zero_add]
      refine Nat.le_trans ?_ (Nat.le_trans (Nat.le_add_left _ _) this)
      split
      · split at * <;> simp_all
      · exact Nat.zero_le _
  | cons y mid ih =>
    intro s s' h hch hw hno
    cases h with
    | @cons _ s1 _ _ e o u a hr htl =>
      obtain ⟨h1, h2, h3⟩ := hw _ List.mem_cons_self
      have hst := step _ _ e o hr h1 h2 h3 (hno _ List.mem_cons_self)
      have hrest := ih y _ _ htl hch.2 (fun z hz => hw z (List.mem_cons_of_mem _ hz))
        (fun z hz => hno z (List.mem_cons_of_mem _ hz))
      obtain ⟨new, sub, hl1, hl2, hl3⟩ := hch.1
      have hyf : f ∈ sub := by
        obtain ⟨_, _, t, ht, htf, _⟩ := hw y (List.mem_cons_of_mem _ List.mem_cons_self)
        have : f ∈ ulIds y := List.mem_map.2 ⟨t, ht, htf⟩
        rw [hl1] at this
        rcases List.mem_append.1 this with h | h
        · exact absurd h hl2
        · exact h
      have hsub := (after_sublist hl3 hyf hst.1).length_le
      rw [hl1, after_append hl2] at hrest
      unfold acks at hrest ⊢
      rw [List.countP_cons]
      have hadd : (if (match o.blk with | .ctrl (.msg .ulAck _) => true | _ => false) = true then 1 else 0) ≤
          (match o.blk with | .ctrl (.msg .ulAck _) => 1 | _ => 0) := by
        split
        · split at * <;> simp_all
        · exact Nat.zero_le _
      have h4 := hst.2
      dsimp only [ulIds] at *
      omega

/-! ### Where the code differs

A pending message is passed over in three situations. -/

/-- An uplink TBF waiting for an acknowledgement and for a downlink assignment. -/
def exRef30 : CtlT := { id := 1, ms := 1, ctrlTs := true, ulAck := true, dlAss := true }

def exEnv30 (can : CK → Ref → Bool) (ul dl : List CtlT) : Env :=
  { fn := 0, block := 0, ul := fun _ => none, dl := fun i => if i = 2 then some (exDl29 1 false) else none, poll := fun _ => none, trxUl := ul, trxDl := dl, can := can, paging := false, c0 := true, single := true }

/-- Application information waiting for a mobile costs a control block: data is sent although an
assignment is pending and could be sent. -/
theorem C30_app_info_skips_control : ∃ (e : Env) (s s1 : St) (o : Out) (k : CK) (r : Ref),
    rts exCfg29 e s = some (s1, o) ∧ Pending e k r ∧ (∀ k r, e.can k r = true) ∧ (∃ f g cs, o.blk = .data f g cs) := by
  refine ⟨exEnv30 (fun _ _ => true) [exRef30] [], { app := { info := some 9, count := 1, flag := fun m => m == 1 } }, _, _,
    .dlAss, ⟨true, exRef30⟩, rfl, ⟨by decide, by decide⟩, fun _ _ => rfl, 2, false, .cs2, by decide +kernel⟩

/-- As long as the downlink assignment of an uplink TBF cannot be built, the acknowledgement of
this TBF is not sent, although it could be: whatever the state of the scheduler, data is sent. -/
theorem C30_ack_starved : ∃ e : Env, Ids e ∧ Pending e .ulAck ⟨true, exRef30⟩ ∧ e.can .ulAck ⟨true, exRef30⟩ = true ∧
    ∀ (s s1 : St) (o : Out), s.Ok → NoApp e s.app → rts exCfg29 e s = some (s1, o) → ∀ m, o.blk ≠ .ctrl m := by
  refine ⟨exEnv30 (fun k _ => k != .dlAss) [exRef30] [], ?_, ⟨by decide, by decide⟩, rfl, fun s s1 o hok hn h m hm => ?_⟩
  · intro a ha b hb _ _
    simp [exEnv30, refs] at ha hb
    rw [ha, hb]
  · have h1 := ((rts_ctrl h).2.2 m).1 hm
    unfold selCtrl at h1
    dsimp only at h1
    rw [schedApp_no hn] at h1
    simp only at h1
    have hc := hok.ctrl
    have hl : ctrlLoop (exEnv30 (fun k _ => k != .dlAss) [exRef30] []).can
        (cand (exEnv30 (fun k _ => k != .dlAss) [exRef30] []).trxUl (exEnv30 (fun k _ => k != .dlAss) [exRef30] []).trxDl)
        4 s.nextCtrl = none := by
      have : ∀ n < 4, ctrlLoop (exEnv30 (fun k _ => k != .dlAss) [exRef30] []).can
        (cand (exEnv30 (fun k _ => k != .dlAss) [exRef30] []).trxUl (exEnv30 (fun k _ => k != .dlAss) [exRef30] []).trxDl)
        4 n = none := by decide
      exact this _ hc
    rw [hl] at h1
    simp only at h1
    rw [show ctrlFallback (exEnv30 (fun k _ => k != .dlAss) [exRef30] []).can
        (cand (exEnv30 (fun k _ => k != .dlAss) [exRef30] []).trxUl (exEnv30 (fun k _ => k != .dlAss) [exRef30] []).trxDl)
        = none from by decide] at h1
    cases h1

/-- A downlink TBF whose replacement is to be assigned on itself, and an uplink TBF that has to be
acknowledged. -/
def exDl30 : CtlT := { id := 2, ms := 2, ctrlTs := true, dlAss := true }
def exUl30 : CtlT := { id := 1, ms := 1, ctrlTs := true, ulAck := true }

/-- The assignment of a downlink TBF on a downlink TBF is not sent as long as any other message is:
here, as long as another mobile is to be sent acknowledgements. -/
theorem C30_own_direction_starved : ∃ e : Env, Ids e ∧ Pending e .dlAss ⟨false, exDl30⟩ ∧ (∀ k r, e.can k r = true) ∧
    ∀ (s s1 : St) (o : Out), s.Ok → NoApp e s.app → rts exCfg29 e s = some (s1, o) →
      ∃ r, o.blk = .ctrl (.msg .ulAck r) := by
  refine ⟨exEnv30 (fun _ _ => true) [exUl30] [exDl30], ?_, ⟨by decide, by decide⟩, fun _ _ => rfl, fun s s1 o hok hn h => ?_⟩
  · intro a ha b hb hu _
    simp [exEnv30, refs] at ha hb
    rcases ha with rfl | rfl <;> rcases hb with rfl | rfl <;> simp_all
  · refine ⟨⟨true, exUl30⟩, ((rts_ctrl h).2.2 _).2 ?_⟩
    unfold selCtrl
    dsimp only
    rw [schedApp_no hn]
    simp only
    have hc := hok.ctrl
    have : ∀ n < 4, ctrlLoop (exEnv30 (fun _ _ => true) [exUl30] [exDl30]).can
        (cand (exEnv30 (fun _ _ => true) [exUl30] [exDl30]).trxUl (exEnv30 (fun _ _ => true) [exUl30] [exDl30]).trxDl)
        4 n = some (.ulAck, ⟨true, exUl30⟩) := by decide
    rw [this _ hc]
    rfl

/-! Instances. -/

def exRun30 (e : Env) : Nat → St → List Block
  | 0, _ => []
  | n + 1, s => match rts exCfg29 e s with
    | none => []
    | some (s1, o) => o.blk :: exRun30 { e with trxUl := (listsAfter e o.blk).1, trxDl := (listsAfter e o.blk).2 } n s1

def exA30 : CtlT := { id := 5, ms := 5, ctrlTs := true, ulAck := true }
def exB30 : CtlT := { id := 6, ms := 6, ctrlTs := true, nacc := true }

/-- Two TBFs waiting for an acknowledgement and one mobile changing the cell take turns. -/
example : exRun30 (exEnv30 (fun _ _ => true) [exUl30, exA30] [exB30]) 5 {} =
    [.ctrl (.msg .ulAck ⟨true, exA30⟩), .ctrl (.msg .ulAck ⟨true, exUl30⟩), .ctrl (.msg .ulAck ⟨true, exA30⟩),
     .ctrl (.msg .nacc ⟨false, exB30⟩), .ctrl (.msg .ulAck ⟨true, exUl30⟩)] := by decide +kernel

/-- Hypotheses of the rotation theorem for this environment. -/
example : Steady .nacc (({} : St), exEnv30 (fun _ _ => true) [exUl30, exA30] [exB30], ⟨.dummy, 7, none, none⟩) := by
  refine ⟨fun a ha b hb h1 h2 => ?_, fun _ _ => rfl, ⟨⟨false, exB30⟩, by decide, by decide⟩, fun r hr => ⟨rfl, ?_, nofun, nofun⟩⟩
  · simp [exEnv30, refs] at ha hb
    rcases ha with rfl | rfl | rfl <;> rcases hb with rfl | rfl | rfl <;> first | rfl | (exact absurd h2 (by decide)) | (exact absurd h1 (by decide))
  · obtain ⟨h1, h2⟩ := hr
    simp [exEnv30, refs] at h1
    intro k' r' hr' he
    subst he
    obtain ⟨_, h4⟩ := hr'
    rcases h1 with rfl | rfl | rfl
    · exact absurd h2 (by decide)
    · exact absurd h2 (by decide)
    · cases k' <;> first | rfl | exact absurd h4 (by decide)

/-- Without control messages, data is sent. -/
example : exRun30 (exEnv30 (fun _ _ => true) [] []) 1 {} = [.data 2 false .cs2] := by decide +kernel

end Verif.Sched
