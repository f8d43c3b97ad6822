import Verif.Lemmas.Sched
import Verif.Props.C18
/-!
# C28: Uplink state flags
-/

namespace Verif.Sched

open Verif.Cs Verif.Fn Verif.Ulc

/-- History of a PDCH with its reservations of uplink blocks. `b` is the first frame that has not
passed yet, `used` are the uplink blocks for which the BTS has already asked for a USF. Polls and
single blocks are reserved, reservations are released and expire as in C18. -/
inductive Hist (c : Cfg) : Nat → List Nat → St → Prop
  | init (b : Nat) : b < H → Hist c b [] {}
  | reserve {b used s} (fn : Nat) (o : Owner) : Hist c b used s → (∀ t, o ≠ .usf t) → fn < H → fnSub fn b < W →
      Hist c b used { s with ulc := (Ulc.reserve s.ulc fn o).2 }
  | sba {b used s} (lastRts id : Nat) : Hist c b used s → BlockStart lastRts → fnSub (nextFn lastRts 52) b < W →
      fnSub (sbaAlloc s.ulc lastRts id).1 b < W → Hist c b used { s with ulc := (sbaAlloc s.ulc lastRts id).2.2 }
  | releaseFn {b used s} (fn : Nat) : Hist c b used s → fn < H → fnSub fn b < H / 2 →
      Hist c b used { s with ulc := (Ulc.releaseFn s.ulc fn).2 }
  | releaseTbf {b used s} (t : Nat) : Hist c b used s → Hist c b used { s with ulc := Ulc.releaseTbf s.ulc t }
  | expire {b used s} (freed : Node → List Nat) (fn : Nat) : Hist c b used s → fn < H → fnSub fn b < H / 2 →
      Hist c (nextFn fn 1) used { s with ulc := (expireFn freed s.ulc fn).1 }
  | app {b used s} (a : App) : Hist c b used s → Hist c b used { s with app := a }
  | rts {b used s s1 o} (e : Env) : Hist c b used s → rts c e s = some (s1, o) →
      fnSub (rtsNextFn e.fn e.block) b < W → rtsNextFn e.fn e.block ∉ used →
      Hist c b (rtsNextFn e.fn e.block :: used) s1

/-- USFs given to attached TBFs are 0..6 (C20, C21). -/
def UsfSane (e : Env) : Prop :=
  (∀ i < 32, ∀ t, e.ul i = some t → ∃ u < 7, t.usf = some u) ∧
  (∀ i t, e.poll i = some t → ∀ u, t.usf = some u → u < 7)

theorem reserve_mem {l : List Node} {fn : Nat} {o : Owner} {b : Nat} (h : Window b l) (hf : fn < H)
    (ho : fnSub fn b < W) : (∀ n ∈ (Ulc.reserve l fn o).2, n ∈ l ∨ n = ⟨fn, o⟩) ∧
    (∀ n ∈ l, n ∈ (Ulc.reserve l fn o).2) ∧ ((∀ n ∈ l, n.fn ≠ fn) → ⟨fn, o⟩ ∈ (Ulc.reserve l fn o).2) := by
  unfold Ulc.reserve
  rcases addNode_spec h ⟨fn, o⟩ hf ho with ⟨h1, n, hn, h2⟩ | ⟨l1, l2, h1, h2, _, _⟩
  · rw [h1]
    exact ⟨fun n hn => .inl hn, fun n hn => hn, fun hno => absurd h2 (hno n hn)⟩
  · rw [h2]
    subst h1
    simp only [List.mem_append, List.mem_cons]
    refine ⟨fun n hn => ?_, fun n hn => ?_, fun _ => .inr (.inl trivial)⟩
    · rcases hn with h | h | h
      · exact .inl (.inl h)
      · exact .inr h
      · exact .inl (.inr h)
    · rcases hn with h | h
      · exact .inl h
      · exact .inr (.inr h)

/-- The reservations after the choice of the USF. -/
theorem selUsf_ulc (e : Env) (s : St) (g : Bool) :
    (selUsf e s g).ulc = s.ulc ∨ ∃ t : UlT, (selUsf e s g).ulc = (Ulc.reserve s.ulc (rtsNextFn e.fn e.block) (.usf t.id)).2 := by
  unfold selUsf
  dsimp only
  split
  · exact .inl rfl
  · exact .inl rfl
  · unfold grantUl
    split
    · rename_i n tfi t _; exact .inr ⟨t, rfl⟩
    · exact .inl rfl

theorem Hist.inv {c : Cfg} {b : Nat} {used : List Nat} {s : St} (h : Hist c b used s) :
    Reach b s.ulc ∧ s.Ok ∧ ∀ n ∈ s.ulc, ∀ t, n.owner = .usf t → n.fn ∈ used := by
  induction h with
  | init b hb => exact ⟨.init b hb, init_ok, by simp⟩
  | reserve fn o _ ho hf hw ih =>
    refine ⟨.reserve fn o ih.1 hf hw, ih.2.1.any _ _, fun n hn t ht => ?_⟩
    rcases (reserve_mem (reach_window ih.1) hf hw).1 n hn with h | h
    · exact ih.2.2 n h t ht
    · rw [h] at ht; exact absurd ht (ho t)
  | sba lastRts id _ hr h1 h2 ih =>
    refine ⟨.sba lastRts id ih.1 hr h1 h2, ih.2.1.any _ _, fun n hn t ht => ?_⟩
    have hs := C18_sba ih.1 lastRts id hr h1 h2
    rcases (reserve_mem (reach_window ih.1) hs.2.1.1 h2).1 n hn with h | h
    · exact ih.2.2 n h t ht
    · rw [h] at ht; cases ht
  | releaseFn fn _ hf hw ih =>
    refine ⟨.releaseFn fn ih.1 hf hw, ih.2.1.any _ _, fun n hn t ht => ih.2.2 n ?_ t ht⟩
    unfold Ulc.releaseFn at hn
    split at hn
    · exact hn
    · exact List.mem_of_mem_erase hn
  | releaseTbf t _ ih =>
    exact ⟨.releaseTbf t ih.1, ih.2.1.any _ _, fun n hn t' ht => ih.2.2 n ((C18_release_tbf _ t).1.subset hn) t' ht⟩
  | expire freed fn _ hf hw ih =>
    refine ⟨.expire freed fn ih.1 hf hw, ih.2.1.any _ _, fun n hn t' ht => ih.2.2 n ?_ t' ht⟩
    have := (expire_spec freed hf hw _ _ (Nat.le_refl _) (reach_window ih.1)).2.2.2
    change n ∈ (Ulc.expire freed fn _ _).1 at hn
    rw [this] at hn
    exact (List.mem_filter.1 hn).1
  | app a _ ih => exact ⟨ih.1, ih.2.1.any _ _, ih.2.2⟩
  | @rts b used s s1 o e _ hr hw _ ih =>
    have hok := rts_ok hr ih.2.1
    obtain ⟨bb, hb, rfl, rfl⟩ := rts_some hr
    have hf : rtsNextFn e.fn e.block < H := Nat.mod_lt _ (by decide)
    refine ⟨?_, hok, fun n hn t ht => ?_⟩
    · show Reach b (selUsf e s s.gprsOnly).ulc
      rcases selUsf_ulc e s s.gprsOnly with h | ⟨t, h⟩
      · rw [h]; exact ih.1
      · rw [h]; exact .reserve _ _ ih.1 hf hw
    · change n ∈ (selUsf e s s.gprsOnly).ulc at hn
      rcases selUsf_ulc e s s.gprsOnly with h | ⟨t', h⟩
      · rw [h] at hn; exact List.mem_cons_of_mem _ (ih.2.2 n hn t ht)
      · rw [h] at hn
        rcases (reserve_mem (reach_window ih.1) hf hw).1 n hn with h' | h'
        · exact List.mem_cons_of_mem _ (ih.2.2 n h' t ht)
        · rw [h']; exact List.mem_cons_self

/-- C28, entitlement: in every history, when the BTS asks for the downlink block that announces
uplink block `p` (the first request for it):
* a single-block reservation stays and no USF is announced;
* a poll stays, and at most the polled mobile itself is announced;
* otherwise the USF announced is the one of an attached TBF that is in data transfer, and the block
  is reserved for it now; reservations for other blocks are not touched; no USF is announced only if
  no attached TBF can be given the block. -/
theorem C28_usf {c : Cfg} {b : Nat} {used : List Nat} {s s1 : St} {e : Env} {o : Out}
    (hh : Hist c b used s) (hr : rts c e s = some (s1, o)) (hus : UsfSane e)
    (hw : fnSub (rtsNextFn e.fn e.block) b < W) (hp : rtsNextFn e.fn e.block ∉ used) :
    (∀ id, ⟨rtsNextFn e.fn e.block, .sba id⟩ ∈ s.ulc → o.usf = 7 ∧ s1.ulc = s.ulc) ∧
    (∀ t r, ⟨rtsNextFn e.fn e.block, .poll t r⟩ ∈ s.ulc → s1.ulc = s.ulc ∧
      (o.usf = 7 ∨ ∃ u, e.poll t = some u ∧ u.usf = some o.usf)) ∧
    ((∀ n ∈ s.ulc, n.fn = rtsNextFn e.fn e.block → (∀ id, n.owner ≠ .sba id) ∧ ∀ t r, n.owner ≠ .poll t r) →
      (o.usf = 7 ∧ s1.ulc = s.ulc ∧
        ∀ i < 32, ∀ t, e.ul i = some t → t.st = .flow → t.egprs = true ∧ s.noCs14 = 17) ∨
      ∃ i t, i < 32 ∧ e.ul i = some t ∧ t.st = .flow ∧ t.usf = some o.usf ∧ o.usf < 7 ∧
        o.grant = some i ∧ ⟨rtsNextFn e.fn e.block, .usf t.id⟩ ∈ s1.ulc ∧ ∀ n ∈ s.ulc, n ∈ s1.ulc) := by
  have inv := hh.inv
  have hwin := reach_window inv.1
  have hf : rtsNextFn e.fn e.block < H := Nat.mod_lt _ (by decide)
  have hw2 : fnSub (rtsNextFn e.fn e.block) b < H / 2 := Nat.lt_trans hw W_lt
  obtain ⟨bb, hb, rfl, rfl⟩ := rts_some hr
  dsimp only
  refine ⟨fun id hm => ?_, fun t r hm => ?_, fun hno => ?_⟩
  · have hg := (getNode_some hwin hf hw2 _).2 ⟨hm, rfl⟩
    unfold selUsf
    simp only [hg, Option.map_some]
    exact ⟨rfl, trivial⟩
  · have hg := (getNode_some hwin hf hw2 _).2 ⟨hm, rfl⟩
    unfold selUsf
    simp only [hg, Option.map_some]
    refine ⟨trivial, ?_⟩
    cases hu : e.poll t with
    | none => exact .inl rfl
    | some u =>
      cases hx : u.usf with
      | none => left; simp [Option.bind_some, hx, usfOf]
      | some x =>
        right
        have := hus.2 t u hu x hx
        refine ⟨u, rfl, ?_⟩
        simp only [Option.bind_some, hx, Option.isSome_some, if_true, usfOf, Option.getD_some]
        rw [Nat.mod_eq_of_lt (by omega)]
  · have hfree : ∀ n ∈ s.ulc, n.fn ≠ rtsNextFn e.fn e.block := by
      intro n hn hfn
      have h1 := hno n hn hfn
      cases ho : n.owner with
      | sba id => exact h1.1 id ho
      | poll t r => exact h1.2 t r ho
      | usf t => exact hp (hfn ▸ inv.2.2 n hn t ho)
    have hg : getNode s.ulc (rtsNextFn e.fn e.block) = none := by
      cases hg : getNode s.ulc (rtsNextFn e.fn e.block) with
      | none => rfl
      | some n => exact absurd ((getNode_some hwin hf hw2 n).1 hg).2 (hfree n ((getNode_some hwin hf hw2 n).1 hg).1)
    have hsel : selUsf e s s.gprsOnly = grantUl s.ulc (rtsNextFn e.fn e.block) (selUl e.ul s.nextUl s.gprsOnly) := by
      unfold selUsf
      simp only [hg, Option.map_none]
    rw [hsel]
    unfold selUl
    cases hl : selUlLoop e.ul s.gprsOnly 32 s.nextUl with
    | none =>
      left
      refine ⟨rfl, rfl, fun i hi t ht hst => ?_⟩
      have hne := selUlLoop_none e.ul s.gprsOnly 32 s.nextUl inv.2.1.ul hl i hi (dist_lt _ _) t ht
      unfold ulEligible at hne
      rw [hst] at hne
      simp only [beq_self_eq_true, Bool.true_and, Bool.not_eq_false', Bool.and_eq_true] at hne
      refine ⟨hne.2, ?_⟩
      have := hne.1
      unfold St.gprsOnly resync at this
      simpa using this
    | some x =>
      obtain ⟨k, t⟩ := x
      right
      obtain ⟨h1, h2, h3, _⟩ := selUlLoop_some e.ul s.gprsOnly 32 s.nextUl k t inv.2.1.ul hl
      obtain ⟨u, hu, hu'⟩ := hus.1 k h1 t h2
      have hm := reserve_mem (o := .usf t.id) hwin hf hw
      refine ⟨k, t, h1, h2, ?_, ?_, ?_, rfl, hm.2.2 hfree, hm.2.1⟩
      · unfold ulEligible at h3
        simp only [Bool.and_eq_true, beq_iff_eq] at h3
        exact h3.1
      · show t.usf = some ((t.usf.getD 255) % 8)
        rw [hu', Option.getD_some, Nat.mod_eq_of_lt (by omega)]
      · show (t.usf.getD 255) % 8 < 7
        rw [hu', Option.getD_some, Nat.mod_eq_of_lt (by omega)]
        exact hu

/-- Uplink TFIs served with data blocks in a history. -/
def grants (tr : List (St × Env × Out)) : List Nat := tr.filterMap (·.2.2.grant)

theorem selUsf_grant {e : Env} {s : St} {g : Bool} {f : Nat} {u : UlT} (hs : s.nextUl < 32) (hf : f < 32)
    (hu : e.ul f = some u) (he : ulEligible g u = true) :
    ((selUsf e s g).grant = none ∧ (selUsf e s g).next = s.nextUl) ∨
    ∃ k, (selUsf e s g).grant = some k ∧ k < 32 ∧ (selUsf e s g).next = (k + 1) % 32 ∧
      dist s.nextUl k ≤ dist s.nextUl f := by
  unfold selUsf
  dsimp only
  split
  · exact .inl ⟨rfl, rfl⟩
  · exact .inl ⟨rfl, rfl⟩
  · unfold selUl
    cases hl : selUlLoop e.ul g 32 s.nextUl with
    | none => exact .inl ⟨rfl, rfl⟩
    | some x =>
      obtain ⟨k, t⟩ := x
      obtain ⟨h1, h2, h3, h4⟩ := selUlLoop_some e.ul g 32 s.nextUl k t hs hl
      exact .inr ⟨k, rfl, h1, rfl, h4 f hf (dist_lt _ _) u hu he⟩

theorem Trace.ulRound {c : Cfg} {s s' : St} {tr : List (St × Env × Out)} (h : Trace c s tr s') (hs : s.Ok)
    {f : Nat} (hf : f < 32) (hw : ∀ x ∈ tr, UlWants f x) (hno : f ∉ grants tr) : Round f s.nextUl (grants tr) := by
  induction h with
  | nil => exact .nil _
  | @cons s s1 s2 tr e o u a hr _ ih =>
    have hok := rts_ok hr (hs.any u a)
    obtain ⟨t, ht, hst, hcs⟩ := hw _ List.mem_cons_self
    dsimp only at ht hcs
    obtain ⟨bb, hb, rfl, rfl⟩ := rts_some hr
    have he : ulEligible (St.gprsOnly { s with ulc := u, app := a }) t = true := by
      unfold ulEligible
      rw [hst]
      simp only [beq_self_eq_true, Bool.true_and, Bool.not_eq_true', Bool.and_eq_false_iff]
      cases hE : t.egprs with
      | false => exact .inr rfl
      | true =>
        left
        unfold St.gprsOnly resync
        simpa using hcs hE
    have hg := selUsf_grant (e := e) (s := { s with ulc := u, app := a }) hs.ul hf ht he
    generalize hS : selUsf e { s with ulc := u, app := a } (St.gprsOnly { s with ulc := u, app := a }) = S at *
    have hrest : ∀ x ∈ tr, UlWants f x := fun x hx => hw x (List.mem_cons_of_mem _ hx)
    rcases hg with ⟨h1, h2⟩ | ⟨k, h1, h2, h3, h4⟩
    · have hgr : ∀ x : St × Env × Out, x.2.2.grant = none → grants (x :: tr) = grants tr := by
        intro x hx; unfold grants; rw [List.filterMap_cons, hx]
      rw [hgr _ h1] at hno ⊢
      have := ih hok hrest hno
      dsimp only at this
      rw [h2] at this
      exact this
    · have hgr : ∀ x : St × Env × Out, x.2.2.grant = some k → grants (x :: tr) = k :: grants tr := by
        intro x hx; unfold grants; rw [List.filterMap_cons, hx]
      rw [hgr _ h1] at hno ⊢
      have hkf : k ≠ f := fun h => hno (h ▸ List.mem_cons_self)
      have := ih hok hrest (fun h => hno (List.mem_cons_of_mem _ h))
      dsimp only at this
      rw [h3] at this
      refine .cons hs.ul h2 ?_ this
      rcases Nat.lt_or_eq_of_le h4 with h5 | h5
      · exact h5
      · exact absurd (by unfold dist at h5; have := hs.ul; dsimp only at h5; omega) hkf

/-- C28, fairness: in any stretch of a history in which an uplink TBF wants to send all the time and
is not given a block, every other TBF is given at most one block: the TBF is served within one full
round. -/
theorem C28_fair (c : Cfg) (s : St) (pre mid post : List (St × Env × Out))
    (h : Trace c {} (pre ++ mid ++ post) s) (f : Nat) (hf : f < 32) (hw : ∀ x ∈ mid, UlWants f x)
    (hno : f ∉ grants mid) : (grants mid).Nodup ∧ (grants mid).length ≤ 31 := by
  obtain ⟨s1, h1, _⟩ := Trace.split (pre ++ mid) h
  obtain ⟨s2, h2, h3⟩ := Trace.split pre h1
  have hr := h3.ulRound (h2.ok init_ok) hf hw hno
  have hn := hr.nodup hf
  refine ⟨hn.1, ?_⟩
  have hsub : (f :: grants mid) ⊆ List.range 32 := by
    intro x hx
    rw [List.mem_range]
    rcases List.mem_cons.1 hx with rfl | hx
    · exact hf
    · exact (hr.near hf x hx).1
  have hnd : (f :: grants mid).Nodup := List.nodup_cons.2 ⟨hn.2, hn.1⟩
  have := hnd.length_le_of_subset hsub
  simp only [List.length_cons, List.length_range] at this
  omega

/-- With no reservation for the block, a waiting TBF lets no block pass unused. -/
theorem C28_progress {c : Cfg} {b : Nat} {used : List Nat} {s s1 : St} {e : Env} {o : Out}
    (hh : Hist c b used s) (hr : rts c e s = some (s1, o)) (hus : UsfSane e)
    (hw : fnSub (rtsNextFn e.fn e.block) b < W) (hp : rtsNextFn e.fn e.block ∉ used)
    (hno : ∀ n ∈ s.ulc, n.fn ≠ rtsNextFn e.fn e.block) (f : Nat) (hf : f < 32) (hwant : UlWants f (s, e, o)) :
    ∃ i < 32, o.grant = some i := by
  rcases (C28_usf hh hr hus hw hp).2.2 (fun n hn h => absurd h (hno n hn)) with ⟨_, _, h3⟩ | ⟨i, t, h1, _, _, _, _, h6, _⟩
  · obtain ⟨t, ht, hst, hcs⟩ := hwant
    have := h3 f hf t ht hst
    exact absurd this.2 (hcs this.1)
  · exact ⟨i, h1, h6⟩

/-! Instance: two uplink TBFs, one of them with a poll in the second block. -/

def exUl (id usf : Nat) : UlT := { id, st := .flow, egprs := false, usf := some usf, mode := .gprs }
def exUlCfg : Cfg := { t3190 := 5000, x2031 := 2000, arq1 := true, preempt := true, cell := {}, idleC0 := false }
def exUlEnv (fn block : Nat) : Env :=
  { fn, block, ul := fun i => if i = 3 then some (exUl 10 0) else if i = 9 then some (exUl 11 1) else none, dl := fun _ => none, poll := fun t => if t = 10 then some (exUl 10 0) else none, trxUl := [], trxDl := [], can := fun _ _ => true, paging := false, c0 := true, single := true }

/-- USF and receiver of the grant in successive blocks. -/
def exUlRun : List (Nat × Nat) → St → List (Nat × Option Nat)
  | [], _ => []
  | (fn, bn) :: l, s => match rts exUlCfg (exUlEnv fn bn) s with
    | none => []
    | some (s1, o) => (o.usf, o.grant) :: exUlRun l s1

example : exUlRun [(0, 0), (4, 1), (8, 2), (13, 3)] { ulc := [⟨8, .poll 10 0⟩] } =
    [(0, some 3), (0, none), (1, some 9), (0, some 3)] := by decide +kernel
example : UsfSane (exUlEnv 0 0) := by
  refine ⟨fun i _ t ht => ?_, fun i t ht u hu => ?_⟩
  · simp only [exUlEnv] at ht
    split at ht
    · cases ht; exact ⟨0, by decide, rfl⟩
    · split at ht
      · cases ht; exact ⟨1, by decide, rfl⟩
      · cases ht
  · simp only [exUlEnv] at ht
    split at ht
    · cases ht; cases hu; decide
    · cases ht

end Verif.Sched
