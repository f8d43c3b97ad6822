import Verif.Lemmas.Live

/-! What a step does to one TBF and to the blocks promised to it. -/

namespace Verif.Live
open Verif.Tbf Verif.LiveSpec

/-- The blocks promised to a TBF. -/
def Pd.of (p : Pd) (o : Own) : List Node := p.nodes.filter fun n => n.own == o

/-- A TBF exists. -/
def Pd.has (p : Pd) : Own → Prop
  | .ul b => p.ul b ≠ none
  | .dl b => p.dl b ≠ none

/-- No block is promised twice, and only to TBFs that exist. -/
structure Sep (p : Pd) : Prop where
  once : p.nodes.Pairwise fun a b => a.fn ≠ b.fn
  owner : ∀ n ∈ p.nodes, p.has n.own

theorem node_some {p : Pd} {fn : Nat} {n : Node} (h : p.node fn = some n) :
    n ∈ p.nodes ∧ n.fn = fn := by
  refine ⟨List.mem_of_find?_eq_some h, ?_⟩
  have := List.find?_some h
  simpa using this

theorem node_none {p : Pd} {fn : Nat} (h : p.node fn = none) : ∀ n ∈ p.nodes, n.fn ≠ fn := by
  intro n hn e
  have := List.find?_eq_none.1 h n hn
  simp [e] at this

theorem Sep.same {p : Pd} (h : Sep p) {a b : Node} (ha : a ∈ p.nodes) (hb : b ∈ p.nodes)
    (e : a.fn = b.fn) : a = b := by
  have h1 := h.once
  generalize p.nodes = l at h1 ha hb
  induction l with
  | nil => cases ha
  | cons x l ih =>
    rw [List.pairwise_cons] at h1
    rcases List.mem_cons.1 ha with ha2 | ha2 <;> rcases List.mem_cons.1 hb with hb2 | hb2
    · rw [ha2, hb2]
    · rw [ha2] at e; exact absurd e (h1.1 _ hb2)
    · rw [hb2] at e; exact absurd e.symm (h1.1 _ ha2)
    · exact ih h1.2 ha2 hb2

theorem mem_of {p : Pd} {o : Own} {n : Node} : n ∈ p.of o ↔ n ∈ p.nodes ∧ n.own = o := by
  simp [Pd.of]

theorem of_release (p : Pd) (fn : Nat) (o : Own) :
    (p.release fn).of o = (p.of o).filter fun n => n.fn != fn := by
  simp only [Pd.of, Pd.release, List.filter_filter, Bool.and_comm]

theorem of_release_other {p : Pd} (h : Sep p) {fn : Nat} {n : Node} (hn : p.node fn = some n)
    {o : Own} (ho : n.own ≠ o) : (p.release fn).of o = p.of o := by
  rw [of_release, List.filter_eq_self]
  intro a ha
  rw [mem_of] at ha
  have hs := node_some hn
  by_cases e : a.fn = fn
  · have := h.same ha.1 hs.1 (e.trans hs.2.symm)
    subst this
    exact absurd ha.2 ho
  · simpa using e

theorem of_release_free {p : Pd} {fn : Nat} (hn : p.node fn = none) (o : Own) :
    (p.release fn).of o = p.of o := by
  rw [of_release, List.filter_eq_self]
  intro a ha
  rw [mem_of] at ha
  simpa using node_none hn a ha.1

theorem of_promise (p : Pd) (n : Node) : (p.promise n).of n.own = n :: p.of n.own := by
  simp [Pd.of, Pd.promise]

theorem of_promise_other (p : Pd) (n : Node) {o : Own} (h : n.own ≠ o) :
    (p.promise n).of o = p.of o := by
  simp [Pd.of, Pd.promise, h]

theorem of_drop (p : Pd) (o : Own) : (p.drop o).of o = [] := by
  simp only [Pd.of, Pd.drop, List.filter_filter, List.filter_eq_nil_iff]
  intro a _
  by_cases e : a.own = o <;> simp [e]

theorem of_drop_other (p : Pd) {o o' : Own} (h : o ≠ o') : (p.drop o).of o' = p.of o' := by
  simp only [Pd.of, Pd.drop, List.filter_filter]
  apply List.filter_congr
  intro a _
  by_cases e : a.own = o'
  · simp [e, h.symm]
  · simp [e]

theorem Sep.release {p : Pd} (h : Sep p) (fn : Nat) : Sep (p.release fn) :=
  ⟨h.once.filter _, fun n hn => by
    have : n ∈ p.nodes := (List.mem_filter.1 hn).1
    have := h.owner n this
    cases ho : n.own <;> rw [ho] at this <;> exact this⟩

theorem Sep.promise {p : Pd} (h : Sep p) {n : Node} (hn : p.node n.fn = none)
    (ho : p.has n.own) : Sep (p.promise n) := by
  refine ⟨List.pairwise_cons.2 ⟨fun a ha e => node_none hn a ha e.symm, h.once⟩, fun m hm => ?_⟩
  have : p.has m.own := by
    rcases List.mem_cons.1 hm with rfl | hm
    · exact ho
    · exact h.owner m hm
  cases hm : m.own <;> rw [hm] at this <;> exact this

theorem Sep.drop {p : Pd} (h : Sep p) (o : Own) : Sep (p.drop o) :=
  ⟨h.once.filter _, fun n hn => by
    have := h.owner n (List.mem_filter.1 hn).1
    cases ho : n.own <;> rw [ho] at this <;> exact this⟩

theorem Sep.putUl {p : Pd} (h : Sep p) (b : Nat) (s : Ul) : Sep (p.putUl b s) := by
  unfold Pd.putUl
  split
  · refine ⟨h.once.filter _, fun n hn => ?_⟩
    have h1 := List.mem_filter.1 hn
    have h2 := h.owner n h1.1
    cases ho : n.own with
    | dl b' => rw [ho] at h2; exact h2
    | ul b' =>
      rw [ho] at h2
      have : b' ≠ b := by rintro rfl; simp [ho] at h1
      show upd p.ul b none b' ≠ none
      unfold upd; rw [if_neg this]; exact h2
  · refine ⟨h.once, fun n hn => ?_⟩
    have h2 := h.owner n hn
    cases ho : n.own with
    | dl b' => rw [ho] at h2; exact h2
    | ul b' =>
      rw [ho] at h2
      show upd p.ul b (some s) b' ≠ none
      unfold upd; split
      · nofun
      · exact h2

theorem Sep.putDl {p : Pd} (h : Sep p) (b : Nat) (s : Dl) : Sep (p.putDl b s) := by
  unfold Pd.putDl
  split
  · refine ⟨h.once.filter _, fun n hn => ?_⟩
    have h1 := List.mem_filter.1 hn
    have h2 := h.owner n h1.1
    cases ho : n.own with
    | ul b' => rw [ho] at h2; exact h2
    | dl b' =>
      rw [ho] at h2
      have : b' ≠ b := by rintro rfl; simp [ho] at h1
      show upd p.dl b none b' ≠ none
      unfold upd; rw [if_neg this]; exact h2
  · refine ⟨h.once, fun n hn => ?_⟩
    have h2 := h.owner n hn
    cases ho : n.own with
    | ul b' => rw [ho] at h2; exact h2
    | dl b' =>
      rw [ho] at h2
      show upd p.dl b (some s) b' ≠ none
      unfold upd; split
      · nofun
      · exact h2

theorem doUl_cases {c : Cfg} {p q : Pd} {b : Nat} {op : UlOp} {env : Env}
    (h : doUl c p b op env = some q) :
    (p.ul b = none ∧ q = p) ∨
    ∃ s s', p.ul b = some s ∧ ulStep c.ul s op env = some s' ∧ q = p.putUl b s' := by
  unfold doUl at h
  cases hb : p.ul b with
  | none => rw [hb] at h; cases h; exact .inl ⟨rfl, rfl⟩
  | some s =>
    rw [hb] at h
    simp only [Option.map_eq_some_iff] at h
    obtain ⟨s', h1, h2⟩ := h
    exact .inr ⟨s, s', rfl, h1, h2.symm⟩

theorem doDl_cases {c : Cfg} {p q : Pd} {b : Nat} {op : DlOp} {env : Env}
    (h : doDl c p b op env = some q) :
    (p.dl b = none ∧ q = p) ∨
    ∃ s s', p.dl b = some s ∧ dlStep c.n3105 s op env = some s' ∧ q = p.putDl b s' := by
  unfold doDl at h
  cases hb : p.dl b with
  | none => rw [hb] at h; cases h; exact .inl ⟨rfl, rfl⟩
  | some s =>
    rw [hb] at h
    simp only [Option.map_eq_some_iff] at h
    obtain ⟨s', h1, h2⟩ := h
    exact .inr ⟨s, s', rfl, h1, h2.symm⟩

theorem Sep.doUl {c : Cfg} {p q : Pd} {b : Nat} {op : UlOp} {env : Env} (hs : Sep p)
    (h : doUl c p b op env = some q) : Sep q := by
  rcases doUl_cases h with ⟨_, rfl⟩ | ⟨s, s', _, _, rfl⟩
  · exact hs
  · exact hs.putUl b s'

theorem Sep.doDl {c : Cfg} {p q : Pd} {b : Nat} {op : DlOp} {env : Env} (hs : Sep p)
    (h : doDl c p b op env = some q) : Sep q := by
  rcases doDl_cases h with ⟨_, rfl⟩ | ⟨s, s', _, _, rfl⟩
  · exact hs
  · exact hs.putDl b s'

/-- The new state of an uplink TBF, and its blocks. -/
def UlAfter (q : Pd) (b : Nat) (s : Ul) (N : List Node) : Prop :=
  if s.freed then q.ul b = none ∧ q.of (.ul b) = [] else q.ul b = some s ∧ q.of (.ul b) = N

def DlAfter (q : Pd) (b : Nat) (s : Dl) (N : List Node) : Prop :=
  if s.freed then q.dl b = none ∧ q.of (.dl b) = [] else q.dl b = some s ∧ q.of (.dl b) = N

theorem putUl_after (p : Pd) (b : Nat) (s : Ul) : UlAfter (p.putUl b s) b s (p.of (.ul b)) := by
  unfold UlAfter Pd.putUl
  split
  · exact ⟨by simp [upd], of_drop p _⟩
  · exact ⟨by simp [upd], rfl⟩

theorem putDl_after (p : Pd) (b : Nat) (s : Dl) : DlAfter (p.putDl b s) b s (p.of (.dl b)) := by
  unfold DlAfter Pd.putDl
  split
  · exact ⟨by simp [upd], of_drop p _⟩
  · exact ⟨by simp [upd], rfl⟩

theorem putUl_ul (p : Pd) {b b' : Nat} (s : Ul) (h : b' ≠ b) : (p.putUl b s).ul b' = p.ul b' := by
  unfold Pd.putUl; split <;> simp [upd, h]

theorem putUl_dl (p : Pd) (b b' : Nat) (s : Ul) : (p.putUl b s).dl b' = p.dl b' := by
  unfold Pd.putUl; split <;> rfl

theorem putDl_ul (p : Pd) (b b' : Nat) (s : Dl) : (p.putDl b s).ul b' = p.ul b' := by
  unfold Pd.putDl; split <;> rfl

theorem putDl_dl (p : Pd) {b b' : Nat} (s : Dl) (h : b' ≠ b) : (p.putDl b s).dl b' = p.dl b' := by
  unfold Pd.putDl; split <;> simp [upd, h]

theorem putUl_of (p : Pd) (b : Nat) (s : Ul) {o : Own} (h : o ≠ .ul b) :
    (p.putUl b s).of o = p.of o := by
  unfold Pd.putUl
  split
  · exact of_drop_other p h.symm
  · rfl

theorem putDl_of (p : Pd) (b : Nat) (s : Dl) {o : Own} (h : o ≠ .dl b) :
    (p.putDl b s).of o = p.of o := by
  unfold Pd.putDl
  split
  · exact of_drop_other p h.symm
  · rfl

/-- How an operation on an uplink TBF comes about, and which blocks it has afterwards. -/
inductive UlVia (p : Pd) (b : Nat) (op : Op) (s : Ul) : UlOp → List Node → Prop where
  | loc (o : UlOp) : ulLocal o = true → (∀ t, o ≠ .createAck true t) →
      op = .ul b o → UlVia p b op s o (p.of (.ul b))
  | ack (t : Bool) : s.st ≠ .finished → s.ulAck = .sched →
      UlVia p b op s (.createAck true t) (p.of (.ul b))
  | rej : UlVia p b op s (.createUl .msg) (p.of (.ul b))
  | data (fn : Nat) (f cm cv r : Bool) : op = .recv fn (.data b f cm cv r) →
      UlVia p b op s (.data f cm cv r) (p.of (.ul b))
  | used (fn : Nat) (n : Node) (f cm cv r : Bool) : op = .recv fn (.data b f cm cv r) →
      n ∈ p.of (.ul b) → n.fn = fn → n.kind = none →
      UlVia p b op s (.data f cm cv r) ((p.of (.ul b)).filter fun m => m.fn != fn)
  | usf (fn : Nat) (n : Node) : n ∈ p.of (.ul b) → n.fn = fn → n.kind = none →
      UlVia p b op s .usfTimeout ((p.of (.ul b)).filter fun m => m.fn != fn)
  | upgrade (fn : Nat) (n : Node) : n ∈ p.of (.ul b) → n.fn = fn → n.kind = none →
      UlVia p b op s .free ((p.of (.ul b)).filter fun m => m.fn != fn)
  | miss (fn : Nat) (n : Node) (r : Poll) : n ∈ p.of (.ul b) → n.fn = fn → n.kind = some r →
      UlVia p b op s (.pollTimeout r) ((p.of (.ul b)).filter fun m => m.fn != fn)
  | answer (fn : Nat) (n : Node) (r : Poll) (x : Bool) : n ∈ p.of (.ul b) → n.fn = fn →
      n.kind = some r → r ≠ .dlAck →
      UlVia p b op s (.ctrlAck r x) ((p.of (.ul b)).filter fun m => m.fn != fn)
  | again (fn : Nat) (n : Node) : n ∈ p.of (.ul b) → n.fn = fn → n.kind = some .ulAck →
      UlVia p b op s .pktResReq ((p.of (.ul b)).filter fun m => m.fn != fn)
  | final (fn : Nat) (t : Bool) : s.st = .finished → s.ulAck = .sched →
      UlVia p b op s (.createAck true t) (⟨fn, .ul b, some .ulAck⟩ :: p.of (.ul b))
  | sentDl (fn : Nat) : UlVia p b op s (.createDl .msg) (⟨fn, .ul b, some .dlAss⟩ :: p.of (.ul b))
  | sentUl (fn : Nat) : s.ulAss.st = .send → UlVia p b op s (.createUl .msg) (⟨fn, .ul b, some .ulAss⟩ :: p.of (.ul b))

/-- What a step does to an uplink TBF. -/
inductive UlEff (c : Cfg) (p q : Pd) (b : Nat) (op : Op) (env : Env) : Prop where
  | none : q.ul b = p.ul b → q.of (.ul b) = p.of (.ul b) → ulTurn p b op = false →
      UlEff c p q b op env
  | lost (fn : Nat) (n : Node) : q.ul b = p.ul b →
      q.of (.ul b) = (p.of (.ul b)).filter (fun m => m.fn != fn) → p.node fn = some n →
      (op = .recv fn .report ∨ op = .recv fn (.notification true)) → ulTurn p b op = false →
      UlEff c p q b op env
  | new (ccch : Bool) (s : Ul) : op = .newUl b ccch → p.ul b = Option.none →
      ulStep c.ul {} (.ev (if ccch then .addCcch else .addPacch)) env = some s →
      UlAfter q b s (p.of (.ul b)) → UlEff c p q b op env
  | grant (fn : Nat) (s : Ul) : p.ul b = some s → s.st = .flow → q.ul b = some s →
      q.of (.ul b) = ⟨fn, .ul b, Option.none⟩ :: p.of (.ul b) → ulTurn p b op = false →
      UlEff c p q b op env
  | did (s : Ul) (o : UlOp) (s' : Ul) (N : List Node) : p.ul b = some s →
      ulStep c.ul s o env = some s' → UlAfter q b s' N → UlVia p b op s o N →
      (ulTurn p b op = true → ulTurnOp s o = true) → UlEff c p q b op env

/-- An operation on the uplink TBF `b0`, seen from the uplink TBF `b`. -/
theorem eff_doUl {c : Cfg} {p p1 q : Pd} {b0 : Nat} {o : UlOp} {op : Op} {env : Env}
    (h : doUl c p1 b0 o env = some q) (hul : p1.ul = p.ul)
    (hx : p.ul b0 = none → p1.of (.ul b0) = p.of (.ul b0))
    (ho : ∀ b, b ≠ b0 → p1.of (.ul b) = p.of (.ul b))
    (ht : ∀ b, b ≠ b0 → ulTurn p b op = false)
    (hv : ∀ s, p.ul b0 = some s → UlVia p b0 op s o (p1.of (.ul b0)) ∧
      (ulTurn p b0 op = true → ulTurnOp s o = true)) (b : Nat) : UlEff c p q b op env := by
  rcases doUl_cases h with ⟨hn, rfl⟩ | ⟨s, s', h1, h2, rfl⟩
  · rw [hul] at hn
    refine .none (by rw [hul]) ?_ ?_
    · by_cases e : b = b0
      · subst e; exact hx hn
      · exact ho b e
    · by_cases e : b = b0
      · subst e; simp [ulTurn, hn]
      · exact ht b e
  · rw [hul] at h1
    by_cases e : b = b0
    · subst e
      exact .did s o s' _ h1 h2 (putUl_after p1 b s') (hv s h1).1 (hv s h1).2
    · refine .none ?_ ?_ (ht b e)
      · rw [putUl_ul p1 s' e, hul]
      · rw [putUl_of p1 b0 s' (by intro x; cases x; exact e rfl)]; exact ho b e

/-- An operation on a downlink TBF, seen from an uplink TBF. -/
theorem eff_doDl {c : Cfg} {p p1 q : Pd} {b0 : Nat} {o : DlOp} {op : Op} {env : Env}
    (h : doDl c p1 b0 o env = some q) (hul : p1.ul = p.ul)
    (ho : ∀ b, p1.of (.ul b) = p.of (.ul b))
    (ht : ∀ b, ulTurn p b op = false) (b : Nat) : UlEff c p q b op env := by
  rcases doDl_cases h with ⟨hn, rfl⟩ | ⟨s, s', h1, h2, rfl⟩
  · exact .none (by rw [hul]) (ho b) (ht b)
  · exact .none (by rw [putDl_ul, hul]) (by rw [putDl_of p1 b0 s' (by nofun)]; exact ho b) (ht b)

theorem eff_same {c : Cfg} {p : Pd} {op : Op} {env : Env} (b : Nat) (ht : ulTurn p b op = false) :
    UlEff c p p b op env := .none rfl rfl ht

/-- Every step, seen from an uplink TBF. -/
theorem ul_eff {c : Cfg} {p q : Pd} {op : Op} {env : Env} (hp : Sep p)
    (h : step c p op env = some q) (b : Nat) : UlEff c p q b op env := by
  cases op with
  | newUl b0 ccch =>
    have ht : ∀ b, ulTurn p b (.newUl b0 ccch) = false := by
      intro b; unfold ulTurn; cases p.ul b <;> rfl
    simp only [step] at h
    by_cases hn : p.ul b0 = none
    · rw [if_pos (by simp [hn])] at h
      simp only [Option.map_eq_some_iff] at h
      obtain ⟨s', h1, rfl⟩ := h
      by_cases e : b = b0
      · subst e; exact .new ccch s' rfl hn h1 (putUl_after p b s')
      · exact .none (putUl_ul p s' e) (putUl_of p b0 s' (by intro x; cases x; exact e rfl)) (ht b)
    · rw [if_neg (by simp [hn])] at h
      cases h; exact eff_same b (ht b)
  | newDl b0 ccch upg =>
    have ht : ∀ b, ulTurn p b (.newDl b0 ccch upg) = false := by
      intro b; unfold ulTurn; cases p.ul b <;> rfl
    simp only [step] at h
    split at h
    · simp only [Option.map_eq_some_iff] at h
      obtain ⟨s', h1, rfl⟩ := h
      exact .none (putDl_ul p b0 b s') (putDl_of p b0 s' (by nofun)) (ht b)
    · cases h; exact eff_same b (ht b)
  | ul b0 o =>
    have ht : ∀ b, b ≠ b0 → ulTurn p b (.ul b0 o) = false := by
      intro b e; unfold ulTurn
      cases p.ul b with
      | none => rfl
      | some s => cases o <;> simp <;> intro x <;> exact absurd x.symm e
    simp only [step] at h
    by_cases hl : ulLocal o = true
    · rw [if_pos hl] at h
      refine eff_doUl (p := p) h rfl (fun _ => rfl) (fun _ _ => rfl) ht (fun s hs => ⟨?_, ?_⟩) b
      · exact .loc o hl (by rintro t rfl; simp [ulLocal] at hl) rfl
      · unfold ulTurn; rw [hs]; cases o <;> simp [ulTurnOp]
    · rw [if_neg hl] at h
      cases h
      refine eff_same b ?_
      unfold ulTurn
      cases p.ul b with
      | none => rfl
      | some s => cases o <;> simp <;> exact absurd rfl hl
  | dl b0 o =>
    have ht : ∀ b, ulTurn p b (.dl b0 o) = false := by
      intro b; unfold ulTurn; cases p.ul b <;> rfl
    simp only [step] at h
    cases hd : p.dl b0 with
    | none => rw [hd] at h; cases h; exact eff_same b (ht b)
    | some s =>
      rw [hd] at h
      simp only at h
      split at h
      · split at h
        · exact eff_doDl (p := p) h rfl (fun b => of_drop_other p (o := .dl b0) (o' := .ul b) (by nofun)) ht b
        · exact eff_doDl (p := p) h rfl (fun b => rfl) ht b
      · cases h; exact eff_same b (ht b)
  | grant b0 fn =>
    have ht : ∀ b, ulTurn p b (.grant b0 fn) = false := by
      intro b; unfold ulTurn; cases p.ul b <;> rfl
    simp only [step] at h
    cases hd : p.ul b0 with
    | none => rw [hd] at h; cases h; exact eff_same b (ht b)
    | some s =>
      rw [hd] at h
      simp only at h
      split at h
      · next hc =>
        cases h
        by_cases e : b = b0
        · subst e
          exact .grant fn s hd hc.1 hd (of_promise p ⟨fn, .ul b, none⟩) (ht b)
        · exact .none rfl (of_promise_other p _ (by intro x; cases x; exact e rfl)) (ht b)
      · cases h; exact eff_same b (ht b)
  | sendAck b0 fn tlli =>
    have ht : ∀ b, b ≠ b0 → ulTurn p b (.sendAck b0 fn tlli) = false := by
      intro b e; unfold ulTurn
      cases p.ul b with
      | none => rfl
      | some s => simp; intro x; exact absurd x.symm e
    simp only [step] at h
    cases hd : p.ul b0 with
    | none =>
      rw [hd] at h; cases h
      refine eff_same b ?_
      by_cases e : b = b0
      · subst e; simp [ulTurn, hd]
      · exact ht b e
    | some s =>
      rw [hd] at h
      simp only at h
      by_cases hsc : s.ulAck = .sched
      · rw [if_neg (by simp [hsc])] at h
        by_cases hst : s.st = .finished
        · rw [if_pos hst] at h
          by_cases hn : p.node fn = none
          · rw [if_pos hn] at h
            refine eff_doUl (p := p) h rfl (fun x => by rw [hd] at x; cases x)
              (fun b e => of_promise_other p _ (by intro x; cases x; exact e rfl)) ht
              (fun s1 hs => ?_) b
            rw [hd] at hs; cases hs
            rw [of_promise p ⟨fn, .ul b0, some .ulAck⟩]
            exact ⟨.final fn tlli hst hsc, fun _ => by simp [ulTurnOp, hst, hsc]⟩
          · rw [if_neg hn] at h
            cases h
            refine eff_same b ?_
            by_cases e : b = b0
            · subst e; simp [ulTurn, hd, Option.isSome_iff_ne_none.2 hn]
            · exact ht b e
        · rw [if_neg hst] at h
          refine eff_doUl (p := p) h rfl (fun _ => rfl) (fun _ _ => rfl) ht (fun s1 hs => ?_) b
          rw [hd] at hs; cases hs
          exact ⟨.ack tlli hst hsc, fun x => by simp [ulTurn, hd, hst] at x⟩
      · rw [if_pos (by simpa using hsc)] at h
        cases h
        refine eff_same b ?_
        by_cases e : b = b0
        · subst e; simp [ulTurn, hd, hsc]
        · exact ht b e
  | ulSendDl b0 fn =>
    have ht : ∀ b, ulTurn p b (.ulSendDl b0 fn) = false := by
      intro b; unfold ulTurn; cases p.ul b <;> rfl
    simp only [step] at h
    cases hd : p.ul b0 with
    | none => rw [hd] at h; cases h; exact eff_same b (ht b)
    | some s =>
      rw [hd] at h
      simp only at h
      split at h
      · refine eff_doUl (p := p) h rfl (fun x => by rw [hd] at x; cases x)
          (fun b e => of_promise_other p _ (by intro x; cases x; exact e rfl)) (fun b _ => ht b)
          (fun s1 hs => ?_) b
        rw [of_promise p ⟨fn, .ul b0, some .dlAss⟩]
        exact ⟨.sentDl fn, fun x => by rw [ht] at x; cases x⟩
      · cases h; exact eff_same b (ht b)
  | ulSendUl b0 fn =>
    have ht : ∀ b, ulTurn p b (.ulSendUl b0 fn) = false := by
      intro b; unfold ulTurn; cases p.ul b <;> rfl
    simp only [step] at h
    cases hd : p.ul b0 with
    | none => rw [hd] at h; cases h; exact eff_same b (ht b)
    | some s =>
      rw [hd] at h
      simp only at h
      split at h
      · next hc =>
        refine eff_doUl (p := p) h rfl (fun x => by rw [hd] at x; cases x)
          (fun b e => of_promise_other p _ (by intro x; cases x; exact e rfl)) (fun b _ => ht b)
          (fun s1 hs => ?_) b
        rw [hd] at hs; cases hs
        rw [of_promise p ⟨fn, .ul b0, some .ulAss⟩]
        exact ⟨.sentUl fn hc.1, fun x => by rw [ht] at x; cases x⟩
      · split at h
        · exact eff_doUl (p := p) h rfl (fun _ => rfl) (fun _ _ => rfl) (fun b _ => ht b)
            (fun s1 hs => ⟨.rej, fun x => by rw [ht] at x; cases x⟩) b
        · cases h; exact eff_same b (ht b)
  | dlSendDl b0 fn =>
    have ht : ∀ b, ulTurn p b (.dlSendDl b0 fn) = false := by
      intro b; unfold ulTurn; cases p.ul b <;> rfl
    simp only [step] at h
    cases hd : p.dl b0 with
    | none => rw [hd] at h; cases h; exact eff_same b (ht b)
    | some s =>
      rw [hd] at h
      simp only at h
      split at h
      · exact eff_doDl (p := p) h rfl (fun b => of_promise_other p _ (by nofun)) ht b
      · cases h; exact eff_same b (ht b)
  | dlSendUl b0 fn =>
    have ht : ∀ b, ulTurn p b (.dlSendUl b0 fn) = false := by
      intro b; unfold ulTurn; cases p.ul b <;> rfl
    simp only [step] at h
    cases hd : p.dl b0 with
    | none => rw [hd] at h; cases h; exact eff_same b (ht b)
    | some s =>
      rw [hd] at h
      simp only at h
      split at h
      · exact eff_doDl (p := p) h rfl (fun b => of_promise_other p _ (by nofun)) ht b
      · split at h
        · exact eff_doDl (p := p) h rfl (fun b => rfl) ht b
        · cases h; exact eff_same b (ht b)
  | dlPoll b0 fn =>
    have ht : ∀ b, ulTurn p b (.dlPoll b0 fn) = false := by
      intro b; unfold ulTurn; cases p.ul b <;> rfl
    simp only [step] at h
    cases hd : p.dl b0 with
    | none => rw [hd] at h; cases h; exact eff_same b (ht b)
    | some s =>
      rw [hd] at h
      simp only at h
      split at h
      · cases h; exact .none rfl (of_promise_other p _ (by nofun)) (ht b)
      · cases h; exact eff_same b (ht b)
  | recv fn m =>
    have ht : ∀ b, ulTurn p b (.recv fn m) = false := by
      intro b; unfold ulTurn; cases p.ul b <;> rfl
    simp only [step] at h
    have hul : ∀ n b0 o, p.node fn = some n → n.own = .ul b0 →
        doUl c (p.release fn) b0 o env = some q →
        (∀ s, UlVia p b0 (.recv fn m) s o ((p.of (.ul b0)).filter fun m => m.fn != fn)) →
        UlEff c p q b (.recv fn m) env := by
      intro n b0 o hn ho h hv
      refine eff_doUl (p := p) h rfl (fun x => ?_)
        (fun b e => of_release_other hp hn (by rw [ho]; intro x; cases x; exact e rfl))
        (fun b _ => ht b) (fun s hs => ?_) b
      · have := hp.owner n (node_some hn).1
        rw [ho] at this
        exact absurd x this
      · rw [of_release]; exact ⟨hv s, fun x => by rw [ht] at x; cases x⟩
    have hdl : ∀ n b0 o, p.node fn = some n → n.own = .dl b0 →
        doDl c (p.release fn) b0 o env = some q → UlEff c p q b (.recv fn m) env := by
      intro n b0 o hn ho h
      exact eff_doDl (p := p) h rfl (fun b => of_release_other hp hn (by rw [ho]; nofun)) ht b
    have hmem : ∀ n b0, p.node fn = some n → n.own = .ul b0 → n ∈ p.of (.ul b0) ∧ n.fn = fn :=
      fun n b0 hn ho => ⟨mem_of.2 ⟨(node_some hn).1, ho⟩, (node_some hn).2⟩
    unfold recv at h
    cases hn : p.node fn with
    | none =>
      rw [hn] at h
      cases m with
      | ctrlAck x y => cases h; exact eff_same b (ht b)
      | dlAck b0 f => cases h; exact eff_same b (ht b)
      | data b0 f cm cv r =>
        exact eff_doUl (p := p) h rfl (fun _ => rfl) (fun _ _ => rfl) (fun b _ => ht b)
          (fun s hs => ⟨.data fn f cm cv r rfl, fun x => by rw [ht] at x; cases x⟩) b
      | report => cases h; exact eff_same b (ht b)
      | notification k =>
        simp only at h
        split at h <;> cases h
        · exact .none rfl (of_release_free hn _) (ht b)
        · exact eff_same b (ht b)
      | request x => cases h; exact eff_same b (ht b)
    | some n =>
      rw [hn] at h
      cases m with
      | ctrlAck x y =>
        simp only at h
        cases ho : n.own with
        | ul b0 =>
          cases hk : n.kind with
          | none => rw [ho, hk] at h; cases h; exact eff_same b (ht b)
          | some r =>
            rw [ho, hk] at h
            simp only at h
            cases hb : p.ul b0 with
            | none => rw [hb] at h; cases h; exact eff_same b (ht b)
            | some s =>
              rw [hb] at h
              simp only at h
              split at h
              · next hc =>
                have hm := hmem n b0 hn ho
                refine hul n b0 _ hn ho h fun s => .answer fn n r x hm.1 hm.2 hk ?_
                rintro rfl; simp at hc
              · cases h; exact eff_same b (ht b)
        | dl b0 =>
          cases hk : n.kind with
          | none => rw [ho, hk] at h; cases h; exact eff_same b (ht b)
          | some r =>
            rw [ho, hk] at h
            simp only at h
            cases hb : p.dl b0 with
            | none => rw [hb] at h; cases h; exact eff_same b (ht b)
            | some s =>
              rw [hb] at h
              simp only at h
              split at h
              · exact hdl n b0 _ hn ho h
              · cases h; exact eff_same b (ht b)
      | dlAck b0 f =>
        simp only at h
        split at h
        · next hc => exact hdl n b0 _ hn hc.1 h
        · cases h; exact eff_same b (ht b)
      | data b0 f cm cv r =>
        simp only at h
        split at h
        · next hc =>
          have hm := hmem n b0 hn hc.1
          exact hul n b0 _ hn hc.1 h fun s => .used fn n f cm cv r rfl hm.1 hm.2 hc.2
        · exact eff_doUl (p := p) h rfl (fun _ => rfl) (fun _ _ => rfl) (fun b _ => ht b)
            (fun s hs => ⟨.data fn f cm cv r rfl, fun x => by rw [ht] at x; cases x⟩) b
      | report =>
        cases h
        exact .lost fn n rfl (of_release p fn _) hn (.inl rfl) (ht b)
      | notification k =>
        simp only at h
        split at h <;> cases h
        · next hk => subst hk; exact .lost fn n rfl (of_release p fn _) hn (.inr rfl) (ht b)
        · exact eff_same b (ht b)
      | request x =>
        simp only at h
        split at h
        · cases ho : n.own with
          | dl b0 => rw [ho] at h; cases h; exact eff_same b (ht b)
          | ul b0 =>
            have hm := hmem n b0 hn ho
            cases hk : n.kind with
            | none =>
              rw [ho, hk] at h
              exact hul n b0 _ hn ho h fun s => .upgrade fn n hm.1 hm.2 hk
            | some r =>
              rw [ho, hk] at h
              cases r <;> simp only at h
              · exact hul n b0 _ hn ho h fun s => .again fn n hm.1 hm.2 hk
              · cases h; exact eff_same b (ht b)
              · cases h; exact eff_same b (ht b)
              · cases h; exact eff_same b (ht b)
        · cases h; exact eff_same b (ht b)
  | expire fn =>
    simp only [step] at h
    unfold expire at h
    cases hn : p.node fn with
    | none =>
      rw [hn] at h
      cases h
      refine eff_same b ?_
      simp only [ulTurn, hn]
      cases p.ul b <;> rfl
    | some n =>
      rw [hn] at h
      dsimp only at h
      have ht : ∀ b, n.own ≠ .ul b → ulTurn p b (.expire fn) = false := by
        intro b e
        simp only [ulTurn, hn]
        cases p.ul b with
        | none => rfl
        | some s => simp [e]
      cases ho : n.own with
      | dl b0 =>
        have ht' : ∀ b, ulTurn p b (.expire fn) = false := fun b => ht b (by rw [ho]; nofun)
        cases hk : n.kind with
        | none =>
          rw [ho, hk] at h
          cases h
          exact .none rfl (of_release_other hp hn (by rw [ho]; nofun)) (ht' b)
        | some r =>
          rw [ho, hk] at h
          exact eff_doDl (p := p) h rfl (fun b => of_release_other hp hn (by rw [ho]; nofun)) ht' b
      | ul b0 =>
        have hm : n ∈ p.of (.ul b0) ∧ n.fn = fn := ⟨mem_of.2 ⟨(node_some hn).1, ho⟩, (node_some hn).2⟩
        have hx : p.ul b0 ≠ none := by
          have := hp.owner n (node_some hn).1
          rw [ho] at this
          exact this
        have hoth : ∀ b, b ≠ b0 → (p.release fn).of (.ul b) = p.of (.ul b) := fun b e =>
          of_release_other hp hn (by rw [ho]; intro x; cases x; exact e rfl)
        have hto : ∀ b, b ≠ b0 → ulTurn p b (.expire fn) = false := fun b e =>
          ht b (by rw [ho]; intro x; cases x; exact e rfl)
        cases hk : n.kind with
        | none =>
          rw [ho, hk] at h
          refine eff_doUl (p := p) h rfl (fun x => absurd x hx) hoth hto (fun s hs => ?_) b
          rw [of_release]
          refine ⟨.usf fn n hm.1 hm.2 hk, fun x => ?_⟩
          simpa [ulTurn, hn, hs, ho, hk, ulTurnOp] using x
        | some r =>
          rw [ho, hk] at h
          refine eff_doUl (p := p) h rfl (fun x => absurd x hx) hoth hto (fun s hs => ?_) b
          rw [of_release]
          refine ⟨.miss fn n r hm.1 hm.2 hk, fun x => ?_⟩
          have := x
          simp [ulTurn, hn, hs, ho, hk] at this
          simp [ulTurnOp, this]

end Verif.Live
