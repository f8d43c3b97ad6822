import Verif.Lemmas.LiveDl

/-! Every step seen from a downlink TBF, and what follows for histories. -/

namespace Verif.Live
open Verif.Tbf Verif.LiveSpec Verif.TbfSpec

/-- How an operation reaches a downlink TBF, and which blocks are promised to it afterwards. -/
inductive DlVia (p : Pd) (b : Nat) (op : Op) (s : Dl) : DlOp → List Node → Prop where
  | loc (o : DlOp) : dlLocal s o = true → DlVia p b op s o (p.of (.dl b))
  | slots : s.tmr = some .x2002 → s.st = .assign → DlVia p b op s .timer []
  | rej : DlVia p b op s (.createUl .msg) (p.of (.dl b))
  | miss (fn : Nat) (n : Node) (r : Poll) : n ∈ p.of (.dl b) → n.fn = fn → n.kind = some r →
      DlVia p b op s (.pollTimeout r) ((p.of (.dl b)).filter fun m => m.fn != fn)
  | answer (fn : Nat) (n : Node) (r : Poll) (x y : Bool) : n ∈ p.of (.dl b) → n.fn = fn →
      n.kind = some r → (r = .ulAss ∨ r = .dlAss) → op = .recv fn (.ctrlAck x y) →
      DlVia p b op s (.ctrlAck r y) ((p.of (.dl b)).filter fun m => m.fn != fn)
  | ack (fn : Nat) (n : Node) (f : Bool) : n ∈ p.of (.dl b) → n.fn = fn →
      n.kind = some .dlAck → op = .recv fn (.dlAck b f) →
      DlVia p b op s (.dlAck f) ((p.of (.dl b)).filter fun m => m.fn != fn)
  | sentDl (fn : Nat) : DlVia p b op s (.createDl .msg) (⟨fn, .dl b, some .dlAss⟩ :: p.of (.dl b))
  | sentUl (fn : Nat) : DlVia p b op s (.createUl .msg) (⟨fn, .dl b, some .ulAss⟩ :: p.of (.dl b))

/-- What a step does to a downlink TBF. -/
inductive DlEff (c : Cfg) (p q : Pd) (b : Nat) (op : Op) (env : Env) : Prop where
  | none : q.dl b = p.dl b → q.of (.dl b) = p.of (.dl b) → dlTurn p b op = false →
      DlEff c p q b op env
  | lost (fn : Nat) (n : Node) : q.dl b = p.dl b →
      q.of (.dl b) = (p.of (.dl b)).filter (fun m => m.fn != fn) → p.node fn = some n →
      (n.kind = Option.none ∨ op = .recv fn .report ∨ op = .recv fn (.notification true)) →
      dlTurn p b op = false → DlEff c p q b op env
  | new (ccch upg : Bool) (s : Dl) : op = .newDl b ccch upg → p.dl b = Option.none →
      dlStep c.n3105 { upg := upg } (.ev (if ccch then .addCcch else .addPacch)) env = some s →
      DlAfter q b s (p.of (.dl b)) → DlEff c p q b op env
  | poll (fn : Nat) (s : Dl) : p.dl b = some s → q.dl b = some s →
      q.of (.dl b) = ⟨fn, .dl b, some .dlAck⟩ :: p.of (.dl b) → dlTurn p b op = false →
      DlEff c p q b op env
  | did (s : Dl) (o : DlOp) (s' : Dl) (N : List Node) : p.dl b = some s →
      dlStep c.n3105 s o env = some s' → DlAfter q b s' N → DlVia p b op s o N →
      (dlTurn p b op = true → dlTurnOp s o = true) → DlEff c p q b op env

theorem deff_doDl {c : Cfg} {p p1 q : Pd} {b0 : Nat} {o : DlOp} {op : Op} {env : Env}
    (h : doDl c p1 b0 o env = some q) (hul : p1.dl = p.dl)
    (hx : p.dl b0 = none → p1.of (.dl b0) = p.of (.dl b0))
    (ho : ∀ b, b ≠ b0 → p1.of (.dl b) = p.of (.dl b))
    (ht : ∀ b, b ≠ b0 → dlTurn p b op = false)
    (hv : ∀ s, p.dl b0 = some s → DlVia p b0 op s o (p1.of (.dl b0)) ∧
      (dlTurn p b0 op = true → dlTurnOp s o = true)) (b : Nat) : DlEff c p q b op env := by
  rcases doDl_cases h with ⟨hn, rfl⟩ | ⟨s, s', h1, h2, rfl⟩
  · rw [hul] at hn
    refine .none (by rw [hul]) ?_ ?_
    · by_cases e : b = b0
      · subst e; exact hx hn
      · exact ho b e
    · by_cases e : b = b0
      · subst e; simp [dlTurn, hn]
      · exact ht b e
  · rw [hul] at h1
    by_cases e : b = b0
    · subst e
      exact .did s o s' _ h1 h2 (putDl_after p1 b s') (hv s h1).1 (hv s h1).2
    · refine .none ?_ ?_ (ht b e)
      · rw [putDl_dl p1 s' e, hul]
      · rw [putDl_of p1 b0 s' (by intro x; cases x; exact e rfl)]; exact ho b e

theorem deff_doUl {c : Cfg} {p p1 q : Pd} {b0 : Nat} {o : UlOp} {op : Op} {env : Env}
    (h : doUl c p1 b0 o env = some q) (hdl : p1.dl = p.dl)
    (ho : ∀ b, p1.of (.dl b) = p.of (.dl b))
    (ht : ∀ b, dlTurn p b op = false) (b : Nat) : DlEff c p q b op env := by
  rcases doUl_cases h with ⟨hn, rfl⟩ | ⟨s, s', h1, h2, rfl⟩
  · exact .none (by rw [hdl]) (ho b) (ht b)
  · exact .none (by rw [putUl_dl, hdl]) (by rw [putUl_of p1 b0 s' (by nofun)]; exact ho b) (ht b)

theorem deff_same {c : Cfg} {p : Pd} {op : Op} {env : Env} (b : Nat) (ht : dlTurn p b op = false) :
    DlEff c p p b op env := .none rfl rfl ht

/-- Every step, seen from a downlink TBF. -/
theorem dl_eff {c : Cfg} {p q : Pd} {op : Op} {env : Env} (hp : Sep p)
    (h : step c p op env = some q) (b : Nat) : DlEff c p q b op env := by
  cases op with
  | newDl b0 ccch upg =>
    have ht : ∀ b, dlTurn p b (.newDl b0 ccch upg) = false := by
      intro b; unfold dlTurn; cases p.dl b <;> rfl
    simp only [step] at h
    by_cases hn : p.dl b0 = none
    · rw [if_pos (by simp [hn])] at h
      simp only [Option.map_eq_some_iff] at h
      obtain ⟨s', h1, rfl⟩ := h
      by_cases e : b = b0
      · subst e; exact .new ccch upg s' rfl hn h1 (putDl_after p b s')
      · exact .none (putDl_dl p s' e) (putDl_of p b0 s' (by intro x; cases x; exact e rfl)) (ht b)
    · rw [if_neg (by simp [hn])] at h
      cases h; exact deff_same b (ht b)
  | newUl b0 ccch =>
    have ht : ∀ b, dlTurn p b (.newUl b0 ccch) = false := by
      intro b; unfold dlTurn; cases p.dl b <;> rfl
    simp only [step] at h
    split at h
    · simp only [Option.map_eq_some_iff] at h
      obtain ⟨s', h1, rfl⟩ := h
      exact .none (putUl_dl p b0 b s') (putUl_of p b0 s' (by nofun)) (ht b)
    · cases h; exact deff_same b (ht b)
  | ul b0 o =>
    have ht : ∀ b, dlTurn p b (.ul b0 o) = false := by
      intro b; unfold dlTurn; cases p.dl b <;> rfl
    simp only [step] at h
    split at h
    · exact deff_doUl (p := p) h rfl (fun b => rfl) ht b
    · cases h; exact deff_same b (ht b)
  | dl b0 o =>
    have ht : ∀ b, b ≠ b0 → dlTurn p b (.dl b0 o) = false := by
      intro b e
      unfold dlTurn
      cases p.dl b with
      | none => rfl
      | some s =>
        cases o with
        | ev e2 => cases e2 <;> simp <;> intro x <;> exact absurd x.symm e
        | timer => simp; intro x; exact absurd x.symm e
        | _ => rfl
    simp only [step] at h
    cases hd : p.dl b0 with
    | none =>
      rw [hd] at h; cases h
      refine deff_same b ?_
      by_cases e : b = b0
      · subst e; simp [dlTurn, hd]
      · exact ht b e
    | some s =>
      rw [hd] at h
      simp only at h
      have htt : dlTurn p b0 (.dl b0 o) = true → dlTurnOp s o = true := by
        unfold dlTurn; rw [hd]
        cases o with
        | ev e2 => cases e2 <;> simp [dlTurnOp]
        | timer => simp [dlTurnOp]
        | _ => simp
      by_cases hl : dlLocal s o = true
      · rw [if_pos hl] at h
        split at h
        · next hc =>
          obtain ⟨rfl, h2, h3, _⟩ := hc
          refine deff_doDl (p := p) h rfl (fun x => by rw [hd] at x; cases x)
            (fun b e => of_drop_other p (o := .dl b0) (o' := .dl b)
              (by intro x; cases x; exact e rfl)) ht (fun s1 hs => ?_) b
          rw [hd] at hs; cases hs
          rw [of_drop]
          exact ⟨.slots h2 h3, htt⟩
        · refine deff_doDl (p := p) h rfl (fun _ => rfl) (fun _ _ => rfl) ht (fun s1 hs => ?_) b
          rw [hd] at hs; cases hs
          exact ⟨.loc o hl, htt⟩
      · rw [if_neg hl] at h
        cases h
        refine deff_same b ?_
        by_cases e : b = b0
        · subst e
          unfold dlTurn; rw [hd]
          cases o with
          | ev e2 => cases e2 <;> first | rfl | (exact absurd rfl hl)
          | timer => exact absurd rfl hl
          | _ => rfl
        · exact ht b e
  | grant b0 fn =>
    have ht : ∀ b, dlTurn p b (.grant b0 fn) = false := by
      intro b; unfold dlTurn; cases p.dl b <;> rfl
    simp only [step] at h
    cases hd : p.ul b0 with
    | none => rw [hd] at h; cases h; exact deff_same b (ht b)
    | some s =>
      rw [hd] at h
      simp only at h
      split at h
      · cases h; exact .none rfl (of_promise_other p _ (by nofun)) (ht b)
      · cases h; exact deff_same b (ht b)
  | sendAck b0 fn tlli =>
    have ht : ∀ b, dlTurn p b (.sendAck b0 fn tlli) = false := by
      intro b; unfold dlTurn; cases p.dl b <;> rfl
    simp only [step] at h
    cases hd : p.ul b0 with
    | none => rw [hd] at h; cases h; exact deff_same b (ht b)
    | some s =>
      rw [hd] at h
      simp only at h
      split at h
      · cases h; exact deff_same b (ht b)
      · split at h
        · split at h
          · exact deff_doUl (p := p) h rfl (fun b => of_promise_other p _ (by nofun)) ht b
          · cases h; exact deff_same b (ht b)
        · exact deff_doUl (p := p) h rfl (fun b => rfl) ht b
  | ulSendDl b0 fn =>
    have ht : ∀ b, dlTurn p b (.ulSendDl b0 fn) = false := by
      intro b; unfold dlTurn; cases p.dl b <;> rfl
    simp only [step] at h
    cases hd : p.ul b0 with
    | none => rw [hd] at h; cases h; exact deff_same b (ht b)
    | some s =>
      rw [hd] at h
      simp only at h
      split at h
      · exact deff_doUl (p := p) h rfl (fun b => of_promise_other p _ (by nofun)) ht b
      · cases h; exact deff_same b (ht b)
  | ulSendUl b0 fn =>
    have ht : ∀ b, dlTurn p b (.ulSendUl b0 fn) = false := by
      intro b; unfold dlTurn; cases p.dl b <;> rfl
    simp only [step] at h
    cases hd : p.ul b0 with
    | none => rw [hd] at h; cases h; exact deff_same b (ht b)
    | some s =>
      rw [hd] at h
      simp only at h
      split at h
      · exact deff_doUl (p := p) h rfl (fun b => of_promise_other p _ (by nofun)) ht b
      · split at h
        · exact deff_doUl (p := p) h rfl (fun b => rfl) ht b
        · cases h; exact deff_same b (ht b)
  | dlSendDl b0 fn =>
    have ht : ∀ b, b ≠ b0 → dlTurn p b (.dlSendDl b0 fn) = false := by
      intro b e; unfold dlTurn
      cases p.dl b with
      | none => rfl
      | some s => simp; intro x; exact absurd x.symm e
    simp only [step] at h
    cases hd : p.dl b0 with
    | none =>
      rw [hd] at h; cases h
      refine deff_same b ?_
      by_cases e : b = b0
      · subst e; simp [dlTurn, hd]
      · exact ht b e
    | some s =>
      rw [hd] at h
      simp only at h
      by_cases hc : s.dlAss = .send ∧ p.node fn = none
      · rw [if_pos hc] at h
        refine deff_doDl (p := p) h rfl (fun x => by rw [hd] at x; cases x)
          (fun b e => of_promise_other p _ (by intro x; cases x; exact e rfl)) ht
          (fun s1 hs => ?_) b
        rw [hd] at hs; cases hs
        rw [of_promise p ⟨fn, .dl b0, some .dlAss⟩]
        refine ⟨.sentDl fn, fun x => ?_⟩
        unfold dlTurn at x; rw [hd] at x
        simp at x
        simp [dlTurnOp, x]
      · rw [if_neg hc] at h
        cases h
        refine deff_same b ?_
        by_cases e : b = b0
        · subst e
          cases hx : dlTurn p b (.dlSendDl b fn) with
          | false => rfl
          | true =>
            unfold dlTurn at hx; rw [hd] at hx
            simp at hx
            exact absurd ⟨hx.1.1.2, hx.2⟩ hc
        · exact ht b e
  | dlSendUl b0 fn =>
    have ht : ∀ b, dlTurn p b (.dlSendUl b0 fn) = false := by
      intro b; unfold dlTurn; cases p.dl b <;> rfl
    simp only [step] at h
    cases hd : p.dl b0 with
    | none => rw [hd] at h; cases h; exact deff_same b (ht b)
    | some s =>
      rw [hd] at h
      simp only at h
      split at h
      · refine deff_doDl (p := p) h rfl (fun x => by rw [hd] at x; cases x)
          (fun b e => of_promise_other p _ (by intro x; cases x; exact e rfl)) (fun b _ => ht b)
          (fun s1 hs => ?_) b
        rw [of_promise p ⟨fn, .dl b0, some .ulAss⟩]
        exact ⟨.sentUl fn, fun x => by rw [ht] at x; cases x⟩
      · split at h
        · exact deff_doDl (p := p) h rfl (fun _ => rfl) (fun _ _ => rfl) (fun b _ => ht b)
            (fun s1 hs => ⟨.rej, fun x => by rw [ht] at x; cases x⟩) b
        · cases h; exact deff_same b (ht b)
  | dlPoll b0 fn =>
    have ht : ∀ b, dlTurn p b (.dlPoll b0 fn) = false := by
      intro b; unfold dlTurn; cases p.dl b <;> rfl
    simp only [step] at h
    cases hd : p.dl b0 with
    | none => rw [hd] at h; cases h; exact deff_same b (ht b)
    | some s =>
      rw [hd] at h
      simp only at h
      split at h
      · next hc =>
        cases h
        by_cases e : b = b0
        · subst e
          exact .poll fn s hd hd (of_promise p ⟨fn, .dl b, some .dlAck⟩) (ht b)
        · exact .none rfl (of_promise_other p _ (by intro x; cases x; exact e rfl)) (ht b)
      · cases h; exact deff_same b (ht b)
  | recv fn m =>
    have ht : ∀ b, dlTurn p b (.recv fn m) = false := by
      intro b; unfold dlTurn; cases p.dl b <;> rfl
    simp only [step] at h
    have hdl : ∀ n b0 o, p.node fn = some n → n.own = .dl b0 →
        doDl c (p.release fn) b0 o env = some q →
        (∀ s, DlVia p b0 (.recv fn m) s o ((p.of (.dl b0)).filter fun m => m.fn != fn)) →
        DlEff c p q b (.recv fn m) env := by
      intro n b0 o hn ho h hv
      refine deff_doDl (p := p) h rfl (fun x => ?_)
        (fun b e => of_release_other hp hn (by rw [ho]; intro x; cases x; exact e rfl))
        (fun b _ => ht b) (fun s hs => ?_) b
      · have := hp.owner n (node_some hn).1
        rw [ho] at this
        exact absurd x this
      · rw [of_release]; exact ⟨hv s, fun x => by rw [ht] at x; cases x⟩
    have hul : ∀ n b0 o, p.node fn = some n → n.own = .ul b0 →
        doUl c (p.release fn) b0 o env = some q → DlEff c p q b (.recv fn m) env := by
      intro n b0 o hn ho h
      exact deff_doUl (p := p) h rfl (fun b => of_release_other hp hn (by rw [ho]; nofun)) ht b
    have hmem : ∀ n b0, p.node fn = some n → n.own = .dl b0 → n ∈ p.of (.dl b0) ∧ n.fn = fn :=
      fun n b0 hn ho => ⟨mem_of.2 ⟨(node_some hn).1, ho⟩, (node_some hn).2⟩
    unfold recv at h
    cases hn : p.node fn with
    | none =>
      rw [hn] at h
      cases m with
      | ctrlAck x y => cases h; exact deff_same b (ht b)
      | dlAck b0 f => cases h; exact deff_same b (ht b)
      | data b0 f cm cv r => exact deff_doUl (p := p) h rfl (fun _ => rfl) ht b
      | report => cases h; exact deff_same b (ht b)
      | notification k =>
        simp only at h
        split at h <;> cases h
        · exact .none rfl (of_release_free hn _) (ht b)
        · exact deff_same b (ht b)
      | request x => cases h; exact deff_same b (ht b)
    | some n =>
      rw [hn] at h
      cases m with
      | ctrlAck x y =>
        simp only at h
        cases ho : n.own with
        | ul b0 =>
          cases hk : n.kind with
          | none => rw [ho, hk] at h; cases h; exact deff_same b (ht b)
          | some r =>
            rw [ho, hk] at h
            simp only at h
            cases hb : p.ul b0 with
            | none => rw [hb] at h; cases h; exact deff_same b (ht b)
            | some s =>
              rw [hb] at h
              simp only at h
              split at h
              · exact hul n b0 _ hn ho h
              · cases h; exact deff_same b (ht b)
        | dl b0 =>
          cases hk : n.kind with
          | none => rw [ho, hk] at h; cases h; exact deff_same b (ht b)
          | some r =>
            rw [ho, hk] at h
            simp only at h
            cases hb : p.dl b0 with
            | none => rw [hb] at h; cases h; exact deff_same b (ht b)
            | some s =>
              rw [hb] at h
              simp only at h
              split at h
              · next hc =>
                have hm := hmem n b0 hn ho
                refine hdl n b0 _ hn ho h fun s => .answer fn n r x y hm.1 hm.2 hk ?_ rfl
                rcases hc with hc | hc
                · exact .inl hc.1
                · exact .inr hc.1
              · cases h; exact deff_same b (ht b)
      | dlAck b0 f =>
        simp only at h
        split at h
        · next hc =>
          have hm := hmem n b0 hn hc.1
          exact hdl n b0 _ hn hc.1 h fun s => .ack fn n f hm.1 hm.2 hc.2 rfl
        · cases h; exact deff_same b (ht b)
      | data b0 f cm cv r =>
        simp only at h
        split at h
        · next hc => exact hul n b0 _ hn hc.1 h
        · exact deff_doUl (p := p) h rfl (fun _ => rfl) ht b
      | report =>
        cases h
        exact .lost fn n rfl (of_release p fn _) hn (.inr (.inl rfl)) (ht b)
      | notification k =>
        simp only at h
        split at h <;> cases h
        · next hk => subst hk; exact .lost fn n rfl (of_release p fn _) hn (.inr (.inr rfl)) (ht b)
        · exact deff_same b (ht b)
      | request x =>
        simp only at h
        split at h
        · cases ho : n.own with
          | dl b0 => rw [ho] at h; cases h; exact deff_same b (ht b)
          | ul b0 =>
            cases hk : n.kind with
            | none =>
              rw [ho, hk] at h
              exact hul n b0 _ hn ho h
            | some r =>
              rw [ho, hk] at h
              cases r <;> simp only at h
              · exact hul n b0 _ hn ho h
              · cases h; exact deff_same b (ht b)
              · cases h; exact deff_same b (ht b)
              · cases h; exact deff_same b (ht b)
        · cases h; exact deff_same b (ht b)
  | expire fn =>
    simp only [step] at h
    unfold expire at h
    cases hn : p.node fn with
    | none =>
      rw [hn] at h
      cases h
      refine deff_same b ?_
      simp only [dlTurn, hn]
      cases p.dl b <;> rfl
    | some n =>
      rw [hn] at h
      dsimp only at h
      have ht : ∀ b, n.own ≠ .dl b → dlTurn p b (.expire fn) = false := by
        intro b e
        simp only [dlTurn, hn]
        cases p.dl b with
        | none => rfl
        | some s => simp [e]
      cases ho : n.own with
      | ul b0 =>
        have ht' : ∀ b, dlTurn p b (.expire fn) = false := fun b => ht b (by rw [ho]; nofun)
        cases hk : n.kind with
        | none =>
          rw [ho, hk] at h
          exact deff_doUl (p := p) h rfl (fun b => of_release_other hp hn (by rw [ho]; nofun)) ht' b
        | some r =>
          rw [ho, hk] at h
          exact deff_doUl (p := p) h rfl (fun b => of_release_other hp hn (by rw [ho]; nofun)) ht' b
      | dl b0 =>
        have hm : n ∈ p.of (.dl b0) ∧ n.fn = fn := ⟨mem_of.2 ⟨(node_some hn).1, ho⟩, (node_some hn).2⟩
        have hx : p.dl b0 ≠ none := by
          have := hp.owner n (node_some hn).1
          rw [ho] at this
          exact this
        have hoth : ∀ b, b ≠ b0 → (p.release fn).of (.dl b) = p.of (.dl b) := fun b e =>
          of_release_other hp hn (by rw [ho]; intro x; cases x; exact e rfl)
        have hto : ∀ b, b ≠ b0 → dlTurn p b (.expire fn) = false := fun b e =>
          ht b (by rw [ho]; intro x; cases x; exact e rfl)
        cases hk : n.kind with
        | none =>
          rw [ho, hk] at h
          cases h
          refine .lost fn n rfl (of_release p fn _) hn (.inl hk) ?_
          simp only [dlTurn, hn, hk]
          cases p.dl b <;> simp
        | some r =>
          rw [ho, hk] at h
          refine deff_doDl (p := p) h rfl (fun x => absurd x hx) hoth hto (fun s hs => ?_) b
          rw [of_release]
          refine ⟨.miss fn n r hm.1 hm.2 hk, fun x => ?_⟩
          simp only [dlTurn, hn, hs, ho, hk, beq_self_eq_true, Bool.true_and] at x
          simp only [dlTurnOp]
          cases r <;> simpa using x

/-- What holds of all downlink TBFs. -/
structure DInv (p : Pd) : Prop where
  sep : Sep p
  tbf : ∀ b s, p.dl b = some s → DlLink s

theorem DlVia.may {c : Cfg} {p : Pd} {b : Nat} {op : Op} {s s' : Dl} {o : DlOp} {N : List Node}
    {env : Env} (h : DlVia p b op s o N) (hl : DlLink s)
    (hs : dlStep c.n3105 s o env = some s') : dlMay s o = true := by
  cases h with
  | loc _ h1 =>
    cases o <;> first
      | rfl
      | (simp [dlLocal] at h1; done)
      | skip
    · simpa [dlLocal, dlMay] using h1
    · simp only [dlLocal, Bool.or_eq_true, Bool.and_eq_true, beq_iff_eq] at h1
      rcases h1 with h1 | ⟨h1, h2⟩ <;> subst h1
      · rfl
      · simp [dlMay, h2]
  | slots => rfl
  | rej => rfl
  | miss fn n r h1 h2 h3 =>
    cases r <;> first | rfl | skip
    unfold dlStep at hs
    rw [if_neg (by rw [hl.live]; decide)] at hs
    cases hs
  | answer fn n r x y h1 h2 h3 h4 h5 => rcases h4 with rfl | rfl <;> rfl
  | ack => rfl
  | sentDl => rfl
  | sentUl => rfl

theorem DlAfter.some {q : Pd} {b : Nat} {s s2 : Dl} {N : List Node} (h : DlAfter q b s N)
    (hq : q.dl b = some s2) : s2 = s ∧ s.freed = false ∧ q.of (.dl b) = N := by
  unfold DlAfter at h
  split at h
  · rw [h.1] at hq; cases hq
  · next hf =>
    rw [h.1] at hq; cases hq
    exact ⟨rfl, by simpa using hf, h.2⟩

theorem fresh_dl {c : Cfg} {ccch upg : Bool} {env : Env} {s : Dl}
    (h : dlStep c.n3105 { upg := upg } (.ev (if ccch then .addCcch else .addPacch)) env = some s) :
    DlLink s ∧ s.dlAss = .idle := by
  cases ccch <;> cases h
  · exact ⟨⟨.inr ⟨rfl, .inl rfl⟩, rfl, nofun, nofun, nofun, nofun, nofun⟩, rfl⟩
  · exact ⟨⟨.inr ⟨rfl, .inl rfl⟩, rfl, nofun, fun _ _ => .inl rfl, fun _ x => absurd rfl x, nofun,
      nofun⟩, rfl⟩

theorem DInv.step {c : Cfg} (hl : c.n3105 < 256) {p q : Pd} {op : Op}
    {env : Env} (hp : DInv p) (h : step c p op env = some q) : DInv q := by
  refine ⟨hp.sep.step h, fun b s hs => ?_⟩
  cases dl_eff hp.sep h b with
  | none e1 _ _ => exact hp.tbf b s (e1 ▸ hs)
  | lost fn n e1 _ _ _ _ => exact hp.tbf b s (e1 ▸ hs)
  | new ccch upg s0 _ hn hs0 ha =>
    obtain ⟨rfl, _, e⟩ := ha.some hs
    exact (fresh_dl hs0).1
  | poll fn s0 e0 e1 _ _ =>
    rw [e1] at hs; cases hs
    exact hp.tbf b s e0
  | did s0 o s1 N e0 e1 ha hv _ =>
    obtain ⟨rfl, hf, e⟩ := ha.some hs
    have h0 := hp.tbf b s0 e0
    rcases dlStep_down c hl s0 s o env h0 (hv.may h0 e1) e1 with x | x
    · rw [hf] at x; cases x
    · exact x.1

/-- A downlink TBF that waits for the answer to its assignment is promised a block for it. -/
def DWait (p : Pd) : Prop :=
  ∀ b s, p.dl b = some s → s.st = .assign → s.dlAss = .wait →
    ∃ n ∈ p.of (.dl b), n.kind = some .dlAss

theorem DWait.step {c : Cfg} (hl : c.n3105 < 256) {p q : Pd} {op : Op}
    {env : Env} (hp : DInv p) (hw : DWait p) (hns : ¬ Stray p op) (h : step c p op env = some q) :
    DWait q := by
  intro b s hs hst hk
  cases dl_eff hp.sep h b with
  | none e1 e2 _ => rw [e2]; exact hw b s (e1 ▸ hs) hst hk
  | lost fn n e1 e2 hn hop _ =>
    obtain ⟨m, hm, hmk⟩ := hw b s (e1 ▸ hs) hst hk
    refine ⟨m, ?_, hmk⟩
    rw [e2, List.mem_filter]
    refine ⟨hm, ?_⟩
    have hne : m.fn ≠ fn := by
      intro e
      have := hp.sep.same (mem_of.1 hm).1 (node_some hn).1 (e.trans (node_some hn).2.symm)
      subst this
      rcases hop with hop | hop
      · rw [hmk] at hop; cases hop
      · exact hns ⟨fn, m, hn, by rw [hmk]; nofun, hop⟩
    simpa using hne
  | new ccch upg s0 _ hn hs0 ha =>
    obtain ⟨rfl, _, e⟩ := ha.some hs
    rw [(fresh_dl hs0).2] at hk; cases hk
  | poll fn s0 e0 e1 e2 _ =>
    rw [e1] at hs; cases hs
    obtain ⟨m, hm, hmk⟩ := hw b s e0 hst hk
    rw [e2]
    exact ⟨m, List.mem_cons_of_mem _ hm, hmk⟩
  | did s0 o s1 N e0 e1 ha hv _ =>
    obtain ⟨rfl, hf, e⟩ := ha.some hs
    have h0 := hp.tbf b s0 e0
    rw [e]
    rcases dlStep_down c hl s0 s o env h0 (hv.may h0 e1) e1 with x | ⟨_, _, x⟩
    · rw [hf] at x; cases x
    rcases x hst hk with ⟨y1, y2, y3⟩ | rfl
    · obtain ⟨m, hm, hmk⟩ := hw b s0 e0 y1 y2
      refine ⟨m, ?_, hmk⟩
      have other : ∀ n fn, n ∈ p.of (.dl b) → n.fn = fn → n.kind ≠ some .dlAss →
          m ∈ (p.of (.dl b)).filter fun m => m.fn != fn := by
        intro n fn hn hfn hnk
        rw [List.mem_filter]
        refine ⟨hm, ?_⟩
        have : m.fn ≠ fn := by
          intro e
          have := hp.sep.same (mem_of.1 hm).1 (mem_of.1 hn).1 (e.trans hfn.symm)
          subst this
          exact hnk hmk
        simpa using this
      cases hv with
      | loc => exact hm
      | slots t1 t2 =>
        have := h0.one (.inl y1) (by rw [y2]; nofun)
        rw [h0.cnf t1] at this; cases this
      | rej => exact hm
      | miss fn n r h1 h2 h3 =>
        exact other n fn h1 h2 (by rw [h3]; intro x; cases x; cases y3)
      | answer fn n r x y h1 h2 h3 _ _ =>
        exact other n fn h1 h2 (by rw [h3]; intro x; cases x; cases y3)
      | ack fn n f h1 h2 h3 _ => exact other n fn h1 h2 (by rw [h3]; nofun)
      | sentDl => exact List.mem_cons_of_mem _ hm
      | sentUl => exact List.mem_cons_of_mem _ hm
    · cases hv with
      | loc _ h1 => simp [dlLocal] at h1
      | sentDl fn => exact ⟨_, List.mem_cons_self, rfl⟩

theorem DlVia.quiet {p : Pd} {b : Nat} {op : Op} {s : Dl} {o : DlOp} {N : List Node} (hp : Sep p)
    (h : DlVia p b op s o N) (hs : DlSilent p b op) : dlHeard o = false := by
  cases h with
  | loc _ h1 => cases o <;> first | rfl | (simp [dlLocal] at h1)
  | answer fn n r x y h1 h2 h3 h4 h5 =>
    have hm := mem_of.1 h1
    have : p.node fn = some n := by
      cases hn : p.node fn with
      | none => exact absurd h2 (node_none hn n hm.1)
      | some n' =>
        rw [hp.same (node_some hn).1 hm.1 ((node_some hn).2.trans h2.symm)]
    exact absurd hm.2 (hs.2.2 fn x y n h5 this)
  | ack fn n f h1 h2 h3 h4 => exact absurd h4 (hs.2.1 fn f)
  | _ => rfl

theorem dl_rank_step {c : Cfg} (hl : c.n3105 < 256) {p q : Pd} {op : Op}
    {env : Env} {b : Nat} (hp : DInv p) (hsil : DlSilent p b op) (h : Live.step c p op env = some q)
    {s : Dl} (hs : p.dl b = some s) :
    q.dl b = none ∨ ∃ s', q.dl b = some s' ∧
      dlTurnsLeft c s' + (if dlTurn p b op then 1 else 0) ≤ dlTurnsLeft c s := by
  cases hq : q.dl b with
  | none => exact .inl rfl
  | some s' =>
    refine .inr ⟨s', rfl, ?_⟩
    cases dl_eff hp.sep h b with
    | none e1 e2 ht => rw [e1, hs] at hq; cases hq; rw [ht]; exact Nat.le_refl _
    | lost fn n e1 e2 hn hop ht => rw [e1, hs] at hq; cases hq; rw [ht]; exact Nat.le_refl _
    | new ccch upg s0 ho hn hs0 ha => rw [hs] at hn; cases hn
    | poll fn s0 e0 e1 e2 ht =>
      rw [e1] at hq; cases hq
      rw [hs] at e0; cases e0
      rw [ht]; exact Nat.le_refl _
    | did s0 o s1 N e0 e1 ha hv ht =>
      rw [hs] at e0; cases e0
      obtain ⟨rfl, hf, e⟩ := ha.some hq
      have h0 := hp.tbf b s hs
      rcases dlStep_down c hl s s' o env h0 (hv.may h0 e1) e1 with x | ⟨_, x, _⟩
      · rw [hf] at x; cases x
      · have x := x (hv.quiet hp.sep hsil)
        by_cases htt : dlTurn p b op = true
        · rw [if_pos htt]
          rw [ht htt] at x
          simpa using x
        · rw [if_neg htt]
          omega

theorem dl_none_step {c : Cfg} {p q : Pd} {op : Op}
    {env : Env} {b : Nat} (hp : Sep p) (hsil : DlSilent p b op) (h : Live.step c p op env = some q)
    (hs : p.dl b = none) : q.dl b = none ∧ dlTurn p b op = false := by
  have ht : dlTurn p b op = false := by simp [dlTurn, hs]
  refine ⟨?_, ht⟩
  cases dl_eff hp h b with
  | none e1 e2 ht => rw [e1, hs]
  | lost fn n e1 e2 hn hop ht => rw [e1, hs]
  | new ccch upg s0 ho hn hs0 ha => exact absurd ho (hsil.1 ccch upg)
  | poll fn s0 e0 e1 e2 ht => rw [hs] at e0; cases e0
  | did s0 o s1 N e0 e1 ha hv ht => rw [hs] at e0; cases e0

theorem dinv_empty : DInv Pd.empty :=
  ⟨⟨List.Pairwise.nil, fun _ h => absurd h (List.not_mem_nil)⟩,
    fun b s h => absurd (show (none : Option Dl) = some s from h) (by intro x; cases x)⟩

theorem always_cons {c : Cfg} {P : Pd → Op → Prop} {p p1 : Pd} {op : Op} {env : Env}
    {r : List (Op × Env)} (h : Always c P p ((op, env) :: r)) (hs : step c p op env = some p1) :
    P p op ∧ Always c P p1 r := by
  rw [Always] at h
  exact ⟨h.1, h.2 p1 hs⟩

theorem dl_turns {c : Cfg} (hl : c.n3105 < 256) (b : Nat)
    (ops : List (Op × Env)) (p q : Pd) (hp : DInv p)
    (hsil : Always c (fun p op => DlSilent p b op) p ops)
    (hr : run c p ops = some q) :
    (p.dl b = none → q.dl b = none ∧ turns c (fun p => dlTurn p b) p ops = 0) ∧
    (∀ s, p.dl b = some s → turns c (fun p => dlTurn p b) p ops ≤ dlTurnsLeft c s ∧
      (q.dl b = none ∨ ∃ s', q.dl b = some s' ∧
        dlTurnsLeft c s' + turns c (fun p => dlTurn p b) p ops ≤ dlTurnsLeft c s)) := by
  induction ops generalizing p with
  | nil =>
    cases hr
    exact ⟨fun h => ⟨h, rfl⟩, fun s hs => ⟨Nat.zero_le _, .inr ⟨s, hs, Nat.le_refl _⟩⟩⟩
  | cons x r ih =>
    obtain ⟨op, env⟩ := x
    obtain ⟨p1, h, hr⟩ := run_cons hr
    obtain ⟨hsl, hsr⟩ := always_cons hsil h
    obtain ⟨i1, i2⟩ := ih p1 (hp.step hl h) hsr hr
    rw [turns_cons h]
    refine ⟨fun hn => ?_, fun s hs => ?_⟩
    · obtain ⟨a1, a2⟩ := dl_none_step hp.sep hsl h hn
      refine ⟨(i1 a1).1, ?_⟩
      rw [a2, (i1 a1).2]; rfl
    · have hif : ∀ b : Bool, (if b = true then 1 else 0) ≤ 1 := by intro b; cases b <;> decide
      rcases dl_rank_step hl hp hsl h hs with a | ⟨s1, a1, a2⟩
      · refine ⟨?_, .inl (i1 a).1⟩
        have hp1 : 1 ≤ dlTurnsLeft c s := by
          have h1 := left_pos c.n3105 s.n3105
          unfold dlTurnsLeft
          split <;> first
            | omega
            | (split <;> first
                | omega
                | (split <;> omega))
        have := hif (dlTurn p b op)
        rw [(i1 a).2]
        omega
      · obtain ⟨j1, j2⟩ := i2 s1 a1
        refine ⟨by omega, ?_⟩
        rcases j2 with b1 | ⟨s2, b1, b2⟩
        · exact .inl b1
        · exact .inr ⟨s2, b1, by omega⟩

/-- All of it holds after every history; the waiting ones as long as nothing stray comes in. -/
theorem live_run {c : Cfg} (h1 : c.ul.n3101 < 256) (h3 : c.ul.n3103 < 256) (hl : c.n3105 < 256)
    (ops : List (Op × Env)) (p q : Pd) (hu : UInv p) (hd : DInv p) (hr : run c p ops = some q) :
    UInv q ∧ DInv q ∧ (UWait p → DWait p → Always c (fun p op => ¬ Stray p op) p ops →
      UWait q ∧ DWait q) := by
  induction ops generalizing p with
  | nil => cases hr; exact ⟨hu, hd, fun a b _ => ⟨a, b⟩⟩
  | cons x r ih =>
    obtain ⟨op, env⟩ := x
    obtain ⟨p1, h, hr⟩ := run_cons hr
    obtain ⟨a, b, i⟩ := ih p1 (hu.step h1 h3 h) (hd.step hl h) hr
    refine ⟨a, b, fun w1 w2 hs => ?_⟩
    obtain ⟨s1, s2⟩ := always_cons hs h
    exact i (w1.step hu s1 h) (w2.step hl hd s1 h) s2

theorem uwait_empty : UWait Pd.empty := fun b s h =>
  absurd (show (none : Option Ul) = some s from h) (by intro x; cases x)

theorem dwait_empty : DWait Pd.empty := fun b s h =>
  absurd (show (none : Option Dl) = some s from h) (by intro x; cases x)

/-- What was shown, in the words of the specification. -/
theorem ul_moves {p : Pd} (hu : UInv p) (hw : UWait p) {b : Nat} {s : Ul} (hs : p.ul b = some s) :
    UlMoves p b s := by
  have h := (hu.tbf b s hs).link
  have hi := (h.inv.resolve_left (by rw [h.live]; decide)).1
  have hu := h.used
  by_cases ht : s.tmr = none
  · by_cases hf : s.st = .finished
    · by_cases hk : s.ulAck = .wait
      · obtain ⟨n, hn, hnk⟩ := hw b s hs hf hk
        have := mem_of.1 hn
        exact .inr (.inr (.inr ⟨n, this.1, this.2, hnk, hk⟩))
      · refine .inr (.inr (.inl ?_))
        have := h.ack hf
        cases hx : s.ulAck <;> rw [hx] at this hk <;> first | rfl | contradiction
    · by_cases hfl : s.st = .flow
      · exact .inr (.inl hfl)
      · exfalso
        rw [ht] at hi
        cases hx : s.st <;> rw [hx] at hi hu hf hfl <;> first
          | contradiction
          | (exact absurd hi (by decide))
          | (exact hu rfl)
          | (exact hf rfl)
          | (exact hfl rfl)
  · exact .inl ht

theorem dl_moves {p : Pd} (hd : DInv p) (hw : DWait p) {b : Nat} {s : Dl} (hs : p.dl b = some s) :
    DlMoves p b s := by
  have h := hd.tbf b s hs
  have hi := (h.inv.resolve_left (by rw [h.live]; decide)).1
  have hu := h.used
  by_cases ht : s.tmr = none
  · by_cases ha : s.st = .assign
    · rcases h.pend ha ht with hc | hc
      · exact .inr (.inr (.inr (.inl ⟨ha, hc⟩)))
      · by_cases hk : s.dlAss = .wait
        · obtain ⟨n, hn, hnk⟩ := hw b s hs ha hk
          have := mem_of.1 hn
          exact .inr (.inr (.inr (.inr (.inr ⟨n, this.1, this.2, hnk, hk⟩))))
        · refine .inr (.inr (.inr (.inr (.inl ?_))))
          cases hx : s.dlAss <;> rw [hx] at hc hk <;> first | rfl | contradiction
    · rw [ht] at hi
      cases hx : s.st <;> rw [hx] at hi hu ha <;> first
        | contradiction
        | (exact absurd hi (by decide))
        | (exact absurd rfl hu)
        | (exact absurd rfl ha)
        | (exact .inr (.inl rfl))
        | (exact .inr (.inr (.inl rfl)))
        | (exact .inr (.inl hx))
        | (exact .inr (.inr (.inl hx)))
  · exact .inl ht

end Verif.Live
