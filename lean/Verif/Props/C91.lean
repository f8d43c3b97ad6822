import Verif.Lemmas.DlPoll
/-!
# C91: A mobile that receives data is asked for acknowledgements in time

A radio block of a downlink TBF asks the mobile to acknowledge, if it is sent where the mobile may be asked and there is an
uplink block for the answer, whenever 20 radio blocks were sent since the mobile was last asked, its answer did not come, the
last block of the transfer was sent, or a block had to be sent although there is nothing to send, and it was not asked since.
It is not asked for no reason.
-/

namespace Verif.DlPoll

/-- What the flags stand for. -/
structure Inv (h : List Ev) (t : Tbf) : Prop where
  ok : Ok t.data
  tx : t.p.tx = since h
  lost : t.p.lost = unanswered h
  due : open_ (fun b => b.last || b.idle) h = true → t.p.req = true
  may : t.p.req = true → open_ (fun b => b.empties) h = true

theorem quiet_iff (t : Tbf) : (!waiting t) = true ↔ Quiet t.data := by
  unfold waiting Quiet
  simp [List.isEmpty_iff]

theorem gone_iff (t : Tbf) : allSent t = true ↔ Gone t.data := by
  unfold allSent Gone
  simp [List.isEmpty_iff]

theorem poll_spec (p : Ask) (ctrl free : Bool) :
    ((p.poll ctrl free).2 = true ↔ ctrl = true ∧ free = true ∧ (p.lost = true ∨ 20 ≤ p.tx ∨ p.req = true)) ∧
    ((p.poll ctrl free).2 = true → (p.poll ctrl free).1 = ⟨1, false, false⟩) ∧
    ((p.poll ctrl free).2 = false → (p.poll ctrl free).1 = ⟨p.tx + 1, p.req, p.lost⟩) := by
  unfold Ask.poll Ask.needPoll
  cases ctrl <;> cases free <;> cases p.lost <;> cases p.req <;> by_cases h : p.tx ≥ 20 <;> simp [h] <;> omega

/-- The reason of one radio block. -/
theorem sent_spec {edge : Bool} {h : List Ev} {t t' : Tbf} {ctrl free a : Bool} {c1 : Call} {c2 : Option Call} {bs : List (Nat × Seg.Block)}
    (hi : Inv h t) (hn : 20 ≤ c1.n) (hn2 : ∀ c ∈ c2, 20 ≤ c.n) (hr : radio edge t ctrl free c1 c2 = some (t', bs, a)) (hb : bs ≠ []) :
    Inv (.sent (seen t t' ctrl free a) :: h) t' ∧
    (ctrl = true → free = true → (20 ≤ since h ∨ unanswered h = true ∨ open_ (fun b => b.last || b.idle) h = true ∨
        (seen t t' ctrl free a).last = true ∨ (seen t t' ctrl free a).idle = true) → a = true) ∧
    (a = true → ctrl = true ∧ free = true ∧ (20 ≤ since h ∨ unanswered h = true ∨ open_ (fun b => b.empties) h = true ∨
        (seen t t' ctrl free a).empties = true)) := by
  obtain ⟨h1, asks, h2, h3, h4, h5⟩ := radio_spec hn hn2 hi.ok hr hb
  obtain ⟨p1, p2, p3⟩ := poll_spec (t.p.wish asks) ctrl free
  have e1 : t'.p = ((t.p.wish asks).poll ctrl free).1 := congrArg Prod.fst h2
  have e2 : a = ((t.p.wish asks).poll ctrl free).2 := congrArg Prod.snd h2
  rw [← e2] at p1 p2 p3
  rw [← e1] at p2 p3
  have w1 : (t.p.wish asks).tx = since h := hi.tx
  have w2 : (t.p.wish asks).lost = unanswered h := hi.lost
  have w3 : (t.p.wish asks).req = (t.p.req || asks) := rfl
  have hlast : (seen t t' ctrl free a).last = true → asks = true := by
    intro x
    simp only [seen, Bool.and_eq_true, decide_eq_true_eq] at x
    exact h4 x.2 x.1
  have hidle : (seen t t' ctrl free a).idle = true → asks = true := by
    intro x
    simp only [seen, Bool.and_eq_true, decide_eq_true_eq] at x
    exact h5 x.2 ((quiet_iff t).1 x.1)
  have hemp : asks = true → (seen t t' ctrl free a).empties = true := by
    intro x
    simp only [seen, Bool.and_eq_true, decide_eq_true_eq]
    exact ⟨(gone_iff t').2 (h3 x).1, (h3 x).2⟩
  have hasked : (seen t t' ctrl free a).asked = a := rfl
  refine ⟨?_, ?_, ?_⟩
  · cases a with
    | true =>
      have := p2 rfl
      refine ⟨h1, ?_, ?_, ?_, ?_⟩ <;> simp only [since, unanswered, open_, hasked, if_true, this, Bool.false_eq_true, false_imp_iff]
    | false =>
      have := p3 rfl
      rw [w1, w2, w3] at this
      refine ⟨h1, ?_, ?_, ?_, ?_⟩ <;> simp only [since, unanswered, open_, hasked, if_false, this, Bool.false_eq_true, Bool.or_eq_true]
      · rintro ((x | x) | x)
        · exact Or.inr (hlast x)
        · exact Or.inr (hidle x)
        · exact Or.inl (hi.due x)
      · rintro (x | x)
        · exact Or.inr (hi.may x)
        · exact Or.inl (hemp x)
  · intro hc hf hx
    refine p1.2 ⟨hc, hf, ?_⟩
    rw [w1, w2, w3, Bool.or_eq_true]
    rcases hx with x | x | x | x | x
    · exact Or.inr (Or.inl x)
    · exact Or.inl x
    · exact Or.inr (Or.inr (Or.inl (hi.due x)))
    · exact Or.inr (Or.inr (Or.inr (hlast x)))
    · exact Or.inr (Or.inr (Or.inr (hidle x)))
  · intro x
    obtain ⟨y1, y2, y3⟩ := p1.1 x
    rw [w1, w2, w3, Bool.or_eq_true] at y3
    refine ⟨y1, y2, ?_⟩
    rcases y3 with y | y | y | y
    · exact Or.inr (Or.inl y)
    · exact Or.inl y
    · exact Or.inr (Or.inr (Or.inl (hi.may y)))
    · exact Or.inr (Or.inr (Or.inr (hemp y)))

theorem reach_inv {edge : Bool} {h : List Ev} {t : Tbf} (hr : Reach edge h t) : Inv h t := by
  induction hr with
  | start sns ws hs => exact ⟨⟨fun f hf => (by cases hf), hs⟩, rfl, rfl, fun x => (by cases x), fun x => (by cases x)⟩
  | give f hf _ ih =>
    refine ⟨⟨fun g hg => ?_, ih.ok.sns⟩, ih.tx, ih.lost, ih.due, ih.may⟩
    rcases List.mem_append.1 hg with hg | hg
    · exact ih.ok.queue g hg
    · rw [List.mem_singleton] at hg; rw [hg]; exact hf
  | radio ctrl free c1 c2 bs a _ h1 h2 h3 h4 ih => exact (sent_spec ih h1 h2 h3 h4).1
  | acked bits _ ih =>
    exact ⟨⟨ih.ok.queue, by rw [show (Tbf.acked _ bits).data.win.sns = _ from ackNack_keep _ _ _]; exact ih.ok.sns⟩, ih.tx, rfl, ih.due, ih.may⟩
  | finalAcked _ ih => exact ⟨⟨ih.ok.queue, ih.ok.sns⟩, rfl, rfl, ih.due, ih.may⟩
  | missed _ ih => exact ⟨ih.ok, ih.tx, rfl, ih.due, ih.may⟩
  | timer _ ih => exact ⟨ih.ok, ih.tx, ih.lost, fun _ => rfl, fun _ => rfl⟩

/-- The mobile is asked where it can be, if it has to be. Missing: it is also asked with the block that sends the last of the
frames while the TBF is kept open, false if the block is filled exactly (`C91_fails`). -/
theorem C91_asked_partial {edge : Bool} {h : List Ev} {t : Tbf} {b : Sent} (hr : Reach edge (.sent b :: h) t) (hc : b.ctrl = true) (hf : b.free = true)
    (hx : 20 ≤ since h ∨ unanswered h = true ∨ open_ (fun b => b.last || b.idle) h = true ∨ b.last = true ∨ b.idle = true) :
    b.asked = true := by
  generalize he : (Ev.sent b :: h) = h' at hr
  induction hr with
  | radio ctrl free c1 c2 bs a hr h1 h2 h3 h4 =>
    simp only [List.cons.injEq, Ev.sent.injEq] at he
    obtain ⟨rfl, rfl⟩ := he
    exact (sent_spec (reach_inv hr) h1 h2 h3 h4).2.1 hc hf hx
  | give f _ _ ih => exact ih he
  | _ => cases he

/-- The mobile is not asked for no reason. -/
theorem C91_reason {edge : Bool} {h : List Ev} {t : Tbf} {b : Sent} (hr : Reach edge (.sent b :: h) t) (ha : b.asked = true) :
    b.ctrl = true ∧ b.free = true ∧ (20 ≤ since h ∨ unanswered h = true ∨ open_ (fun b => b.empties) h = true ∨ b.empties = true) := by
  generalize he : (Ev.sent b :: h) = h' at hr
  induction hr with
  | radio ctrl free c1 c2 bs a hr h1 h2 h3 h4 =>
    simp only [List.cons.injEq, Ev.sent.injEq] at he
    obtain ⟨rfl, rfl⟩ := he
    exact (sent_spec (reach_inv hr) h1 h2 h3 h4).2.2 ha
  | give f _ _ ih => exact ih he
  | _ => cases he

/-- If the mobile can always be asked, it is asked with every 20th radio block at the latest. -/
theorem C91_every_20 {edge : Bool} {h : List Ev} {t : Tbf} (hr : Reach edge h t) (hall : ∀ b, .sent b ∈ h → b.ctrl = true ∧ b.free = true) :
    since h ≤ 20 := by
  induction hr with
  | start => exact Nat.zero_le _
  | give f _ _ ih => exact ih hall
  | radio ctrl free c1 c2 bs a hr h1 h2 h3 h4 ih =>
    rename_i h t t'
    have i := ih fun b hb => hall b (List.mem_cons_of_mem _ hb)
    obtain ⟨x, y⟩ := hall _ List.mem_cons_self
    have hs := (sent_spec (reach_inv hr) h1 h2 h3 h4).2.1 x y
    simp only [since]
    split
    · omega
    · rename_i hx
      have : ¬ 20 ≤ since h := fun z => hx (hs (Or.inl z))
      omega
  | acked bits _ ih => exact ih fun b hb => hall b (List.mem_cons_of_mem _ hb)
  | finalAcked _ _ => exact Nat.zero_le _
  | missed _ ih => exact ih fun b hb => hall b (List.mem_cons_of_mem _ hb)
  | timer _ ih => exact ih fun b hb => hall b (List.mem_cons_of_mem _ hb)

/-! ### Cases -/

/-- A frame of `m` octets in a block of 20 octets. -/
def one (m : Nat) : Tbf := ⟨(DlData.Tbf.init 128 64).give (List.replicate m 7), {}⟩

theorem one_reach (m : Nat) (h : 0 < m) : Reach false [] (one m) :=
  Reach.give (List.replicate m 7) (by intro x; have := congrArg List.length x; simp at this; omega) (Reach.start 128 64 (by decide))

/-- The mobile can be asked; the TBF is kept open (`fin` is false) or not. -/
def oneSent (m : Nat) (fin : Bool) : Option (Tbf × List (Nat × Seg.Block) × Bool) := radio false (one m) true true ⟨false, false, 20, fun _ => fin⟩ none

theorem one_sent (m : Nat) (fin : Bool) (h : 0 < m) {t bs a} (hs : oneSent m fin = some (t, bs, a)) (hb : bs ≠ []) :
    Reach false [.sent (seen (one m) t true true a)] t :=
  Reach.radio true true _ _ bs a (one_reach m h) (Nat.le_refl 20) (fun c hc => by cases hc) hs hb

/-- The last block of the transfer asks. -/
example : ∃ b t, Reach false [.sent b] t ∧ b.ctrl = true ∧ b.free = true ∧ b.last = true ∧ b.asked = true :=
  match hs : oneSent 10 true with
  | some (t, bs, a) => by
    have e : (oneSent 10 true).map (fun r => (r.1.data.win.vs, r.1.data.finished, r.2.1.length, r.2.2)) = some (1, true, 1, true) := by decide
    rw [hs] at e
    simp only [Option.map_some, Option.some.injEq, Prod.mk.injEq] at e
    refine ⟨_, t, one_sent 10 true (by decide) hs (by intro x; rw [x] at e; simp at e), rfl, rfl, ?_, e.2.2.2⟩
    simp only [seen, e.1, e.2.1]
    rfl
  | none => by
    have e : (oneSent 10 true).isSome = true := by decide
    rw [hs] at e; cases e

/-- If the end of the last frame fills its block exactly, and the TBF is kept open, the mobile is not asked, although all frames
are sent and it could be. -/
theorem C91_fails : ∃ b t, Reach false [.sent b] t ∧ b.ctrl = true ∧ b.free = true ∧ b.empties = true ∧ b.asked = false :=
  match hs : oneSent 19 false with
  | some (t, bs, a) => by
    have e : (oneSent 19 false).map (fun r => (r.1.data.win.vs, allSent r.1, r.2.1.length, r.2.2)) = some (1, true, 1, false) := by decide
    rw [hs] at e
    simp only [Option.map_some, Option.some.injEq, Prod.mk.injEq] at e
    refine ⟨_, t, one_sent 19 false (by decide) hs (by intro x; rw [x] at e; simp at e), rfl, rfl, ?_, e.2.2.2⟩
    simp only [seen, e.1, e.2.1]
    rfl
  | none => by
    have e : (oneSent 19 false).isSome = true := by decide
    rw [hs] at e; cases e

end Verif.DlPoll
