import Verif.Lemmas.Bvc
/-!
C65: the Gb interface comes up, and comes up again.

`Reach` (Spec/Bvc): all histories of PCU, SGSN and a network that loses and reorders messages; the link fails and recovers, the SGSN
restarts or starts resets at any time. `Deliver`: one message arrives.

The order of the procedures is kept on the signalling BVC, but not on the cell's: acknowledgements of resets are not told apart
(`C65_reset_mistaken`), and data of mobiles is sent before the BVC is unblocked (`C65_data_before_unblocked`). Neither prevents
recovery.
-/

namespace Verif.Bvc

structure Inv (w : World) : Prop where
  timer : w.pcu.nsvc = true → w.pcu.timer = true
  off : w.pcu.nsvc = false → w.up = [] ∧ w.down = [] ∧ w.pcu = .init
  unblocked : w.pcu.unblocked = true → 0 < w.unblocks
  unblockAck : .unblockAck ∈ w.down → 0 < w.unblocks
  sig : w.pcu.sig = true → 0 < w.sigs
  resetAck : ∀ b, .resetAck b ∈ w.down → 0 < w.sigs
  reset : ∀ b, .reset true b ∈ w.down → 0 < w.sigs
  sent : ∀ m ∈ w.up, m ≠ .reset true → m ≠ .data → 0 < w.sigs

theorem rx_facts (p : Pcu) (m : Down) :
    (p.rx m).1.nsvc = p.nsvc ∧ (p.timer = true → (p.rx m).1.timer = true) ∧
    ((p.rx m).1.unblocked = true → p.unblocked = true ∨ m = .unblockAck) ∧
    ((p.rx m).1.sig = true → p.sig = true ∨ (∃ b, m = .resetAck b) ∨ ∃ b, m = .reset true b) ∧
    (∀ x ∈ (p.rx m).2, x ≠ .reset true → x ≠ .data → p.sig = true ∨ (∃ b, m = .resetAck b) ∨ ∃ b, m = .reset true b) := by
  obtain ⟨n, sg, rs, ub, t⟩ := p
  rcases m with (_ | _) | _ | _ | ⟨(_ | _ | _), (_ | _)⟩ | ⟨(_ | _), (_ | _)⟩ <;> cases sg <;> cases rs <;> cases ub <;>
    simp [Pcu.rx, Pcu.timeout]

theorem view_facts (v : View) (m : Up) :
    (.unblockAck ∈ (v.rx m).2 → m = .unblock ∧ v ≠ .unknown) ∧
    (∀ b, .resetAck b ∈ (v.rx m).2 → m = .reset b) ∧ (∀ b, .reset true b ∉ (v.rx m).2) := by
  rcases m with (_ | _) | _ | _ | _ <;> cases v <;> simp [View.rx]

theorem reach_inv {w : World} (h : Reach w) : Inv w := by
  induction h with
  | start => exact ⟨by simp [World.init, Pcu.init], by simp [World.init], by simp [World.init, Pcu.init], by simp [World.init],
      by simp [World.init, Pcu.init], by simp [World.init], by simp [World.init], by simp [World.init]⟩
  | @step w v _ hs i =>
    have hon (l : List Up) (m : Up) (r : List Up) (h : w.up = l ++ m :: r) : w.pcu.nsvc = true := by
      cases hn : w.pcu.nsvc with
      | true => rfl
      | false => have := (i.off hn).1; rw [h] at this; simp at this
    have hon' (l : List Down) (m : Down) (r : List Down) (h : w.down = l ++ m :: r) : w.pcu.nsvc = true := by
      cases hn : w.pcu.nsvc with
      | true => rfl
      | false => have := (i.off hn).2.1; rw [h] at this; simp at this
    cases hs with
    | deliver hd =>
      cases hd with
      | up l r m h =>
        have hn := hon _ _ _ h
        obtain ⟨f1, f2, f3⟩ := view_facts w.view m
        have hm : m ∈ w.up := by rw [h]; simp
        refine ⟨i.timer, fun x => Bool.noConfusion (hn.symm.trans x), ?_, ?_, ?_, ?_, ?_, ?_⟩
        · intro x; have := i.unblocked x; dsimp only; omega
        · intro x
          rcases List.mem_append.1 x with y | y
          · have := i.unblockAck y; dsimp only; omega
          · dsimp only; rw [if_pos (f1 y)]; omega
        · intro x; have := i.sig x; dsimp only; omega
        · intro b x
          rcases List.mem_append.1 x with y | y
          · have := i.resetAck b y; dsimp only; omega
          · have e := f2 b y
            cases b with
            | true => dsimp only; rw [if_pos e]; omega
            | false =>
              have := i.sent m hm (by rw [e]; simp) (by rw [e]; simp)
              dsimp only; omega
        · intro b x
          rcases List.mem_append.1 x with y | y
          · have := i.reset b y; dsimp only; omega
          · exact absurd y (f3 b)
        · intro x hx x1 x2
          have hx : x ∈ w.up := by
            rw [h]
            rcases List.mem_append.1 hx with y | y
            · exact List.mem_append_left _ y
            · exact List.mem_append_right _ (List.mem_cons_of_mem _ y)
          have := i.sent x hx x1 x2
          dsimp only; omega
      | down l r m h =>
        have hn := hon' _ _ _ h
        obtain ⟨f1, f2, f3, f4, f5⟩ := rx_facts w.pcu m
        have hm : m ∈ w.down := by rw [h]; simp
        have sub : ∀ x, x ∈ l ++ r → x ∈ w.down := by
          intro x hx
          rw [h]
          rcases List.mem_append.1 hx with y | y
          · exact List.mem_append_left _ y
          · exact List.mem_append_right _ (List.mem_cons_of_mem _ y)
        have hsig : (w.pcu.sig = true ∨ (∃ b, m = .resetAck b) ∨ ∃ b, m = .reset true b) → 0 < w.sigs := by
          rintro (y | ⟨b, y⟩ | ⟨b, y⟩)
          · exact i.sig y
          · exact i.resetAck b (by rw [← y]; exact hm)
          · exact i.reset b (by rw [← y]; exact hm)
        refine ⟨fun _ => f2 (i.timer hn), fun x => ?_, ?_, fun x => i.unblockAck (sub _ x), fun x => hsig (f4 x),
          fun b x => i.resetAck b (sub _ x), fun b x => i.reset b (sub _ x), ?_⟩
        · dsimp only at x; rw [f1, hn] at x; cases x
        · intro x
          rcases f3 x with y | y
          · exact i.unblocked y
          · exact i.unblockAck (by rw [← y]; exact hm)
        · intro x hx x1 x2
          rcases List.mem_append.1 hx with y | y
          · exact i.sent x y x1 x2
          · exact hsig (f5 x y x1 x2)
    | loseUp l r m h =>
      have hn := hon _ _ _ h
      refine ⟨i.timer, fun x => Bool.noConfusion (hn.symm.trans x), i.unblocked, i.unblockAck, i.sig, i.resetAck, i.reset, ?_⟩
      intro x hx
      refine i.sent x ?_
      rw [h]
      rcases List.mem_append.1 hx with y | y
      · exact List.mem_append_left _ y
      · exact List.mem_append_right _ (List.mem_cons_of_mem _ y)
    | loseDown l r m h =>
      have hn := hon' _ _ _ h
      have sub : ∀ x, x ∈ l ++ r → x ∈ w.down := by
        intro x hx
        rw [h]
        rcases List.mem_append.1 hx with y | y
        · exact List.mem_append_left _ y
        · exact List.mem_append_right _ (List.mem_cons_of_mem _ y)
      exact ⟨i.timer, fun x => Bool.noConfusion (hn.symm.trans x), i.unblocked, fun x => i.unblockAck (sub _ x), i.sig,
        fun b x => i.resetAck b (sub _ x), fun b x => i.reset b (sub _ x), i.sent⟩
    | timer h =>
      have hn : w.pcu.nsvc = true := by
        cases hn : w.pcu.nsvc with
        | true => rfl
        | false => rw [(i.off hn).2.2] at h; cases h
      refine ⟨fun _ => rfl, fun x => ?_, i.unblocked, i.unblockAck, i.sig, i.resetAck, i.reset, ?_⟩
      · have : w.pcu.nsvc = false := x
        rw [hn] at this; cases this
      · intro x hx x1 x2
        rcases List.mem_append.1 hx with y | y
        · exact i.sent x y x1 x2
        · refine i.sig ?_
          cases hsg : w.pcu.sig with
          | true => rfl
          | false =>
            simp only [Pcu.timeout, hsg, Bool.not_false, if_true, List.mem_singleton] at y
            exact absurd y x1
    | data h =>
      refine ⟨i.timer, fun x => Bool.noConfusion (h.symm.trans x), i.unblocked, i.unblockAck, i.sig, i.resetAck, i.reset, ?_⟩
      intro x hx x1 x2
      rcases List.mem_append.1 hx with y | y
      · exact i.sent x y x1 x2
      · exact absurd (List.mem_singleton.1 y) x2
    | nsUp h =>
      have e := (i.off h).2.2
      rw [e]
      exact ⟨by simp [Pcu.nsUp, Pcu.init, Pcu.timeout], by simp [Pcu.nsUp, Pcu.init, Pcu.timeout], by simp [Pcu.nsUp, Pcu.init, Pcu.timeout],
        by simp, by simp [Pcu.nsUp, Pcu.init, Pcu.timeout], by simp, by simp, by simp [Pcu.nsUp, Pcu.init, Pcu.timeout]⟩
    | nsDown =>
      have e : w.pcu.nsDown = .init := by
        cases hn : w.pcu.nsvc with
        | true => simp [Pcu.nsDown, hn, Pcu.init]
        | false => simp only [Pcu.nsDown, hn, Bool.false_eq_true, if_false]; exact (i.off hn).2.2
      rw [e]
      exact ⟨by simp [Pcu.init], by simp, by simp [Pcu.init], by simp, by simp [Pcu.init], by simp, by simp, by simp⟩
    | restart => exact ⟨i.timer, i.off, i.unblocked, i.unblockAck, i.sig, i.resetAck, i.reset, i.sent⟩
    | resetAll h =>
      exact ⟨i.timer, fun x => Bool.noConfusion (h.symm.trans x), i.unblocked, fun x => i.unblockAck (by simpa using x),
        fun _ => Nat.succ_pos _, fun _ _ => Nat.succ_pos _, fun _ _ => Nat.succ_pos _, fun _ _ _ _ => Nat.succ_pos _⟩
    | resetOne h =>
      exact ⟨i.timer, fun x => Bool.noConfusion (h.symm.trans x), i.unblocked, fun x => i.unblockAck (by simpa using x),
        i.sig, fun b x => i.resetAck b (by simpa using x), fun b x => i.reset b (by simpa using x), i.sent⟩
    | status c own h hc =>
      exact ⟨i.timer, fun x => Bool.noConfusion (h.symm.trans x), i.unblocked, fun x => i.unblockAck (by simpa using x),
        i.sig, fun b x => i.resetAck b (by simpa using x), fun b x => i.reset b (by simpa using x), i.sent⟩

/-- As long as the link is up the PCU does not give up: its timer runs. -/
theorem C65_keeps_trying (w : World) (h : Reach w) (hn : w.pcu.nsvc = true) : w.pcu.timer = true := (reach_inv h).timer hn

/-- While the link is down nothing is sent and nothing is remembered. -/
theorem C65_down (w : World) (h : Reach w) (hn : w.pcu.nsvc = false) : w.up = [] ∧ w.pcu = .init :=
  ⟨((reach_inv h).off hn).1, ((reach_inv h).off hn).2.2⟩

/-- The PCU takes the BVC as unblocked only if the SGSN has unblocked it since the link came up, and reports flow control only
then. -/
theorem C65_unblocked (w : World) (h : Reach w) : w.pcu.unblocked = true → 0 < w.unblocks := (reach_inv h).unblocked

/-- No reset or unblocking of the cell's BVC and no flow control is sent before the signalling BVC was reset. -/
theorem C65_signalling_first (w : World) (h : Reach w) : ∀ m ∈ w.up, m = .reset false ∨ m = .unblock ∨ m = .flow → 0 < w.sigs := by
  intro m hm h1
  refine (reach_inv h).sent m hm ?_ ?_ <;> (rcases h1 with rfl | rfl | rfl <;> simp)

/-- PCU and SGSN never go on sending messages to each other without the timer of the PCU or another event: from any state whatsoever,
with any messages on the way, arriving in any order. -/
theorem C65_no_endless_exchange : WellFounded fun v w => Deliver w v := deliver_wf

/-- Any number of messages arrive. -/
inductive Run : World → World → Prop
  | refl (w : World) : Run w w
  | step {w v x : World} : Deliver w v → Run v x → Run w x

/-- No messages on the way. -/
def Quiet (w : World) : Prop := w.up = [] ∧ w.down = []

/-- The BVC is in service, on both sides. -/
def InService (w : World) : Prop := w.pcu.sig = true ∧ w.pcu.reset = true ∧ w.pcu.unblocked = true ∧ w.view = .open

/-- The timer expires. -/
def fire (w : World) : World := { w with pcu := w.pcu.timeout.1, up := w.up ++ w.pcu.timeout.2 }

/-- Every exchange ends. -/
theorem C65_becomes_quiet (w : World) : ∃ v, Run w v ∧ Quiet v := by
  induction w using deliver_wf.induction with
  | _ w ih =>
    cases hu : w.up with
    | cons m r =>
      have hd := Deliver.up w [] r m (by rw [hu]; rfl)
      obtain ⟨v, h1, h2⟩ := ih _ hd
      exact ⟨v, .step hd h1, h2⟩
    | nil =>
      cases hw : w.down with
      | cons m r =>
        have hd := Deliver.down w [] r m (by rw [hw]; rfl)
        obtain ⟨v, h1, h2⟩ := ih _ hd
        exact ⟨v, .step hd h1, h2⟩
      | nil => exact ⟨w, .refl w, hu, hw⟩

/-- With one message on the way there is one thing that can happen. -/
def next (w : World) : World :=
  match w.up with
  | m :: _ => { w with up := [], view := (w.view.rx m).1, down := (w.view.rx m).2
                       sigs := w.sigs + if m = .reset true then 1 else 0
                       resets := w.resets + if m = .reset false then 1 else 0
                       unblocks := w.unblocks + if m = .unblock ∧ w.view ≠ .unknown then 1 else 0 }
  | [] =>
    match w.down with
    | m :: _ => { w with down := [], pcu := (w.pcu.rx m).1, up := (w.pcu.rx m).2 }
    | [] => w

def One (w : World) : Prop := w.up.length + w.down.length ≤ 1

theorem rx_len (p : Pcu) (m : Down) : (p.rx m).2.length ≤ 1 := by
  obtain ⟨n, sg, rs, ub, t⟩ := p
  rcases m with (_ | _) | _ | _ | ⟨(_ | _ | _), (_ | _)⟩ | ⟨(_ | _), (_ | _)⟩ <;> cases sg <;> cases rs <;> cases ub <;>
    simp [Pcu.rx, Pcu.timeout]

theorem view_len (v : View) (m : Up) : (v.rx m).2.length ≤ 1 := by
  rcases m with (_ | _) | _ | _ | _ <;> cases v <;> simp [View.rx]

theorem one_next {w v : World} (ho : One w) (h : Deliver w v) : v = next w ∧ One v := by
  unfold One at ho
  cases h with
  | up l r m h =>
    rw [h] at ho
    simp only [List.length_append, List.length_cons] at ho
    have hl : l = [] := List.eq_nil_of_length_eq_zero (by omega)
    have hr : r = [] := List.eq_nil_of_length_eq_zero (by omega)
    have hd : w.down = [] := List.eq_nil_of_length_eq_zero (by omega)
    subst hl; subst hr
    have := view_len w.view m
    refine ⟨?_, by unfold One; simp [hd]; exact this⟩
    unfold next
    rw [h]
    simp [hd]
  | down l r m h =>
    rw [h] at ho
    simp only [List.length_append, List.length_cons] at ho
    have hl : l = [] := List.eq_nil_of_length_eq_zero (by omega)
    have hr : r = [] := List.eq_nil_of_length_eq_zero (by omega)
    have hu : w.up = [] := List.eq_nil_of_length_eq_zero (by omega)
    subst hl; subst hr
    have := rx_len w.pcu m
    refine ⟨?_, by unfold One; simp [hu]; exact this⟩
    unfold next
    rw [hu, h]
    simp

def nexts : Nat → World → World
  | 0, w => w
  | n + 1, w => nexts n (next w)

theorem nexts_quiet {w : World} (h : Quiet w) : ∀ n, nexts n w = w := by
  intro n
  induction n with
  | zero => rfl
  | succ n ih =>
    have : next w = w := by unfold next; rw [h.1, h.2]
    rw [nexts, this, ih]

theorem nexts_add (m n : Nat) : ∀ w, nexts (m + n) w = nexts n (nexts m w) := by
  induction m with
  | zero => intro w; rw [Nat.zero_add]; rfl
  | succ m ih => intro w; rw [show m + 1 + n = (m + n) + 1 by omega]; exact ih _

theorem run_nexts {w v : World} (h : Run w v) : One w → ∃ n, v = nexts n w := by
  induction h with
  | refl w => intro _; exact ⟨0, rfl⟩
  | step hd _ ih =>
    intro ho
    obtain ⟨e, ho'⟩ := one_next ho hd
    obtain ⟨n, hn⟩ := ih ho'
    exact ⟨n + 1, by rw [hn, e]; rfl⟩

/-- Without the counts. -/
def bare (w : World) : World := { w with sigs := 0, resets := 0, unblocks := 0 }

theorem bare_next (w : World) : bare (next w) = bare (next (bare w)) := by
  obtain ⟨p, v, u, d, x, y, z⟩ := w
  cases u with
  | cons m r => rfl
  | nil => cases d <;> rfl

theorem bare_nexts (n : Nat) : ∀ w, bare (nexts n w) = bare (nexts n (bare w)) := by
  induction n with
  | zero => intro w; rfl
  | succ n ih => intro w; rw [nexts, nexts, ih, bare_next, ← ih]

theorem bare_quiet (w : World) : Quiet w = Quiet (bare w) := rfl
theorem bare_service (w : World) : InService w = InService (bare w) := rfl

instance (w : World) : Decidable (Quiet w) := inferInstanceAs (Decidable (_ ∧ _))
instance (w : World) : Decidable (InService w) := inferInstanceAs (Decidable (_ ∧ _))

/-- All states without messages on the way: the flags of the PCU and the view of the SGSN. -/
theorem all_settle (n sg rs ub t : Bool) (vw : View) :
    Quiet (nexts 12 (fire ⟨⟨n, sg, rs, ub, t⟩, vw, [], [], 0, 0, 0⟩)) ∧ InService (nexts 12 (fire ⟨⟨n, sg, rs, ub, t⟩, vw, [], [], 0, 0, 0⟩)) := by
  cases n <;> cases sg <;> cases rs <;> cases ub <;> cases t <;> cases vw <;> decide +kernel

/-- From any state, whatever PCU and SGSN think of each other: if no message is on the way, the timer expires and no message is lost,
the BVC is in service when the exchange of messages is over. And when it is in service it stays so. -/
theorem C65_recovers (w : World) (hq : Quiet w) (v : World) (hr : Run (fire w) v) (hv : Quiet v) : InService v := by
  have ho : One (fire w) := by
    obtain ⟨⟨n, sg, rs, ub, t⟩, vw, u, d, x, y, z⟩ := w
    obtain ⟨rfl, rfl⟩ := hq
    cases sg <;> cases rs <;> cases ub <;> simp [One, fire, Pcu.timeout]
  have key : Quiet (nexts 12 (fire w)) ∧ InService (nexts 12 (fire w)) := by
    rw [bare_quiet, bare_service, bare_nexts]
    obtain ⟨⟨n, sg, rs, ub, t⟩, vw, u, d, x, y, z⟩ := w
    obtain ⟨rfl, rfl⟩ := hq
    have : bare (fire ⟨⟨n, sg, rs, ub, t⟩, vw, [], [], x, y, z⟩) = fire ⟨⟨n, sg, rs, ub, t⟩, vw, [], [], 0, 0, 0⟩ := rfl
    rw [this, ← bare_quiet, ← bare_service]
    exact all_settle n sg rs ub t vw
  obtain ⟨n, rfl⟩ := run_nexts hr ho
  have e : nexts n (fire w) = nexts 12 (fire w) := by
    rcases Nat.le_total n 12 with h | h
    · rw [show 12 = n + (12 - n) by omega, nexts_add, nexts_quiet hv]
    · rw [show n = 12 + (n - 12) by omega, nexts_add, nexts_quiet key.1]
  rw [e]; exact key.2

/-- So in every reachable state with the link up, after the messages on the way have arrived (or got lost) and one expiry of the timer,
which does run, the BVC is in service. -/
theorem C65_comes_up (w : World) (h : Reach w) (hn : w.pcu.nsvc = true) (hq : Quiet w) :
    Step w (fire w) ∧ ∃ v, Run (fire w) v ∧ Quiet v ∧ InService v := by
  refine ⟨.timer w (C65_keeps_trying w h hn), ?_⟩
  obtain ⟨v, h1, h2⟩ := C65_becomes_quiet (fire w)
  exact ⟨v, h1, h2, C65_recovers w hq v h1 h2⟩

/-! ### What does not hold -/

/-- The link comes up and the timer expires once before the SGSN answers. Then there are two acknowledgements of the reset of the
signalling BVC. The second one is taken for one of the cell's BVC, and that BVC is to be unblocked, although no BVC-RESET for it ever
arrived. -/
theorem C65_reset_mistaken : ∃ w, Reach w ∧ w.pcu.nsvc = true ∧ w.pcu.reset = true ∧ .unblock ∈ w.up ∧ w.resets = 0 ∧ w.view = .unknown := by
  have h1 := Reach.step .start (.nsUp _ rfl)
  have h2 := h1.step (.timer _ rfl)
  have h3 := h2.step (.deliver (.up _ [] [.reset true] (.reset true) rfl))
  have h4 := h3.step (.deliver (.up _ [] [] (.reset true) rfl))
  have h5 := h4.step (.deliver (.down _ [] [.resetAck true] (.resetAck true) rfl))
  have h6 := h5.step (.loseUp _ [] [] (.reset false) rfl)
  have h7 := h6.step (.deliver (.down _ [] [] (.resetAck true) rfl))
  exact ⟨_, h7, rfl, rfl, by decide, rfl, rfl⟩

/-- Data of mobiles is sent before the SGSN has heard anything of the PCU. -/
theorem C65_data_before_unblocked : ∃ w, Reach w ∧ .data ∈ w.up ∧ w.pcu.unblocked = false ∧ w.sigs = 0 ∧ w.view = .unknown := by
  have h1 := Reach.step .start (.nsUp _ rfl)
  have h2 := h1.step (.data _ rfl)
  exact ⟨_, h2, by decide, rfl, rfl, rfl⟩

/-! ### Non-vacuity -/

def st (sig reset unblocked : Bool) (v : View) (u : List Up) (d : List Down) (x y z : Nat) : World :=
  ⟨⟨true, sig, reset, unblocked, true⟩, v, u, d, x, y, z⟩

/-- In service, the SGSN forgets the cell: reachable, quiet, and by `C65_comes_up` it recovers. -/
example : ∃ w, Reach w ∧ w.pcu.nsvc = true ∧ Quiet w ∧ w.view = .unknown ∧ w.pcu.unblocked = true := by
  have h1 : Reach (st false false false .unknown [.reset true] [] 0 0 0) := .step .start (.nsUp _ rfl)
  have h2 : Reach (st false false false .unknown [] [.resetAck true] 1 0 0) := h1.step (.deliver (.up _ [] [] (.reset true) rfl))
  have h3 : Reach (st true false false .unknown [.reset false] [] 1 0 0) := h2.step (.deliver (.down _ [] [] (.resetAck true) rfl))
  have h4 : Reach (st true false false .blocked [] [.resetAck false] 1 1 0) := h3.step (.deliver (.up _ [] [] (.reset false) rfl))
  have h5 : Reach (st true true false .blocked [.unblock] [] 1 1 0) := h4.step (.deliver (.down _ [] [] (.resetAck false) rfl))
  have h6 : Reach (st true true false .open [] [.unblockAck] 1 1 1) := h5.step (.deliver (.up _ [] [] .unblock rfl))
  have h7 : Reach (st true true true .open [.flow] [] 1 1 1) := h6.step (.deliver (.down _ [] [] .unblockAck rfl))
  have h8 : Reach (st true true true .open [] [.flowAck] 1 1 1) := h7.step (.deliver (.up _ [] [] .flow rfl))
  have h9 : Reach (st true true true .open [] [] 1 1 1) := h8.step (.deliver (.down _ [] [] .flowAck rfl))
  have h10 : Reach (st true true true .unknown [] [] 1 1 1) := h9.step (.restart _)
  exact ⟨_, h10, rfl, ⟨rfl, rfl⟩, rfl, rfl⟩

end Verif.Bvc
