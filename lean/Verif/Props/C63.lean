import Verif.Lemmas.DlService
import Verif.Props.C07
/-!
C63: the downlink carries LLC frames to the mobile: in order, each once, unchanged, and all of them.

The network runs `take_next_bsn`, `create_new_bsn` and `update_window` (Model/DlData). A mobile (`Mob`, Spec/DlService, written from
TS 44.060) receives in a sliding window, reads the blocks and puts the frames together; the radio loses blocks; the mobile reports
truthfully, its reports may get lost, be late or be about some of the blocks only (`Reach`). `s.given` are the frames handed over
for the mobile, `s.mob.frames.out` those it has put together.
-/

namespace Verif.DlService

open Verif.DlData (Tbf)
open Verif.Seg (Llc Block)

/-- No restriction. -/
abbrev Any : Nat → (Nat → Bool) → Llc → Prop := fun _ _ _ => True

/-! ### EGPRS -/

theorem egprs {ws : Nat} (h1 : 64 ≤ ws) (h2 : ws ≤ 1024) {s : Sys} (h : Reach true 2048 ws Any s) : ∃ blks a, SysInv true 2048 ws s blks a :=
  reach_inv (show LegalCfg true 2048 ws from ⟨rfl, h1, h2⟩) (fun _ _ _ _ h => by cases h) h

/-- Nothing else arrives: at any time the mobile has put together the first frames handed over, unchanged, in order, each once,
with nothing but dummy commands in between. All window sizes, all histories. -/
theorem C63_in_order_unchanged (ws : Nat) (h1 : 64 ≤ ws) (h2 : ws ≤ 1024) (s : Sys) (h : Reach true 2048 ws Any s) :
    ∃ sent, sent <+: s.given ∧ WithDummies sent s.mob.frames.out := by
  obtain ⟨blks, a, hi⟩ := egprs h1 h2 h
  exact hi.delivered

/-- No loss: once the last block is sent and nothing is outstanding, the mobile has all frames, except those that came too late
and wait for the next TBF; no frame is half received. -/
theorem C63_finished_is_delivered (ws : Nat) (h1 : 64 ≤ ws) (h2 : ws ≤ 1024) (s : Sys) (h : Reach true 2048 ws Any s)
    (hf : s.tbf.finished = true) (he : s.tbf.win.empty = true) :
    ∃ sent, s.given = sent ++ s.tbf.llc.queue ∧ WithDummies sent s.mob.frames.out ∧ s.mob.frames.acc = [] := by
  obtain ⟨blks, a, hi⟩ := egprs h1 h2 h
  exact hi.complete (hi.empty he) (hi.fin hf).1

/-- The same in a TBF that stays open: when there is nothing to send and nothing outstanding, the mobile has all frames. -/
theorem C63_idle_is_delivered (ws : Nat) (h1 : 64 ≤ ws) (h2 : ws ≤ 1024) (s : Sys) (h : Reach true 2048 ws Any s)
    (hc : s.tbf.llc.cur = []) (hq : s.tbf.llc.queue = []) (he : s.tbf.win.empty = true) :
    WithDummies s.given s.mob.frames.out ∧ s.mob.frames.acc = [] := by
  obtain ⟨blks, a, hi⟩ := egprs h1 h2 h
  obtain ⟨g, x1, x2, x3⟩ := hi.complete (hi.empty he) hc
  rw [hq, List.append_nil] at x1
  exact ⟨x1 ▸ x2, x3⟩

/-- Sending ends, whatever block is asked for and whatever was chosen before for the same radio block; the first choice for a
radio block is always a block. -/
theorem C63_always_sends (ws : Nat) (h1 : 64 ≤ ws) (h2 : ws ≤ 1024) (s : Sys) (h : Reach true 2048 ws Any s)
    (prev : Option Nat) (prevEdge preempt : Bool) (n : Nat) (fin : Nat → Bool) (hn : LegalLen true n) :
    ∃ t r, s.tbf.send true prev prevEdge preempt n fin = some (t, r) ∧ (prev = none → r ≠ none) := by
  obtain ⟨blks, a, hi⟩ := egprs h1 h2 h
  obtain ⟨t, r, _, x1, _, _, _, x5, _⟩ := send_inv hi prev prevEdge preempt n fin true hn (fun h => by cases h)
  exact ⟨t, r, x1, x5⟩

/-- Waiting frames go out at once: if the window is open, no block is to be repeated and the last block is not yet sent, then the
next block is a new one, whether or not the network repeats blocks on its own accord (`preempt`). -/
theorem C63_waiting_is_sent (ws : Nat) (h1 : 64 ≤ ws) (h2 : ws ≤ 1024) (s : Sys) (h : Reach true 2048 ws Any s)
    (preempt : Bool) (n : Nat) (fin : Nat → Bool) (hn : LegalLen true n)
    (hq : s.tbf.llc.queue ≠ [] ∨ s.tbf.llc.idx < s.tbf.llc.cur.length) (hf : s.tbf.finished = false)
    (hs : s.tbf.win.stalled = false) (hr : s.tbf.win.resendNeeded = none) :
    ∃ t k, s.tbf.send true none false preempt n fin = some (t, some (s.tbf.win.vs, k)) ∧
      t.win.vs = (s.tbf.win.vs + 1) % 2048 := by
  obtain ⟨t, r, e, _⟩ := C63_always_sends ws h1 h2 s h none false preempt n fin hn
  obtain ⟨blks, a, hi⟩ := egprs h1 h2 h
  have hd : s.tbf.haveData = true := by
    unfold Tbf.haveData
    rw [Bool.or_eq_true]
    rcases hq with hq | hq
    · right; cases hx : s.tbf.llc.queue with
      | nil => exact absurd hx hq
      | cons _ _ => rfl
    · left; rw [decide_eq_true_eq]; omega
  have ht : RlcDl.takeNext 2 (s.tbf.env none false preempt) s.tbf.win =
      some (s.tbf.win.createNew.1, some (s.tbf.win.vs, .fresh)) := by
    simp [RlcDl.takeNext, Tbf.env, hr, hf, hs, hd, RlcDl.Win.createNew]
  have he := e
  unfold Tbf.send at e
  rw [ht] at e
  simp only [true_or, if_true] at e
  cases hc : Seg.createBlock true n fin s.tbf.llc with
  | none => rw [hc] at e; cases e
  | some x =>
    rw [hc] at e
    simp only [Option.some.injEq, Prod.mk.injEq] at e
    obtain ⟨e1, e2⟩ := e
    refine ⟨t, x.1, by rw [he, ← e2], ?_⟩
    rw [← e1]
    show (s.tbf.win.vs + 1) % s.tbf.win.sns = _
    rw [hi.win.hsns]

/-- Progress: from any state that can arise, however many blocks are missing, once the radio stops losing blocks a number of
rounds bounded by the window and the octets and frames waiting delivers everything. -/
theorem C63_all_delivered (ws : Nat) (h1 : 64 ≤ ws) (h2 : ws ≤ 1024) (s : Sys) (h : Reach true 2048 ws Any s) (preempt : Bool)
    (sizes : List Nat) (hl : ∀ n ∈ sizes, LegalLen true n) (henough : ws + (s.tbf.llc.pending.map (· + 1)).sum ≤ sizes.length) :
    ∃ k t sent, k ≤ sizes.length ∧ rounds true 2048 ws preempt (sizes.take k) s = some t ∧ t.given = s.given ∧
      s.given = sent ++ (if t.tbf.finished then t.tbf.llc.queue else []) ∧ WithDummies sent t.mob.frames.out ∧ t.mob.frames.acc = [] := by
  obtain ⟨blks, a, hi⟩ := egprs h1 h2 h
  have ht : todo 2048 blks s ≤ sizes.length := by
    have := hi.miss_le
    unfold todo
    have hw : s.tbf.llc.work = (s.tbf.llc.pending.map (· + 1)).sum := rfl
    split <;> omega
  obtain ⟨k, t, b', a', k1, k2, k3, k4, k5⟩ := rounds_spec preempt sizes s blks a hi hl ht
  obtain ⟨sent, x1, x2, x3⟩ := k3.done k5
  exact ⟨k, t, sent, k1, k2, k4, k4 ▸ x1, x2, x3⟩

/-! ### GPRS

Missing: the situation that `noExactFinal` excludes (`Props/C07`): the last block of the TBF is filled exactly by a frame after a
delimited one. There the claims are false (`C63_gprs_frame_lost`). -/

theorem gprs {s : Sys} (h : Reach false 128 64 Seg.noExactFinal s) : ∃ blks a, SysInv false 128 64 s blks a :=
  reach_inv (show LegalCfg false 128 64 from ⟨rfl, rfl⟩) (fun _ _ _ h _ => h) h

theorem C63_in_order_unchanged_gprs_partial (s : Sys) (h : Reach false 128 64 Seg.noExactFinal s) :
    ∃ sent, sent <+: s.given ∧ WithDummies sent s.mob.frames.out := by
  obtain ⟨blks, a, hi⟩ := gprs h
  exact hi.delivered

theorem C63_finished_is_delivered_gprs_partial (s : Sys) (h : Reach false 128 64 Seg.noExactFinal s)
    (hf : s.tbf.finished = true) (he : s.tbf.win.empty = true) :
    ∃ sent, s.given = sent ++ s.tbf.llc.queue ∧ WithDummies sent s.mob.frames.out ∧ s.mob.frames.acc = [] := by
  obtain ⟨blks, a, hi⟩ := gprs h
  exact hi.complete (hi.empty he) (hi.fin hf).1

theorem C63_idle_is_delivered_gprs_partial (s : Sys) (h : Reach false 128 64 Seg.noExactFinal s)
    (hc : s.tbf.llc.cur = []) (hq : s.tbf.llc.queue = []) (he : s.tbf.win.empty = true) :
    WithDummies s.given s.mob.frames.out ∧ s.mob.frames.acc = [] := by
  obtain ⟨blks, a, hi⟩ := gprs h
  obtain ⟨g, x1, x2, x3⟩ := hi.complete (hi.empty he) hc
  rw [hq, List.append_nil] at x1
  exact ⟨x1 ▸ x2, x3⟩

theorem C63_always_sends_gprs_partial (s : Sys) (h : Reach false 128 64 Seg.noExactFinal s)
    (prev : Option Nat) (prevEdge preempt : Bool) (n : Nat) (fin : Nat → Bool) (hn : LegalLen false n) (hok : Seg.noExactFinal n fin s.tbf.llc) :
    ∃ t r, s.tbf.send false prev prevEdge preempt n fin = some (t, r) ∧ (prev = none → r ≠ none) := by
  obtain ⟨blks, a, hi⟩ := gprs h
  obtain ⟨t, r, _, x1, _, _, _, x5, _⟩ := send_inv hi prev prevEdge preempt n fin true hn (fun _ => hok)
  exact ⟨t, r, x1, x5⟩

theorem C63_all_delivered_gprs_partial (s : Sys) (h : Reach false 128 64 Seg.noExactFinal s) (preempt : Bool)
    (sizes : List Nat) (hl : ∀ n ∈ sizes, LegalLen false n) (henough : 64 + (s.tbf.llc.pending.map (· + 1)).sum ≤ sizes.length) :
    ∃ k t sent, k ≤ sizes.length ∧ rounds false 128 64 preempt (sizes.take k) s = some t ∧ t.given = s.given ∧
      s.given = sent ++ (if t.tbf.finished then t.tbf.llc.queue else []) ∧ WithDummies sent t.mob.frames.out ∧ t.mob.frames.acc = [] := by
  obtain ⟨blks, a, hi⟩ := gprs h
  have ht : todo 128 blks s ≤ sizes.length := by
    have := hi.miss_le
    unfold todo
    have hw : s.tbf.llc.work = (s.tbf.llc.pending.map (· + 1)).sum := rfl
    split <;> omega
  obtain ⟨k, t, b', a', k1, k2, k3, k4, k5⟩ := rounds_spec preempt sizes s blks a hi hl ht
  obtain ⟨sent, x1, x2, x3⟩ := k3.done k5
  exact ⟨k, t, sent, k1, k2, k4, k4 ▸ x1, x2, x3⟩

/-! ### Histories that can be run -/

/-- `give f`; `send n fin heard`; `ack bits`. -/
inductive Act
  | give (f : List Nat)
  | send (n : Nat) (fin heard : Bool)
  | ack (bits : List Bool)

/-- A step, if it is one of `Step`. -/
def act (edge : Bool) (sns ws : Nat) (s : Sys) : Act → Option Sys
  | .give f => if 5 ≤ f.length then some { s with given := s.given ++ [f], tbf := s.tbf.give f } else none
  | .send n fin heard =>
    if 20 ≤ n ∧ (if edge then n ≤ 74 else n ≤ 53) then
      match s.tbf.send edge none false false n (fun _ => fin) with
      | none => none
      | some (t, r) => some { s with tbf := t, mob := s.mob.radio edge sns ws heard r }
    else none
  | .ack bits =>
    if ∀ j, j < s.tbf.win.distance → bits[j]? = some true → s.mob.has sns ws ((s.tbf.win.va + j) % sns) = true then
      some { s with tbf := s.tbf.rcvAck bits }
    else none

def acts (edge : Bool) (sns ws : Nat) : Sys → List Act → Option Sys
  | s, [] => some s
  | s, a :: l => match act edge sns ws s a with | none => none | some t => acts edge sns ws t l

theorem acts_reach {edge : Bool} {sns ws : Nat} {ok} (l : List Act) : ∀ {s t : Sys}, Reach edge sns ws ok s →
    (∀ n fin heard, Act.send n fin heard ∈ l → ∀ x : Llc, ok n (fun _ => fin) x) → acts edge sns ws s l = some t → Reach edge sns ws ok t := by
  induction l with
  | nil => intro s t h _ e; cases e; exact h
  | cons a l ih =>
    intro s t h hok e
    rw [acts] at e
    cases ha : act edge sns ws s a with
    | none => rw [ha] at e; cases e
    | some u =>
      rw [ha] at e
      refine ih (h.step ?_) (fun n f hh hm => hok n f hh (by simp [hm])) e
      cases a with
      | give f =>
        by_cases hc : 5 ≤ f.length
        · rw [act, if_pos hc] at ha; cases ha; exact .give _ _ hc
        · rw [act, if_neg hc] at ha; cases ha
      | send n fin heard =>
        by_cases hc : 20 ≤ n ∧ (if edge then n ≤ 74 else n ≤ 53)
        · rw [act, if_pos hc] at ha
          cases hs : s.tbf.send edge none false false n (fun _ => fin) with
          | none => rw [hs] at ha; cases ha
          | some x =>
            obtain ⟨t', r⟩ := x
            rw [hs] at ha
            cases ha
            exact .send _ none false false n _ heard _ _ hc (hok n fin heard (by simp) _) hs
        · rw [act, if_neg hc] at ha; cases ha
      | ack bits =>
        by_cases hc : ∀ j, j < s.tbf.win.distance → bits[j]? = some true → s.mob.has sns ws ((s.tbf.win.va + j) % sns) = true
        · rw [act, if_pos hc] at ha; cases ha; exact .ack _ _ hc
        · rw [act, if_neg hc] at ha; cases ha

/-- What the examples look at. -/
structure View where
  finished : Bool
  allAcked : Bool
  given : List (List Nat)
  queue : List (List Nat)
  out : List (List Nat)
  deriving DecidableEq

def view (s : Sys) : View := ⟨s.tbf.finished, s.tbf.win.empty, s.given, s.tbf.llc.queue, s.mob.frames.out⟩

theorem seen {edge : Bool} {sns ws : Nat} {ok} (l : List Act) (hok : ∀ n fin heard, Act.send n fin heard ∈ l → ∀ x : Llc, ok n (fun _ => fin) x)
    {v} (h : (acts edge sns ws ⟨[], Tbf.init sns ws, Mob.init⟩ l).map view = some v) : ∃ s, Reach edge sns ws ok s ∧ view s = v := by
  cases hs : acts edge sns ws ⟨[], Tbf.init sns ws, Mob.init⟩ l with
  | none => rw [hs] at h; cases h
  | some s =>
    rw [hs] at h
    exact ⟨s, acts_reach l .start hok hs, by simpa using h⟩

/-- GPRS, negation: frames of 6 and 13 octets in one block of 20 octets, the last one of the TBF, which arrives and is
acknowledged. The second frame is lost. -/
theorem C63_gprs_frame_lost : ∃ s, Reach false 128 64 Any s ∧ s.tbf.finished = true ∧ s.tbf.win.empty = true ∧
    s.given = [List.replicate 6 1, List.replicate 13 2] ∧ s.tbf.llc.queue = [] ∧ s.mob.frames.out = [List.replicate 6 1] := by
  obtain ⟨s, h1, h2⟩ := seen (edge := false) (sns := 128) (ws := 64) (ok := Any)
    [.give (List.replicate 6 1), .give (List.replicate 13 2), .send 20 true true, .ack [true]] (fun _ _ _ _ _ => trivial)
    (v := ⟨true, true, [List.replicate 6 1, List.replicate 13 2], [], [List.replicate 6 1]⟩) (by decide +kernel)
  simp only [view, View.mk.injEq] at h2
  exact ⟨s, h1, h2.1, h2.2.1, h2.2.2.1, h2.2.2.2.1, h2.2.2.2.2⟩

/-! ### Non-vacuity -/

/-- EGPRS: frames of 10 and 30 octets in blocks of 22; the second block is lost, the report says so, it is sent again. -/
example : ∃ s, Reach true 2048 64 Any s ∧
    view s = ⟨true, true, [List.replicate 10 1, List.replicate 30 2], [], [List.replicate 10 1, List.replicate 30 2]⟩ :=
  seen [.give (List.replicate 10 1), .give (List.replicate 30 2), .send 22 false true, .send 22 true false, .ack [true, false],
    .send 22 true true, .ack [true]] (fun _ _ _ _ _ => trivial) (by decide +kernel)

/-- GPRS, a TBF that is kept open: in the end the mobile gets a dummy command. -/
example : ∃ s, Reach false 128 64 Seg.noExactFinal s ∧
    view s = ⟨false, true, [List.replicate 10 1, List.replicate 20 2], [],
      [List.replicate 10 1, List.replicate 20 2, [0x43, 0xc0, 1] ++ List.replicate 18 0x2b]⟩ :=
  seen [.give (List.replicate 10 1), .give (List.replicate 20 2), .send 22 false true, .send 22 false false, .ack [true, false],
    .send 22 false true, .ack [true], .send 22 false true, .ack [true]] (by
      intro n fin heard hm x ⟨k, hk⟩
      simp at hm
      dsimp only at hk
      rw [hk] at hm
      simp at hm) (by decide +kernel)

end Verif.DlService
