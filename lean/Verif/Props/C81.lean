import Verif.Lemmas.DlStart
/-!
# C81: frames waiting for a mobile get a downlink TBF

A frame the SGSN sends to a mobile starts a downlink TBF, where the mobile listens; if it cannot be told
at this moment the TBF is started as soon as the mobile can be told. A mobile never has two downlink
TBFs in use at once.
-/

namespace Verif.Start
open Verif.Tbf

/-- Frames do not wait in vain: in a history in which there are resources and no TBF is given up,
whenever frames wait for a mobile its downlink TBF is in use, or something is still to come on its
uplink TBF. -/
theorem C81_kept_partial {c : Cfg} {m : Mob} (h : Smooth c m) (hq : 0 < m.queue) :
    (∃ d, m.dl = some d ∧ InUse d) ∨ ∃ u, m.ul = some u ∧ Pending u :=
  h.k.kept hq

/-- … and what is to come starts the TBF, or leaves something to come: in such a history an uplink TBF
with nothing to come (data flows, the mobile is known) never goes with frames that wait without downlink
TBF. -/
theorem C81_idle_partial {c : Cfg} {m : Mob} {u : Ul} (h : Smooth c m) (hu : m.ul = some u) (hf : u.st = .flow)
    (hc : u.cr = true) : m.queue = 0 ∨ ∃ d, m.dl = some d ∧ InUse d := by
  by_cases hq : 0 < m.queue
  · rcases C81_kept_partial h hq with x | ⟨v, hv, _, x⟩
    · exact .inr x
    · rw [hu] at hv; cases hv
      rw [hc, hf] at x
      rcases x with x | x | x <;> cases x
  · exact .inl (by omega)

/-- At most one downlink TBF of a mobile is in use: the older ones are over, in every history. -/
theorem C81_one {c : Cfg} {m : Mob} (h : Reach c m) : ∀ d ∈ m.oldDl, ¬ InUse d := by
  intro d hd hu
  have ho := (h.j.oldDl d hd).1
  unfold InUse at hu; unfold Over at ho
  revert ho
  rcases hu with e | e | e <;> rw [e] <;> simp

/-- No frame is lost or invented on the way: whatever happens to the TBFs, the number of frames that wait
changes only when the SGSN sends one, one is sent or discarded, or records are merged. In every
history. -/
theorem C81_queue {c : Cfg} {m m' : Mob} {op : Op} (h : Reach c m) (hr : Real m op)
    (hs : step c m op = some m') : m'.queue = waiting m.queue op :=
  (step_good h.j hr hs).q

/-- A frame for a mobile that can be told, with resources: afterwards its downlink TBF is in use and the
frame is in the queue. A TBF in use is kept, otherwise one assignment is started. In every history. -/
theorem C81_frame {c : Cfg} {m : Mob} {upg : Bool} (h : Reach c m)
    (hl : (∃ d, m.dl = some d ∧ (InUse d ∨ d.st = .waitRelease)) ∨
      ((∀ d, m.dl = some d → d.st = .waitReuse) ∧ ∀ u, m.ul = some u → Listens u)) :
    ∃ m', step c m (.frame (some upg)) = some m' ∧ m'.queue = m.queue + 1 ∧
      (∃ d, m'.dl = some d ∧ InUse d) ∧
      ((∃ d, m.dl = some d ∧ InUse d) → m' = { m with queue := m.queue + 1 }) ∧
      ((¬ ∃ d, m.dl = some d ∧ InUse d) → ∃ v, m'.log = v :: m.log ∧ Heard m' v) := by
  have hj := h.j
  -- a TBF is started
  have fin : ∀ {m' : Mob} {v}, step c m (.frame (some upg)) = some m' →
      Started { m with queue := m.queue + 1 } v m' → (¬ ∃ d, m.dl = some d ∧ InUse d) →
      ∃ m', step c m (.frame (some upg)) = some m' ∧ m'.queue = m.queue + 1 ∧
        (∃ d, m'.dl = some d ∧ InUse d) ∧
        ((∃ d, m.dl = some d ∧ InUse d) → m' = { m with queue := m.queue + 1 }) ∧
        ((¬ ∃ d, m.dl = some d ∧ InUse d) → ∃ v, m'.log = v :: m.log ∧ Heard m' v) := by
    intro m' v hs hst hn
    obtain ⟨d, hd, hd1, _⟩ := hst.new
    exact ⟨m', hs, hst.queue, ⟨d, hd, .inl hd1⟩, fun x => absurd x hn,
      fun _ => ⟨v, hst.log, (step_good (op := .frame (some upg)) hj trivial hs).w v trivial hst.log⟩⟩
  have dn : ∀ (e : Ev), (e = .addPacch ∨ e = .addCcch) → ∃ d, dlDispatch {} { upg := upg } e = some d := by
    intro e he
    rcases he with rfl | rfl <;> exact ⟨_, rfl⟩
  have scU : ∀ {x : Mob} {u : Ul}, x.ul = some u → ∃ y, sched x .ul = some y := by
    intro x u hu
    simp only [sched, hu]
    cases u.dlAss <;> exact ⟨_, rfl⟩
  have scD : ∀ {x : Mob} {d : Dl}, x.dl = some d → ∃ y, sched x .dl = some y := by
    intro x u hu
    simp only [sched, hu]
    cases u.dlAss <;> exact ⟨_, rfl⟩
  have pac : ∀ {x : Mob} {w : Who}, (∃ y, sched x w = some y) → ∃ y, onPacch x w (some upg) = some y := by
    intro x w ⟨y, hy⟩
    obtain ⟨d, hd⟩ := dn .addPacch (.inl rfl)
    exact ⟨_, by simp only [onPacch, hy, Option.bind_some, hd, Option.map_some]; rfl⟩
  rcases hl with ⟨d, hd, hu⟩ | ⟨hw, hl⟩
  · by_cases hi : InUse d
    · refine ⟨{ m with queue := m.queue + 1 }, ?_, rfl, ⟨d, hd, hi⟩, fun _ => rfl, fun n => absurd ⟨d, hd, hi⟩ n⟩
      simp only [step, frame, hd]
      rcases hi with e | e | e <;> rw [e]
    · have hs : d.st = .waitRelease := hu.resolve_left hi
      obtain ⟨y, hy⟩ := pac (x := { m with queue := m.queue + 1 }) (scD hd)
      refine fin (m' := y) ?_ (onPacch_some hy) ?_
      · simp only [step, frame, hd, hs]
        rw [← hy, hd]
      · rintro ⟨x, hx, hxi⟩
        rw [hd] at hx; cases hx; exact hi hxi
  · have hn : ¬ ∃ d, m.dl = some d ∧ InUse d := by
      rintro ⟨x, hx, hxi⟩
      unfold InUse at hxi
      rw [hw x hx] at hxi
      rcases hxi with e | e | e <;> cases e
    have hfr : frame m (some upg) = reach { m with queue := m.queue + 1 } (some upg) := by
      unfold frame
      cases hd : m.dl with
      | none => rfl
      | some d => simp only [hw d hd]
    have hre : reachable { m with queue := m.queue + 1 } = some true := by
      unfold reachable
      cases hd : m.dl with
      | none =>
        cases hu : m.ul with
        | none => rfl
        | some u =>
          obtain ⟨l1, l2, l3⟩ := hl u hu
          simp [l1, l2, l3]
      | some d =>
        cases hu : m.ul with
        | none => simp [hw d hd]
        | some u =>
          obtain ⟨l1, l2, l3⟩ := hl u hu
          simp [hw d hd, l1, l2, l3]
    rcases Option.eq_none_or_eq_some m.ul with hu | ⟨u, hu⟩
    rotate_left
    · obtain ⟨y, hy⟩ := pac (x := { m with queue := m.queue + 1 }) (scU hu)
      refine fin (m' := y) ?_ (onPacch_some hy) hn
      show frame m (some upg) = _
      rw [hfr]
      unfold reach
      rw [hre]
      simp only [Option.bind_some, if_true, hu, Option.isSome_some]
      rw [← hy, hu]
    · obtain ⟨d, hd⟩ := dn .addCcch (.inr rfl)
      have hy : onPch { m with queue := m.queue + 1 } (some upg) =
          some (attachDl { m with queue := m.queue + 1 } d none) := by
        simp only [onPch, hd, Option.map_some]
      refine fin ?_ (onPch_some hy) hn
      show frame m (some upg) = _
      rw [hfr]
      unfold reach
      rw [hre]
      simp only [Option.bind_some, if_true, hu, Option.isSome_none, Bool.false_eq_true, if_false]
      rw [hu] at hy; exact hy

/-- An assignment is started where the mobile listens. Missing: the confirmation of an older uplink TBF's
final acknowledgement, and the confirmation of an uplink assignment that is not (or no more) that of the
uplink TBF; see `C81_fails_pch`. -/
theorem C81_where_partial {c : Cfg} {m m' : Mob} {op : Op} {v : Option Who} (h : Reach c m) (hr : Real m op)
    (hp : Plain m op) (hs : step c m op = some m') (hv : m'.log = v :: m.log) : Heard m' v :=
  (step_good h.j hr hs).w v hp hv

/-- In every history, an operation starts at most one assignment, and it is sent. -/
theorem C81_sent {c : Cfg} {m m' : Mob} {op : Op} (h : Reach c m) (hr : Real m op)
    (hs : step c m op = some m') : m'.log = m.log ∨ ∃ v, m'.log = v :: m.log ∧ Sent m' v := by
  have hg := step_good h.j hr hs
  rcases hg.l with e | ⟨v, e⟩
  · exact .inl e
  · exact .inr ⟨v, e, hg.s v e⟩

/-! ## Where the code does not do it -/

/-- Checks of concrete histories. -/
def realB : Op → Bool
  | .ul op _ | .oldUl _ op _ => ulReal op
  | .dl op _ | .oldDl _ op _ => dlReal op
  | .request b _ => b == .single
  | .access u _ _ _ _ => u.st == .flow && !u.cr && u.ulAck != .wait && !u.freed
  | _ => true

theorem realB_real {m : Mob} {op : Op} (h : realB op = true) : Real m op := by
  cases op with
  | request b ok => cases b <;> first | trivial | cases h
  | access u _ _ _ _ =>
    simp only [realB, Bool.and_eq_true, beq_iff_eq, Bool.not_eq_true', bne_iff_ne, ne_eq] at h
    exact ⟨h.1.1.1, h.1.1.2, h.1.2, h.2⟩
  | frame r => trivial
  | take => trivial
  | channelRequest ok => trivial
  | _ => exact h

theorem Reach.run {c : Cfg} {m m' : Mob} {l : List Op} (h : Reach c m) (hl : l.all realB = true)
    (hr : run c m l = some m') : Reach c m' := by
  induction l generalizing m with
  | nil => cases hr; exact h
  | cons op l ih =>
    simp only [List.all_cons, Bool.and_eq_true] at hl
    obtain ⟨m1, h1, h2⟩ := Option.bind_eq_some_iff.mp hr
    exact ih (.step h (realB_real hl.1) h1) hl.2 h2

/-- What other mobiles, timers and messages of TBFs do. -/
def Background : Op → Prop
  | .frame _ | .take | .request .. | .access .. => False
  | _ => True

/-- Without resources the frame is put in the queue and that is all: the mobile has no TBF, and no timer
starts one, until the SGSN sends another frame or the mobile asks for something. -/
theorem C81_fails_none (c : Cfg) : Reach c { queue := 1 } ∧
    ∀ op, Background op → step c { queue := 1 } op = some { queue := 1 } := by
  refine ⟨.step (op := .frame none) .start trivial rfl, fun op h => ?_⟩
  cases op with
  | frame r => cases h
  | take => cases h
  | request b ok => cases h
  | access u x y z n => cases h
  | _ => rfl

/-- A TBF in the first seconds of a mobile's access. -/
def fresh : Ul := { st := .flow, ccch := true, cr := false, t3141 := true }

def cfg : Cfg := { ul := { n3101 := 10, n3103 := 4 }, n3105 := 8 }

/-- Frames that wait for the end of the contention resolution are left when T3141 expires. -/
theorem C81_fails_silent_ul :
    Reach cfg { queue := 1 } ∧
    run cfg {} [.access fresh false false false 0, .frame (some false), .ul .t3141 none] = some { queue := 1 } :=
  have h : run cfg {} [.access fresh false false false 0, .frame (some false), .ul .t3141 none]
    = some { queue := 1 } := by decide
  ⟨Reach.start.run rfl h, h⟩

/-- Frames whose assignment was sent in vain are left when X2001 expires. -/
def lostDl : List Op :=
  [.access fresh false false true 0, .ul (.createAck true true) none, .frame (some false),
    .ul (.createDl .msg) none, .ul (.data false true true true) none, .ul (.createAck true true) none,
    .ul (.ctrlAck .ulAck true) none, .dl .timer none]

theorem C81_fails_silent_dl :
    ∃ m, run cfg {} lostDl = some m ∧ Reach cfg m ∧ m = { queue := 1, log := [some .ul] } :=
  have h : run cfg {} lostDl = some { queue := 1, log := [some .ul] } := by decide
  ⟨_, h, Reach.start.run rfl h, rfl⟩

/-- The mobile asks for a new uplink TBF in an acknowledgement of the downlink TBF. The new one and the
old one are both finished and wait for the confirmation; then a frame comes. -/
def twoUl : List Op :=
  [.access fresh false false true 0, .ul (.createAck true true) none, .frame (some false),
    .ul (.createDl .msg) none, .ul (.ctrlAck .dlAss true) none, .take, .channelRequest true,
    .dl (.createUl .msg) (some false), .dl (.ctrlAck .ulAss true) (some false),
    .dl (.ev .lastDlSent) none, .dl (.dlAck true) none, .dl .timer none, .dl .timer none,
    .ul (.data false true true true) none, .ul (.createAck true true) none,
    .oldUl 0 (.data false true true true) none, .oldUl 0 (.createAck true true) none, .frame (some false)]

/-- An assignment is sent on the PCH to a mobile that has an uplink TBF: when the final acknowledgement of
an older uplink TBF is confirmed. -/
theorem C81_fails_pch :
    ∃ m m', Reach cfg m ∧ Real m (.oldUl 0 (.ctrlAck .ulAck true) (some false)) ∧
      step cfg m (.oldUl 0 (.ctrlAck .ulAck true) (some false)) = some m' ∧
      m'.log = none :: m.log ∧ ¬ Heard m' none := by
  obtain ⟨m, hm⟩ : ∃ m, run cfg {} twoUl = some m := ⟨_, rfl⟩
  have hm' : run cfg {} twoUl = some ((run cfg {} twoUl).getD {}) := by rw [hm]; rfl
  refine ⟨_, _, Reach.start.run rfl hm', rfl, rfl, by decide, ?_⟩
  show ¬ (_ = none)
  decide

/-! ## The hypotheses are met -/

/-- A frame for a mobile whose contention is not resolved: it waits, and gets its TBF with the
acknowledgement that resolves it. -/
example : ∃ m m', Smooth cfg m ∧ m.queue = 1 ∧ m.dl = none ∧ Smooth cfg m' ∧ m'.queue = 1 ∧
    ∃ d, m'.dl = some d ∧ d.st = .assign := by
  have h0 : Smooth cfg _ := .step (op := .access fresh false false true 0) .start ⟨rfl, rfl, by decide, rfl⟩ trivial rfl
  have h1 : Smooth cfg _ := .step (op := .frame (some false)) h0 trivial nofun rfl
  refine ⟨_, _, h1, rfl, rfl, .step (op := .ul (.createAck true true) (some false)) h1 rfl ⟨nofun, ?_⟩ rfl, rfl, _, rfl, rfl⟩
  intro u _ hl
  exact hl

/-- A mobile without TBFs can be told, on the PCH. -/
example : ∃ m', step cfg {} (.frame (some false)) = some m' ∧ m'.log = [none] :=
  ⟨_, rfl, rfl⟩

example : Plain {} (.frame (some false)) := trivial

/-- An older downlink TBF, while the next one is assigned on its PACCH. -/
example : ∃ m, Reach cfg m ∧ m.oldDl.length = 1 ∧ m.log = [some .dl, none] := by
  have h : ∃ m, run cfg {} [.frame (some false), .dl (.ev .pcuifCnf) none, .dl .timer none,
      .dl (.ev .lastDlSent) none, .dl (.dlAck true) (some false)] = some m ∧ m.oldDl.length = 1 ∧
      m.log = [some .dl, none] := ⟨_, rfl, rfl, rfl⟩
  obtain ⟨m, h1, h2⟩ := h
  exact ⟨m, Reach.start.run rfl h1, h2⟩

end Verif.Start
