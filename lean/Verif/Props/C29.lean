import Verif.Lemmas.Sched
/-!
# C29: Who gets the downlink block
-/

namespace Verif.Sched

open Verif.Cs

/-- Restriction of the coding scheme for a request: CS-1..4 after 17 blocks without, GMSK if the
USF is for a mobile that is not in EGPRS mode. -/
def reqOf (x : St × Env × Out) : Kind :=
  if x.1.noCs14 = 17 then .gprs
  else match x.2.2.usfTbf with
    | some t => if t.mode = .egprs then .egprs else .egprsGmsk
    | none => .egprs

/-- The TBF with this TFI is ready and none that is ready is more urgent. -/
def TopReady (c : Cfg) (f : Nat) (x : St × Env × Out) : Prop :=
  ∃ t, x.2.1.dl f = some t ∧ DlReady c x.2.1.fn (reqOf x) t ∧
    ∀ j < 32, ∀ u, x.2.1.dl j = some u → DlReady c x.2.1.fn (reqOf x) u →
      urgency c x.2.1.fn u ≤ urgency c x.2.1.fn t

/-- TFIs served with data blocks in a history. -/
def served (tr : List (St × Env × Out)) : List Nat :=
  tr.filterMap fun x => match x.2.2.blk with
    | .data tfi _ _ => some tfi
    | _ => none

theorem age_iff (last : Option Nat) (fn : Nat) (d : Int) : Age last fn d ↔ d = framesSince last fn := by
  unfold Age framesSince Fn.H
  cases last with
  | none => exact Iff.rfl
  | some l =>
    dsimp only
    constructor
    · rintro ⟨⟨k, hk⟩, h1, h2⟩
      split <;> omega
    · intro h
      refine ⟨⟨((fn : Int) - l - d) / 2715648, ?_⟩, ?_, ?_⟩ <;> (split at h <;> omega)

theorem age_gt (last : Option Nat) (fn : Nat) (n : Int) : (∃ d, Age last fn d ∧ d > n) ↔ framesSince last fn > n := by
  constructor
  · rintro ⟨d, h1, h2⟩; rw [age_iff] at h1; omega
  · intro h; exact ⟨_, (age_iff _ _ _).2 rfl, h⟩

theorem age_le (last : Option Nat) (fn : Nat) (n : Int) : (∃ d, Age last fn d ∧ d ≤ n) ↔ framesSince last fn ≤ n := by
  constructor
  · rintro ⟨d, h1, h2⟩; rw [age_iff] at h1; omega
  · intro h; exact ⟨_, (age_iff _ _ _).2 rfl, h⟩

/-- The conversion of milliseconds to frames of 4.615 ms, which is used for the thresholds, is
right up to 0.4 % and one frame. -/
theorem C29_frames (ms : Nat) : msecsToFrames ms * 4615 ≤ ms * 1000 ∧
    ms * 1000 < (msecsToFrames ms + 1) * 4615 + 5 * ms := by
  unfold msecsToFrames
  omega

theorem prio_urgency (c : Cfg) (fn : Nat) (t : DlT) : (t.prio c fn).code = urgency c fn t := by
  unfold DlT.prio urgency
  have h1 : (t.ctrlTs && t.needPoll) = true ↔ PollDue t := by
    unfold DlT.needPoll PollDue pollAckAfter
    simp only [Bool.and_eq_true, Bool.or_eq_true, decide_eq_true_eq, or_assoc]
  have h2 : (t.ctrlTs && decide (framesSince t.lastPoll fn > (msecsToFrames (min (c.t3190 / 2) c.x2031) : Nat)) &&
      decide (msecsToFrames (min (c.t3190 / 2) c.x2031) > 0)) = true ↔ Old c fn t := by
    unfold Old
    rw [age_gt]
    simp only [Bool.and_eq_true, decide_eq_true_eq]
    constructor
    · rintro ⟨⟨a, b⟩, d⟩; exact ⟨a, d, b⟩
    · rintro ⟨a, d, b⟩; exact ⟨⟨a, b⟩, d⟩
  have h3 : (t.st == .flow && t.haveData || t.w.resendNeeded.isSome) = true ↔ HasWork t := by
    unfold HasWork
    simp only [Bool.or_eq_true, Bool.and_eq_true, beq_iff_eq, Option.isSome_iff_exists]
  have h4 : (t.ctrlTs && decide (framesSince t.lastPoll fn > (msecsToFrames 200 : Nat)) && t.keepOpen c fn) = true ↔
      KeptOpen c fn t := by
    unfold KeptOpen DlT.keepOpen
    rw [age_gt, age_le]
    simp only [Bool.and_eq_true, decide_eq_true_eq, and_assoc]
  have h5 : (!t.w.empty) = true ↔ Unacked t := by
    unfold Unacked RlcDl.Win.empty
    simp
  dsimp only
  by_cases a1 : PollDue t
  · rw [if_pos (h1.2 a1), if_pos a1]; rfl
  rw [if_neg (mt h1.1 a1), if_neg a1]
  by_cases a2 : Old c fn t
  · rw [if_pos (h2.2 a2), if_pos a2]; rfl
  rw [if_neg (mt h2.1 a2), if_neg a2]
  by_cases a3 : HasWork t
  · rw [if_pos (h3.2 a3), if_pos a3]; rfl
  rw [if_neg (mt h3.1 a3), if_neg a3]
  by_cases a4 : KeptOpen c fn t
  · rw [if_pos (h4.2 a4), if_pos a4]; rfl
  rw [if_neg (mt h4.1 a4), if_neg a4]
  by_cases a5 : Unacked t
  · rw [if_pos (h5.2 a5), if_pos a5]; rfl
  rw [if_neg (mt h5.1 a5), if_neg a5]; rfl

theorem prio_none_iff (c : Cfg) (fn : Nat) (t : DlT) : t.prio c fn = .none ↔ urgency c fn t = 0 := by
  rw [← prio_urgency]
  cases t.prio c fn <;> decide

theorem canGmsk_iff (c : Cfg) (fn : Nat) (t : DlT) : t.canGmsk (t.prio c fn) = true ↔
    (t.egprs = true → PollDue t ∨ (¬ Old c fn t ∧ (t.st = .flow ∧ t.haveData = true) ∧ t.w.resendNeeded = none)) := by
  have hu := prio_urgency c fn t
  unfold DlT.canGmsk
  cases he : t.egprs with
  | false => simp
  | true =>
    simp only [Bool.not_true, Bool.false_eq_true, if_false, forall_const]
    unfold urgency at hu
    by_cases a1 : PollDue t
    · rw [if_pos a1] at hu
      generalize t.prio c fn = p at *
      cases p <;> simp_all [Prio.code]
    rw [if_neg a1] at hu
    by_cases a2 : Old c fn t
    · rw [if_pos a2] at hu
      generalize t.prio c fn = p at *
      cases p <;> simp_all [Prio.code]
    rw [if_neg a2] at hu
    by_cases a3 : HasWork t
    · rw [if_pos a3] at hu
      have hp : t.prio c fn = .newData := by
        generalize t.prio c fn = p at *
        cases p <;> simp_all [Prio.code]
      rw [hp]
      simp only [Option.isNone_iff_eq_none, a1, a2, false_or, not_false_eq_true, true_and]
      refine ⟨fun h => ⟨?_, h⟩, fun h => h.2⟩
      rcases a3 with h' | ⟨b, hb⟩
      · exact h'
      · rw [h] at hb; cases hb
    · rw [if_neg a3] at hu
      have hno : ¬ (t.st = .flow ∧ t.haveData = true) := fun h => a3 (.inl h)
      have hp : t.prio c fn ≠ .newData ∧ t.prio c fn ≠ .control := by
        generalize t.prio c fn = p at *
        have : p.code ≤ 2 := by
          rw [hu]; split
          · omega
          · split <;> omega
        constructor
        · rintro rfl
          exact absurd this (by decide)
        · rintro rfl
          exact absurd this (by decide)
      constructor
      · intro h; split at h
        · exact absurd (by assumption) hp.2
        · exact absurd (by assumption) hp.1
        · cases h
      · rintro (h | h)
        · exact absurd h a1
        · exact absurd h.2.1 hno

theorem dlPrio_iff (c : Cfg) (fn : Nat) (req : Kind) (t : DlT) :
    (DlReady c fn req t → dlPrio c fn req t = some (t.prio c fn)) ∧
    (¬ DlReady c fn req t → dlPrio c fn req t = none) := by
  have hz := prio_none_iff c fn t
  have hg := canGmsk_iff c fn t
  unfold dlPrio DlReady
  constructor
  · rintro ⟨h1, h2, h3, h4⟩
    rw [if_neg h1, if_neg (by rintro ⟨a, b⟩; rw [h3 a] at b; cases b), if_neg (by rw [hz]; omega), if_neg]
    rintro ⟨a, b⟩
    rw [hg.2 (h4 a)] at b
    cases b
  · intro hn
    by_cases h1 : t.st = .other
    · rw [if_pos h1]
    rw [if_neg h1]
    by_cases h2 : req = .gprs ∧ t.egprs = true
    · rw [if_pos h2]
    rw [if_neg h2]
    by_cases h3 : t.prio c fn = .none
    · rw [if_pos h3]
    rw [if_neg h3]
    by_cases h4 : req = .egprsGmsk ∧ t.canGmsk (t.prio c fn) = false
    · rw [if_pos h4]
    exfalso
    refine hn ⟨h1, by rw [hz] at h3; omega, fun a => ?_, fun a => ?_⟩
    · cases he : t.egprs with
      | false => rfl
      | true => exact absurd ⟨a, he⟩ h2
    · exact hg.1 (by
        cases hc : t.canGmsk (t.prio c fn) with
        | true => rfl
        | false => exact absurd ⟨a, hc⟩ h4)

theorem dlRank_ready {c : Cfg} {fn : Nat} {req : Kind} {dl : Nat → Option DlT} {j : Nat} {u : DlT} (hu : dl j = some u) :
    (DlReady c fn req u → dlRank c fn req dl j = urgency c fn u) ∧
    (¬ DlReady c fn req u → dlRank c fn req dl j = 0) := by
  unfold dlRank
  rw [hu]
  dsimp only
  constructor
  · intro h
    rw [(dlPrio_iff c fn req u).1 h]
    exact prio_urgency c fn u
  · intro h
    rw [(dlPrio_iff c fn req u).2 h]

theorem reqOf_eq {c : Cfg} {e : Env} {s s1 : St} {o : Out} (h : rts c e s = some (s1, o)) :
    reqKind s.gprsOnly (selUsf e s s.gprsOnly).usf = reqOf (s, e, o) := by
  obtain ⟨b, hb, rfl, rfl⟩ := rts_some h
  unfold reqKind reqOf St.gprsOnly resync
  dsimp only
  by_cases h17 : s.noCs14 = 17
  · rw [if_pos h17, h17]; rfl
  · rw [if_neg h17, if_neg (by simpa using h17)]
    cases (selUsf e s (s.noCs14 == 18 - 1)).usf with
    | none => rfl
    | some t => dsimp only; cases t.mode <;> rfl

/-- The data block of one request. -/
theorem rts_data {c : Cfg} {e : Env} {s s1 : St} {o : Out} (hs : s.Ok) (h : rts c e s = some (s1, o)) :
    (∃ k g cs t, o.blk = .data k g cs ∧ k < 32 ∧ s1.nextDl = (k + 1) % 32 ∧ e.dl k = some t ∧ g = t.egprs ∧
      0 < dlRank c e.fn (reqOf (s, e, o)) e.dl k ∧
      ∀ j < 32, dlRank c e.fn (reqOf (s, e, o)) e.dl j ≤ dlRank c e.fn (reqOf (s, e, o)) e.dl k ∧
        (dist s.nextDl j < dist s.nextDl k →
          dlRank c e.fn (reqOf (s, e, o)) e.dl j < dlRank c e.fn (reqOf (s, e, o)) e.dl k)) ∨
    ((∀ k g cs, o.blk ≠ .data k g cs) ∧ s1.nextDl = s.nextDl ∧
      ((∃ m, o.blk = .ctrl m) ∨ ∀ j < 32, dlRank c e.fn (reqOf (s, e, o)) e.dl j = 0)) := by
  have hreq := reqOf_eq h
  obtain ⟨b, hb, rfl, rfl⟩ := rts_some h
  rw [hreq] at hb
  generalize reqOf _ = req at *
  rcases selBlock_some hb with ⟨m, _, h3, _, h4⟩ | ⟨tfi, t, x, _, h2, h3, h4, h5⟩ | ⟨_, h2, h3, _⟩
  · right
    refine ⟨fun k g cs hk => ?_, h4, .inl ⟨m, h3⟩⟩
    dsimp only at hk
    rw [h3] at hk; cases hk
  · left
    have hk := selDl_some hs.dl h2
    exact ⟨tfi, t.egprs, _, t, h4, hk.1, hk.2.1, hk.2.2.1, rfl, hk.2.2.2.1, hk.2.2.2.2⟩
  · right
    have hk := selDl_none hs.dl h2
    refine ⟨fun k g cs he => ?_, hk.1, .inr hk.2⟩
    dsimp only at he
    rw [h3] at he
    unfold idleBlock at he
    split at he <;> cases he

/-- C29, choice: in every history, a data block goes to a TBF that is ready and such that no TBF
that is ready is more urgent. -/
theorem C29_most_urgent (c : Cfg) (s : St) (tr : List (St × Env × Out)) (h : Trace c {} tr s)
    (x : St × Env × Out) (hx : x ∈ tr) (k : Nat) (g : Bool) (cs : CS) (hb : x.2.2.blk = .data k g cs) :
    k < 32 ∧ TopReady c k x := by
  suffices H : ∀ s0 s1 tr, Trace c s0 tr s1 → s0.Ok → ∀ x ∈ tr, ∀ k g cs, x.2.2.blk = .data k g cs →
      k < 32 ∧ TopReady c k x from H _ _ tr h init_ok x hx k g cs hb
  intro s0 s1 tr h
  induction h with
  | nil => intro _ x hx; cases hx
  | @cons s s1 s2 tr e o u a hr _ ih =>
    intro hs x hx k g cs hb
    rcases List.mem_cons.1 hx with rfl | hx
    · rcases rts_data (hs.any u a) hr with ⟨k', g', cs', t, h1, h2, _, h4, _, h6, h7⟩ | ⟨h1, _⟩
      · dsimp only at hb
        rw [h1] at hb
        cases hb
        refine ⟨h2, t, h4, ?_⟩
        dsimp only
        by_cases hrd : DlReady c e.fn (reqOf ({ s with ulc := u, app := a }, e, o)) t
        · refine ⟨hrd, fun j hj v hv hvr => ?_⟩
          have := (h7 j hj).1
          rw [(dlRank_ready hv).1 hvr, (dlRank_ready h4).1 hrd] at this
          exact this
        · rw [(dlRank_ready h4).2 hrd] at h6; omega
      · exact absurd hb (h1 k g cs)
    · exact ih (rts_ok hr (hs.any u a)) x hx k g cs hb

/-- C29, no idling: a block is neither data nor a control message only if no TBF is ready. -/
theorem C29_no_idle (c : Cfg) (s s1 : St) (tr : List (St × Env × Out)) (h : Trace c {} tr s) (e : Env) (o : Out)
    (hr : rts c e s = some (s1, o)) (hb : o.blk = .dummy ∨ o.blk = .empty) :
    ∀ j < 32, ∀ u, e.dl j = some u → ¬ DlReady c e.fn (reqOf (s, e, o)) u := by
  intro j hj u hu hrd
  rcases rts_data (h.ok init_ok) hr with ⟨k', g', cs', t, h1, _⟩ | ⟨_, _, ⟨m, h3⟩ | h3⟩
  · rw [h1] at hb; rcases hb with h | h <;> cases h
  · rw [h3] at hb; rcases hb with h | h <;> cases h
  · have := h3 j hj
    rw [(dlRank_ready hu).1 hrd] at this
    have := hrd.2.1
    omega

theorem Trace.dlRound {c : Cfg} {s s' : St} {tr : List (St × Env × Out)} (h : Trace c s tr s') (hs : s.Ok)
    {f : Nat} (hf : f < 32) (hw : ∀ x ∈ tr, TopReady c f x) (hno : f ∉ served tr) : Round f s.nextDl (served tr) := by
  induction h with
  | nil => exact .nil _
  | @cons s s1 s2 tr e o u a hr _ ih =>
    have hok := rts_ok hr (hs.any u a)
    have hrest : ∀ x ∈ tr, TopReady c f x := fun x hx => hw x (List.mem_cons_of_mem _ hx)
    obtain ⟨t, ht, hrd, hmax⟩ := hw _ List.mem_cons_self
    dsimp only at ht hrd hmax
    rcases rts_data (hs.any u a) hr with ⟨k, g, cs, t', h1, h2, h3, h4, _, h6, h7⟩ | ⟨h1, h2, _⟩
    · have hsv : served (({ s with ulc := u, app := a }, e, o) :: tr) = k :: served tr := by
        unfold served; rw [List.filterMap_cons]; dsimp only; rw [h1]
      rw [hsv] at hno ⊢
      have hkf : k ≠ f := fun h => hno (h ▸ List.mem_cons_self)
      have h8 := ih hok hrest (fun h => hno (List.mem_cons_of_mem _ h))
      rw [h3] at h8
      refine .cons hs.dl h2 ?_ h8
      have hrd' : DlReady c e.fn (reqOf ({ s with ulc := u, app := a }, e, o)) t' :=
        Classical.byContradiction fun hn => by rw [(dlRank_ready h4).2 hn] at h6; omega
      have hm := hmax k h2 t' h4 hrd'
      rw [← (dlRank_ready h4).1 hrd', ← (dlRank_ready ht).1 hrd] at hm
      rcases Nat.lt_trichotomy (dist s.nextDl k) (dist s.nextDl f) with h9 | h9 | h9
      · exact h9
      · exact absurd (by unfold dist at h9; have := hs.dl; omega) hkf
      · have := (h7 f hf).2 h9
        omega
    · have hsv : served (({ s with ulc := u, app := a }, e, o) :: tr) = served tr := by
        unfold served
        rw [List.filterMap_cons]
        dsimp only
        cases hb : o.blk with
        | data k g cs => exact absurd hb (h1 k g cs)
        | _ => rfl
      rw [hsv] at hno ⊢
      have h8 := ih hok hrest hno
      rw [h2] at h8
      exact h8

/-- C29, rotation: in any stretch of a history in which a TBF is always among the most urgent ready
ones and is not served, every other TBF is served at most once: it waits for at most one full
round. -/
theorem C29_fair (c : Cfg) (s : St) (pre mid post : List (St × Env × Out))
    (h : Trace c {} (pre ++ mid ++ post) s) (f : Nat) (hf : f < 32) (hw : ∀ x ∈ mid, TopReady c f x)
    (hno : f ∉ served mid) : (served mid).Nodup ∧ (served mid).length ≤ 31 := by
  obtain ⟨s1, h1, _⟩ := Trace.split (pre ++ mid) h
  obtain ⟨s2, h2, h3⟩ := Trace.split pre h1
  have hr := h3.dlRound (h2.ok init_ok) hf hw hno
  have hn := hr.nodup hf
  refine ⟨hn.1, ?_⟩
  have hsub : (f :: served mid) ⊆ List.range 32 := by
    intro x hx
    rw [List.mem_range]
    rcases List.mem_cons.1 hx with rfl | hx
    · exact hf
    · exact (hr.near hf x hx).1
  have hnd : (f :: served mid).Nodup := List.nodup_cons.2 ⟨hn.2, hn.1⟩
  have := hnd.length_le_of_subset hsub
  simp only [List.length_cons, List.length_range] at this
  omega

/-! Instance: three TBFs with data, one of them more urgent for a poll. -/

def exWin29 : RlcDl.Win := RlcDl.Win.init 128 64
def exDl29 (id : Nat) (req : Bool) : DlT :=
  { id, st := .flow, egprs := false, ctrlTs := true, ackLost := false, txCounter := 0, ackRequested := req, lastPoll := none, lastDrained := none, haveData := true, w := exWin29, blk := fun _ => ⟨.cs1, .cs1, .cs1⟩, ms := { mode := .gprs, curUl := .cs1, curDl := .cs2 }, few := false }
def exEnv29 (req : Bool) : Env :=
  { fn := 0, block := 0, ul := fun _ => none, dl := fun i => if i = 2 then some (exDl29 1 false) else if i = 7 then some (exDl29 2 req) else if i = 30 then some (exDl29 3 false) else none, poll := fun _ => none, trxUl := [], trxDl := [], can := fun _ _ => true, paging := false, c0 := true, single := true }
def exCfg29 : Cfg := { t3190 := 5000, x2031 := 2000, arq1 := true, preempt := true, cell := {}, idleC0 := false }
def exRun29 : List Bool → St → List Block
  | [], _ => []
  | q :: l, s => match rts exCfg29 (exEnv29 q) s with
    | none => []
    | some (s1, o) => o.blk :: exRun29 l s1

example : exRun29 [false, false, false, false, true, true, false] {} =
    [.data 2 false .cs2, .data 7 false .cs2, .data 30 false .cs2, .data 2 false .cs2, .data 7 false .cs2,
     .data 7 false .cs2, .data 30 false .cs2] := by decide +kernel

end Verif.Sched
