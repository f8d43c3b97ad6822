import Verif.Lemmas.Sched
/-!
# C27: A GPRS-only mobile can follow the downlink
-/

namespace Verif.Sched

open Verif.Cs

theorem idle_attached {c : Cfg} {e : Env} (h : gprsAttached e = true) : idleBlock c e = .dummy := by
  unfold idleBlock
  have : anyTbf e = true := by
    unfold gprsAttached at h
    unfold anyTbf
    rw [List.any_eq_true] at h ⊢
    obtain ⟨i, hi, hx⟩ := h
    refine ⟨i, hi, ?_⟩
    rw [Bool.or_eq_true] at hx ⊢
    rcases hx with h | h
    · left; cases hu : e.ul i <;> simp_all
    · right; cases hd : e.dl i <;> simp_all
  rw [this]; rfl

/-- A block that is not coded with CS-1..4 advances the counter, and never when it is at 17. -/
theorem rts_not_cs14 {c : Cfg} {e : Env} {s s1 : St} {o : Out} (hs : s.Ok) (h : rts c e s = some (s1, o))
    (hg : GprsSane e) (ha : gprsAttached e = true) (hn : ¬ o.blk.sentCs14) :
    s1.noCs14 = s.noCs14 + 1 ∧ s1.noCs14 ≤ 17 := by
  have hok := rts_ok h hs
  obtain ⟨b, hb, rfl, rfl⟩ := rts_some h
  refine ⟨?_, hok.cs⟩
  rcases selBlock_some hb with ⟨m, _, h3, _, _⟩ | ⟨tfi, t, x, _, h2, h3, h4, h5⟩ | ⟨_, _, h3, _⟩
  · exact absurd (by rw [h3]; trivial) hn
  · have hk := selDl_some hs.dl h2
    have he : t.egprs = true := by
      cases he : t.egprs with
      | true => rfl
      | false =>
        refine absurd ?_ hn
        show b.blk.sentCs14
        rw [h4]
        exact radioCs_gprs _ (dataCs_gprs hg hk.1 hk.2.2.1 he h3)
    show (if b.isEgprs && gprsAttached e then s.noCs14 + 1 else 0) = s.noCs14 + 1
    rw [h5, he, ha]; rfl
  · refine absurd ?_ hn
    show b.blk.sentCs14
    rw [h3, idle_attached ha]
    trivial

theorem Trace.not_cs14 {c : Cfg} {s s' : St} {tr : List (St × Env × Out)} (h : Trace c s tr s') (hs : s.Ok)
    (hall : ∀ x ∈ tr, GprsSane x.2.1 ∧ gprsAttached x.2.1 = true ∧ ¬ x.2.2.blk.sentCs14) :
    s'.noCs14 = s.noCs14 + tr.length ∧ s'.noCs14 ≤ 17 := by
  induction h with
  | nil => exact ⟨rfl, hs.cs⟩
  | cons e o u a hr _ ih =>
    have h1 := hall _ List.mem_cons_self
    have h2 := rts_not_cs14 (hs.any u a) hr h1.1 h1.2.1 h1.2.2
    have h3 := ih (rts_ok hr (hs.any u a)) (fun x hx => hall x (List.mem_cons_of_mem _ hx))
    have h4 : _ = _ + 1 := h2.1
    dsimp only at h4
    refine ⟨?_, h3.2⟩
    rw [h3.1, List.length_cons, h4]
    omega

/-- C27: in every history of a PDCH, of any 18 consecutive blocks during which a TBF of a GPRS-only
mobile is attached, at least one is really sent and coded with CS-1..4. -/
theorem C27_resync (c : Cfg) (s : St) (pre mid post : List (St × Env × Out))
    (h : Trace c {} (pre ++ mid ++ post) s) (hlen : mid.length = 18)
    (hsane : ∀ x ∈ mid, GprsSane x.2.1) (hatt : ∀ x ∈ mid, gprsAttached x.2.1 = true) :
    ∃ x ∈ mid, x.2.2.blk.sentCs14 := by
  apply Classical.byContradiction
  intro hno
  obtain ⟨s1, h1, _⟩ := Trace.split (pre ++ mid) h
  obtain ⟨s2, h2, h3⟩ := Trace.split pre h1
  have := h3.not_cs14 (h2.ok init_ok) (fun x hx => ⟨hsane x hx, hatt x hx, fun hx' => hno ⟨x, hx, hx'⟩⟩)
  omega

/-! Instance: an EGPRS and a GPRS TBF, both with data; 18 blocks. -/

def exWin : RlcDl.Win := RlcDl.Win.init 128 64
def exMs (egprs : Bool) : Ms.Ms := if egprs then { mode := .egprs, curUl := .mcs1, curDl := .mcs9 } else { mode := .gprs, curUl := .cs1, curDl := .cs2 }
def exDl (id : Nat) (egprs : Bool) : DlT :=
  { id, st := .flow, egprs, ctrlTs := true, ackLost := egprs, txCounter := 0, ackRequested := false, lastPoll := none, lastDrained := none, haveData := true, w := exWin, blk := fun _ => if egprs then ⟨.mcs1, .mcs1, .mcs1⟩ else ⟨.cs1, .cs1, .cs1⟩, ms := exMs egprs, few := false }
def exCfg : Cfg := { t3190 := 5000, x2031 := 2000, arq1 := true, preempt := true, cell := {}, idleC0 := false }
def exEnv : Env :=
  { fn := 0, block := 0, ul := fun _ => none, dl := fun i => if i = 0 then some (exDl 1 true) else if i = 5 then some (exDl 2 false) else none, poll := fun _ => none, trxUl := [], trxDl := [], can := fun _ _ => true, paging := false, c0 := true, single := true }

/-- Blocks of `n` requests with the same snapshot. -/
def exRun : Nat → St → List Block
  | 0, _ => []
  | n + 1, s => match rts exCfg exEnv s with
    | none => []
    | some (s1, o) => o.blk :: exRun n s1

example : exRun 18 {} = List.replicate 17 (.data 0 true .mcs6) ++ [.data 5 false .cs2] := by decide +kernel
example : gprsAttached exEnv = true := by decide
example : GprsSane exEnv := by
  intro i _ t ht
  simp only [exEnv] at ht
  split at ht
  · cases ht; exact ⟨nofun, by decide⟩
  · split at ht
    · cases ht; exact ⟨fun _ n => ⟨.inl rfl, .inl rfl, .inl rfl⟩, by decide⟩
    · cases ht

end Verif.Sched
