import Verif.Spec.Split
/-!
# C44: split EGPRS retransmissions

Downlink: every transmission of a block carries what its header says, except in one
situation (MCS-4, proved to occur). Uplink: the block store reconstructs the payload, with
two exceptions proved to occur.
-/

namespace Verif.Split

open Verif.Cs

/-! ### Downlink -/

/-- Schemes in which a block created in `c` can be sent. -/
def sendable : CS → List CS
  | .mcs1 => [.mcs1]
  | .mcs2 => [.mcs2]
  | .mcs3 => [.mcs3]
  | .mcs4 => [.mcs4, .mcs1]
  | .mcs5 => [.mcs5, .mcs2, .mcs7]
  | .mcs6 => [.mcs6, .mcs3, .mcs9]
  | .mcs7 => [.mcs7, .mcs5, .mcs2]
  | .mcs8 => [.mcs8]
  | .mcs9 => [.mcs9, .mcs6, .mcs3]
  | _ => []

/-- The finite set of states used as invariant. -/
def states : List DlBlk :=
  CS.all.flatMap fun i => (sendable i).flatMap fun l => (sendable i).flatMap fun c =>
    [Ps.ps1, .ps2, .ps3].flatMap fun p =>
      [DlSt.dflt, .firstSent, .secondSent].filterMap fun s =>
        if p ∈ validPs l ∧ (s = .firstSent → l.hdr = .type3 ∧ l ≠ i) then some ⟨i, l, c, p, s⟩ else none

def edge : List CS := [.mcs1, .mcs2, .mcs3, .mcs4, .mcs5, .mcs6, .mcs7, .mcs8, .mcs9]

theorem mem_edge (c : CS) (h : c.isEdge) : c ∈ edge := by
  revert c; decide

theorem closed_new : ∀ c ∈ edge, newBlk c ∈ states := by decide +kernel

theorem closed_retx : (states.all fun b => edge.all fun tx => [true, false].all fun q =>
    (retx b true tx q).any fun b' => b' ∈ states) = true := by decide +kernel

theorem closed_alone : (states.all fun b =>
    (sendAlone b).any fun r => r.1 ∈ states) = true := by decide +kernel

theorem closed_paired : (states.all fun b => b.cur.hdr != .type1 ||
      (sendPaired b b.cur).any fun r => r.1 ∈ states) = true := by decide +kernel

theorem reach_states {b : DlBlk} (h : Reach b) : b ∈ states := by
  induction h with
  | new c hc => exact closed_new c (mem_edge c hc)
  | retx tx q ht _ he ih =>
    have h1 := List.all_eq_true.1 (List.all_eq_true.1 (List.all_eq_true.1 closed_retx _ ih) tx (mem_edge tx ht)) q
      (by cases q <;> simp)
    rw [he] at h1
    simpa using h1
  | tx _ ht ih =>
    cases ht with
    | alone he =>
      have h1 := List.all_eq_true.1 closed_alone _ ih
      rw [he] at h1
      simpa using h1
    | paired hh he =>
      have h1 := List.all_eq_true.1 closed_paired _ ih
      rw [he, hh] at h1
      simpa using h1

/-- What a transmission must look like for a block of `n` octets. -/
def okSent (n : Nat) (s : Sent) : Bool :=
  match s.spb with
  | .noRetx => s.start = 0 ∧ s.len = n
  | .first => s.start = 0 ∧ s.len + s.len = n
  | .second => s.start + s.start = n ∧ s.len = s.start

theorem okSent_correct (data : List Nat) (s : Sent) (h : okSent data.length s = true) : Correct data s := by
  unfold okSent at h
  unfold Correct carried
  cases hs : s.spb <;> rw [hs] at h <;> simp only [decide_eq_true_eq] at h <;> dsimp only
  · rw [h.1, h.2]; simp
  · rw [h.1, show data.length / 2 = s.len by omega]; rfl
  · rw [show data.length / 2 = s.start by omega]
    apply List.take_of_length_le
    rw [List.length_drop]; omega

/-- The one situation with a wrong transmission. -/
def mcs4Trap (b : DlBlk) : Prop := b.init = .mcs4 ∧ b.st = .firstSent ∧ b.cur = .mcs4

instance (b : DlBlk) : Decidable (mcs4Trap b) := by unfold mcs4Trap; infer_instance

theorem good_alone : (states.all fun b => mcs4Trap b || (sendAlone b).all fun r =>
    r.2.all fun s => okSent b.init.dataBytes s) = true := by decide +kernel

theorem good_paired : (states.all fun b => b.cur.hdr != .type1 || (sendPaired b b.cur).all fun r =>
    okSent b.init.dataBytes r.2) = true := by decide +kernel

/-- **Downlink.** Whatever the history of commanded schemes, splits and combinations, each
transmission of a block carries the whole payload, or the half its split indicator names,
outside the situation `mcs4Trap`. -/
theorem C44_dl_correct_partial (b b' : DlBlk) (l : List Sent) (hb : Reach b) (ht : Tx b b' l)
    (hx : ¬ mcs4Trap b) (data : List Nat) (hd : data.length = b.init.dataBytes) :
    ∀ s ∈ l, Correct data s := by
  intro s hs
  apply okSent_correct
  rw [hd]
  have hm := reach_states hb
  cases ht with
  | alone he =>
    have h1 := List.all_eq_true.1 good_alone _ hm
    rw [he] at h1
    simp only [hx, decide_false, Bool.false_or, Option.all_some] at h1
    exact List.all_eq_true.1 h1 s hs
  | paired hh he =>
    have h1 := List.all_eq_true.1 good_paired _ hm
    rw [he, hh] at h1
    simp only [bne_self_eq_false, Bool.false_or, Option.all_some] at h1
    rw [List.mem_singleton.1 hs]; exact h1

/-- The two halves, sent in whatever order and schemes, make up the payload. -/
theorem C44_dl_halves_partial (b1 b1' b2 b2' : DlBlk) (l1 l2 : List Sent) (h1 : Reach b1) (h2 : Reach b2)
    (hi : b1.init = b2.init) (t1 : Tx b1 b1' l1) (t2 : Tx b2 b2' l2) (x1 : ¬ mcs4Trap b1) (x2 : ¬ mcs4Trap b2)
    (data : List Nat) (hd : data.length = b1.init.dataBytes) (s1 s2 : Sent) (m1 : s1 ∈ l1) (m2 : s2 ∈ l2)
    (f : s1.spb = .first) (g : s2.spb = .second) : carried data s1 ++ carried data s2 = data := by
  have c1 := C44_dl_correct_partial b1 b1' l1 h1 t1 x1 data hd s1 m1
  have c2 := C44_dl_correct_partial b2 b2' l2 h2 t2 x2 data (by rw [hd, hi]) s2 m2
  unfold Correct at c1 c2
  rw [f] at c1
  rw [g] at c2
  dsimp only at c1 c2
  rw [c1, c2, List.take_append_drop]

/-- An assertion never fails: every retransmission decision and every transmission succeeds. -/
theorem C44_dl_no_abort (b : DlBlk) (hb : Reach b) :
    (∀ tx q, tx.isEdge → ∃ b', retx b true tx q = some b') ∧
    (∃ b' l, sendAlone b = some (b', l)) ∧
    (b.cur.hdr = .type1 → ∃ b' s, sendPaired b b.cur = some (b', s)) := by
  have hm := reach_states hb
  refine ⟨?_, ?_, ?_⟩
  · intro tx q ht
    have h1 := List.all_eq_true.1 (List.all_eq_true.1 (List.all_eq_true.1 closed_retx _ hm) tx (mem_edge tx ht)) q
      (by cases q <;> simp)
    obtain ⟨x, hx, -⟩ := (Option.any_eq_true _ _).1 h1
    exact ⟨x, hx⟩
  · have h1 := List.all_eq_true.1 closed_alone _ hm
    obtain ⟨x, hx, -⟩ := (Option.any_eq_true _ _).1 h1
    exact ⟨x.1, x.2, hx⟩
  · intro hh
    have h1 := List.all_eq_true.1 closed_paired _ hm
    rw [hh] at h1
    simp only [bne_self_eq_false, Bool.false_or] at h1
    obtain ⟨x, hx, -⟩ := (Option.any_eq_true _ _).1 h1
    exact ⟨x.1, x.2, hx⟩

/-- Two blocks of equal length in one radio block: the scheme chosen for the second one is
the scheme `c` of the radio block. -/
theorem C44_pair_scheme (b b' : DlBlk) (c : CS) (q : Bool) (hb : Reach b) (hc : c.hdr = .type1)
    (hl : b.init.dataBytes = c.dataBytes) (h : retx b true c q = some b') : b'.cur = c := by
  have hm := reach_states hb
  have key : (states.all fun b => edge.all fun c => [true, false].all fun q =>
      !decide (c.hdr = .type1 ∧ b.init.dataBytes = c.dataBytes) ||
      (retx b true c q).all fun b' => b'.cur = c) = true := by decide +kernel
  have he : c.isEdge := by revert hc; cases c <;> decide
  have h1 := List.all_eq_true.1 (List.all_eq_true.1 (List.all_eq_true.1 key _ hm) c (mem_edge c he)) q
    (by cases q <;> simp)
  rw [h] at h1
  simpa [hc, hl] using h1

/-- Of two blocks in one radio block each is sent as a whole, in the scheme of the radio block and without padding in front of its data. -/
theorem C44_pair_plain (b b' : DlBlk) (s : Sent) (hb : Reach b) (hh : b.cur.hdr = .type1) (h : sendPaired b b.cur = some (b', s)) :
    s.cs = b.cur ∧ s.pad = false ∧ s.spb = .noRetx ∧ s.start = 0 ∧ s.len = b.init.dataBytes := by
  have hm := reach_states hb
  have key : (states.all fun b => b.cur.hdr != .type1 || (sendPaired b b.cur).all fun r =>
      decide (r.2.cs = b.cur ∧ r.2.pad = false ∧ r.2.spb = .noRetx ∧ r.2.start = 0 ∧ r.2.len = b.init.dataBytes)) = true := by decide +kernel
  have h1 := List.all_eq_true.1 key _ hm
  rw [h, hh] at h1
  simp only [bne_self_eq_false, Bool.false_or, Option.all_some] at h1
  exact of_decide_eq_true h1

/-- The situation `mcs4Trap` does occur: an MCS-4 block is retransmitted, the link first
wants MCS-1 (first half is sent), then MCS-4 again. The radio block then says "second half"
but carries the octets from 22 to 65 of a block of 44 octets. -/
theorem C44_dl_violated : ∃ b b' l s, Reach b ∧ mcs4Trap b ∧ Tx b b' l ∧ s ∈ l ∧ s.spb = .second ∧
    s.start = 22 ∧ s.len = 44 ∧
    ∀ data : List Nat, data.length = b.init.dataBytes → ∀ stored : List Nat, stored = data ++ List.replicate 30 0 →
      carried stored s ≠ data.drop 22 := by
  have e1 : sendAlone (newBlk .mcs4) = some (⟨.mcs4, .mcs4, .mcs4, .ps2, .dflt⟩, [⟨.mcs4, false, .noRetx, 0, 44, .ps1⟩]) := by decide +kernel
  have e2 : retx ⟨.mcs4, .mcs4, .mcs4, .ps2, .dflt⟩ true .mcs1 true = some ⟨.mcs4, .mcs4, .mcs1, .ps2, .dflt⟩ := by decide +kernel
  have e3 : sendAlone ⟨.mcs4, .mcs4, .mcs1, .ps2, .dflt⟩ = some (⟨.mcs4, .mcs1, .mcs1, .ps1, .firstSent⟩, [⟨.mcs1, false, .first, 0, 22, .ps1⟩]) := by decide +kernel
  have e4 : retx ⟨.mcs4, .mcs1, .mcs1, .ps1, .firstSent⟩ true .mcs4 true = some ⟨.mcs4, .mcs1, .mcs4, .ps1, .firstSent⟩ := by decide +kernel
  have e5 : sendAlone ⟨.mcs4, .mcs1, .mcs4, .ps1, .firstSent⟩ = some (⟨.mcs4, .mcs4, .mcs4, .ps2, .secondSent⟩, [⟨.mcs4, false, .second, 22, 44, .ps1⟩]) := by decide +kernel
  have r := Reach.retx .mcs4 true (by decide) (Reach.tx (Reach.retx .mcs1 true (by decide)
    (Reach.tx (Reach.new .mcs4 (by decide)) (.alone e1)) e2) (.alone e3)) e4
  refine ⟨_, _, _, _, r, ⟨rfl, rfl, rfl⟩, .alone e5, List.mem_singleton.2 rfl, rfl, rfl, rfl, ?_⟩
  intro data hd stored hs h
  have hd : data.length = 44 := hd
  have := congrArg List.length h
  rw [hs] at this
  simp [carried, hd] at this

/-- Puncturing: in every history each EGPRS transmission has a puncturing scheme that is
defined for its coding scheme. -/
theorem C44_dl_puncturing (b b' : DlBlk) (l : List Sent) (hb : Reach b) (ht : Tx b b' l) :
    ∀ s ∈ l, s.ps ∈ validPs s.cs := by
  have g1 : (states.all fun b => (sendAlone b).all fun r => r.2.all fun s => decide (s.ps ∈ validPs s.cs)) = true := by
    decide +kernel
  have g2 : (states.all fun b => b.cur.hdr != .type1 ||
      (sendPaired b b.cur).all fun r => decide (r.2.ps ∈ validPs r.2.cs)) = true := by decide +kernel
  intro s hs
  have hm := reach_states hb
  cases ht with
  | alone he =>
    have h1 := List.all_eq_true.1 g1 _ hm
    rw [he] at h1
    simp only [Option.all_some] at h1
    exact of_decide_eq_true (List.all_eq_true.1 h1 s hs)
  | paired hh he =>
    have h1 := List.all_eq_true.1 g2 _ hm
    rw [he, hh] at h1
    simp only [bne_self_eq_false, Bool.false_or, Option.all_some] at h1
    rw [List.mem_singleton.1 hs]; exact of_decide_eq_true h1

/-! ### Concrete cases -/

/-- An MCS-9 block: sent alone (as MCS-6), nacked, sent as two MCS-3 halves. -/
example : ((sendAlone (newBlk .mcs9)).bind fun r1 => (retx r1.1 true .mcs2 true).bind fun b2 =>
    (sendAlone b2).bind fun r2 => (retx r2.1 true .mcs4 true).bind fun b3 => (sendAlone b3).map fun r3 =>
      (r1.2, r2.2, r3.2)) =
    some ([⟨.mcs6, false, .noRetx, 0, 74, .ps1⟩], [⟨.mcs3, false, .first, 0, 37, .ps1⟩],
      [⟨.mcs3, false, .second, 37, 37, .ps1⟩]) := by decide +kernel

end Verif.Split
