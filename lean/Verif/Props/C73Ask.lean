import Verif.Props.C73
/-!
C73, the request: what the PCU of a mobile asks for is what the other PCU answers, and the answer is what the mobile waits for.
-/

namespace Verif.Nacc

theorem enterSi_wait {w : World} {c : Ctx} {g : Cgi} (h : .askSi g ∈ (enterSi w c).2) :
    (enterSi w c).1.st = .requestSi ∧ (enterSi w c).1.cgi = g := by
  unfold enterSi at h ⊢
  split at h
  · cases h
  · rename_i ha
    rw [if_neg ha]
    dsimp only at h ⊢
    split at h
    · cases h
    · split at h
      · cases h
      · split at h
        · rename_i hr
          rw [if_pos hr]
          rcases List.mem_cons.1 h with h | h
          · injection h with h
            exact ⟨rfl, h.symm⟩
          · cases h
        · cases h

theorem enterResolve_wait {w : World} {c : Ctx} {g : Cgi} (h : .askSi g ∈ (enterResolve w c).2) :
    (enterResolve w c).1.st = .requestSi ∧ (enterResolve w c).1.cgi = g := by
  unfold enterResolve at h ⊢
  split at h
  · cases h
  · rename_i ha
    rw [if_neg ha]
    dsimp only at h ⊢
    split at h
    · rename_i g' hn
      exact enterSi_wait h
    · split at h
      · rcases List.mem_cons.1 h with h | h <;> cases h
      · cases h

/-- When the system information of a cell is asked for, the procedure waits for that of this cell. -/
theorem askSi_wait {lac ci : Nat} {x : Option Ctx} {e : Ev} {g : Cgi} (h : .askSi g ∈ (step lac ci x e).2) :
    ∃ c, (step lac ci x e).1 = some c ∧ c.st = .requestSi ∧ c.cgi = g := by
  unfold step at h ⊢
  split at h
  · rename_i w n
    unfold notify at h ⊢
    dsimp only at h ⊢
    split at h
    · rename_i hi
      rw [if_pos hi]
      split at h
      · cases h
      · cases h
      · rename_i k hk
        exact ⟨_, rfl, enterResolve_wait h⟩
    · rename_i hi
      rw [if_neg hi]
      refine ⟨_, rfl, ?_⟩
      unfold retrans at h ⊢
      split at h
      · cases h
      · cases h
      · split at h
        · rename_i hne
          rw [if_pos hne]
          exact enterResolve_wait h
        · cases h
  · cases h
  · rename_i w k r c
    refine ⟨_, rfl, ?_⟩
    unfold addr at h ⊢
    split at h
    · rename_i hc
      rw [if_pos hc]
      split at h
      · exact enterSi_wait h
      · cases h
    · cases h
  · cases h
  · rename_i p c
    dsimp only at h
    unfold rts at h
    split at h
    · rcases List.mem_cons.1 h with h | h <;> cases h
    · split at h
      · cases h
      · rcases List.mem_cons.1 h with h | h <;> cases h
    · cases h
  · split at h
    · rcases List.mem_cons.1 h with h | h <;> cases h
    · cases h
  · split at h <;> cases h
  · split at h <;> cases h

end Verif.Nacc

namespace Verif.Rim

open BtsMsg PcuIf
open Verif.Nacc (Key Cgi Si Ctx Notif Mob)

/-- When the PCU asks the network for the system information of a cell for mobile `i`, the procedure of the mobile waits for that of this cell. -/
theorem C73_waits (home : Nat → Nat) (e : Env) (s s' : Pcu) (ev : In) (net : List Net) (mob : Nat → List Nacc.Out)
    (hx : step home e s ev = .ok s' net mob) (i : Nat) (g : Cgi) (hg : .askSi g ∈ mob i) :
    ∃ c, s'.nacc i = some c ∧ c.st = .requestSi ∧ c.cgi = g := by
  have onep : ∀ (j : Nat) (f : Bts → Nacc.Ev), one home s j f = .ok s' net mob → ∃ c, s'.nacc i = some c ∧ c.st = .requestSi ∧ c.cgi = g := by
    intro j f h1
    cases h1
    have hg : Nacc.Out.askSi g ∈ (if i = j then _ else []) := hg
    by_cases hj : i = j
    · subst hj
      rw [if_pos rfl] at hg
      show ∃ c, (if i = i then _ else _) = some c ∧ _
      rw [if_pos rfl]
      exact Nacc.askSi_wait hg
    · rw [if_neg hj] at hg; cases hg
  cases ev with
  | bts q m =>
    change rxBts home e s q m = _ at hx
    unfold rxBts at hx
    split at hx
    · dsimp only at hx
      split at hx
      · rename_i nr k c hn
        unfold rxNeigh at hx
        cases hx
        have hg : Nacc.Out.askSi g ∈ (if home i = nr then _ else _ : Option Ctx × List Nacc.Out).2 := hg
        by_cases hi : home i = nr
        · rw [if_pos hi] at hg
          show ∃ c, (if home i = nr then _ else _ : Option Ctx × List Nacc.Out).1 = some c ∧ _
          rw [if_pos hi]
          split at hg
          · rename_i x hxi
            exact Nacc.askSi_wait (lac := 0) (ci := 0) (x := some x) (e := .addr _ k c) hg
          · cases hg
        · rw [if_neg hi] at hg; cases hg
      · cases hx; cases hg
    · cases hx
    · cases hx
  | rim p =>
    change handleRim home s p = _ at hx
    unfold handleRim at hx
    split at hx
    · cases hx; cases hg
    · split at hx
      · cases hx; cases hg
      · split at hx
        · cases hx; cases hg
        · cases hx; cases hg
        · split at hx
          · cases hx; cases hg
          · unfold handleInfo at hx
            split at hx
            · cases hx
            · cases hx; cases hg
        · cases hx; cases hg
        · cases hx; cases hg
        · cases hx; cases hg
  | notify q r j n => exact onep j (fun b => .notify (worldOf s (home j) b q r) n) hx
  | rts j p => exact onep j (fun _ => .rts p) hx
  | ack j p => exact onep j (fun _ => .ack p) hx
  | noAck j p => exact onep j (fun _ => .noAck p) hx
  | timer j => exact onep j (fun _ => .timer) hx
  | wait d => cases hx; cases hg
  | cleanNeigh => cases hx; cases hg
  | cleanSi => cases hx; cases hg
  | keepNeigh t => cases hx; cases hg
  | keepSi t => cases hx; cases hg

/-- Request and answer between two PCUs: mobile `i` of the first one waits for the system information of a cell, which is the only one of the second
one. The request that the first PCU sends, delivered to the second one, makes it send one PDU. Delivered to the first one, this ends the wait: the
mobile is going to get the system information 1, 3 and 13 that the BTS of the second PCU last said it sends. `raw`, `raw'`: the octets that
libosmocore makes of the containers. -/
theorem C73_request_partial (home : Nat → Nat) (e : Env) (s : Pcu) (i : Nat) (b : Bts) (c : Ctx) (a : Info)
    (hb : s.l1.get (home i) = some b) (hu : ∀ x ∈ s.l1.bts, x.2.cgi = b.cgi → x.1 = home i)
    (hi : s.nacc i = some c) (hst : c.st = .requestSi) (hcg : c.cgi = a.cgi)
    (homeB : Nat → Nat) (eB : Env) (lB : List Did) (sB : Pcu) (hB : Run homeB eB lB sB) (nr : Nat)
    (x1 x3 x13 : Option (List Nat)) (ha : Announced (msgs lB) nr a) (h1 : Broadcast (msgs lB) nr .si1 x1)
    (h3 : Broadcast (msgs lB) nr .si3 x3) (h13 : Broadcast (msgs lB) nr .si13 x13)
    (hone : OneCell (msgs lB) a.cgi) (hB1 : ∀ x ∈ sB.l1.bts, x.2.cgi = a.cgi → x.1 = nr) (raw raw' : List Nat) :
    ∃ dst src body dst' src' body' s', requestFor b c.cgi = .pdu dst src body ∧
      step homeB eB sB (.rim ⟨dst, src, raw, some body⟩) = .ok sB [.pdu dst' src' body'] (fun _ => []) ∧
      step home e s (.rim ⟨dst', src', raw', some body'⟩) = .ok s' [] (fun _ => []) ∧
      s'.nacc i = some { c with st := .data, si := ⟨(forRim x1 x3 x13).flatten, false⟩, sent := 0, idx := 0 } := by
  obtain ⟨g, k1, k2⟩ := C72_answer_partial homeB eB lB sB hB nr a x1 x3 x13 ha h1 h3 h13 hB1 (.geran b.cgi) raw 1 1 1
  rw [k2 hone] at k1
  have hlen : ∀ x ∈ forRim x1 x3 x13, x.length = 21 := by
    have l1 := broadcast_len h1
    have l3 := broadcast_len h3
    have l13 := broadcast_len h13
    unfold forRim
    intro x hx
    obtain ⟨y, hy, hxy⟩ := List.mem_filterMap.1 hx
    obtain ⟨z, rfl, rfl⟩ := Option.map_eq_some_iff.1 hxy
    rw [List.length_drop]
    simp only [List.mem_cons, List.not_mem_nil, or_false] at hy
    rcases hy with hy | hy | hy
    · rw [l1 z hy.symm]
    · rw [l3 z hy.symm]
    · rw [l13 z hy.symm]
  have hn : (forRim x1 x3 x13).length ≤ 127 := by
    unfold forRim
    exact Nat.le_trans (List.length_filterMap_le ..) (show 3 ≤ 127 by decide)
  have hcopy := copySi_ok (len := 21) (forRim x1 x3 x13) [] hlen (by show 0 + _ ≤ _; omega)
  refine ⟨.geran a.cgi, .geran b.cgi, .request 1 1 1 1 a.cgi, .geran b.cgi, .geran a.cgi, _,
    { s with sis := Cache.add s.now s.sis a.cgi ⟨(forRim x1 x3 x13).flatten, false⟩
             nacc := fun j => if home j = home i then
               (s.nacc j).map fun c => Nacc.rxSi c a.cgi ⟨(forRim x1 x3 x13).flatten, false⟩ else s.nacc j }, ?_, k1, ?_, ?_⟩
  · rw [hcg]; rfl
  · rw [step_rim]
    unfold handleRim
    dsimp only
    rw [show byCgi s.l1 b.cgi = some (home i, b) from find_cgi hb rfl hu]
    dsimp only
    rw [if_neg (by decide)]
    unfold handleInfo
    rw [if_neg (by decide), hcopy]
    rfl
  · show (if home i = home i then _ else _) = _
    rw [if_pos rfl, hi]
    show some (Nacc.rxSi c a.cgi _) = _
    unfold Nacc.rxSi Nacc.enterData
    rw [if_pos ⟨hst, hcg⟩, if_pos (by show Nacc.allowed c.st _ = true; rw [hst]; rfl)]

/-- The first PCU after the BTS gave the address of the cell, in the history `exHistory`. -/
def exAsked : List Did × Pcu := playAll (fun _ => 0) {} ([], init 0 10 10) (exHistory.take 3)

/-- The second PCU before it is asked, in the history `exOther`. -/
def exReady : List Did × Pcu := playAll (fun _ => 0) {} ([], init 0 10 10) (exOther.take 2)

/-- The hypotheses of `C73_waits` and `C73_request_partial` in these histories: the first PCU has asked for the cell and waits; there is a PCU as the second
one. With the second PCU of `exReady`, which sends SI 3, the exchange gives the mobile 21 octets. -/
theorem ex_request :
    (∃ d l, exAsked.1 = d :: l ∧ .askSi cellB ∈ d.mob 5) ∧
    (∃ b c, exAsked.2.l1.get 0 = some b ∧ b.cgi = cellA ∧ (∀ x ∈ exAsked.2.l1.bts, x.2.cgi = b.cgi → x.1 = 0) ∧ exAsked.2.nacc 5 = some c ∧ c.st = .requestSi ∧
      c.cgi = cellB) ∧
    (∃ l s, Run (fun _ => 0) {} l s ∧ Announced (msgs l) 0 { exInfo none with cgi := cellB } ∧ (∀ k, Broadcast (msgs l) 0 k none) ∧
      OneCell (msgs l) cellB ∧ ∀ x ∈ s.l1.bts, x.2.cgi = cellB → x.1 = 0) ∧
    (match step (fun _ => 0) {} exReady.2 (.rim ⟨.geran cellB, .geran cellA, [], some (.request 1 1 1 1 cellB)⟩) with
      | .ok _ [.pdu dst src b] _ => match step (fun _ => 0) {} exAsked.2 (.rim ⟨dst, src, [], some b⟩) with
        | .ok s' [] _ => (s'.nacc 5).map fun c => (c.st, c.si.octets)
        | _ => none
      | _ => none) = some (.data, 0x1b :: List.replicate 20 1) := by
  refine ⟨?_, ?_, ?_, by decide +kernel⟩
  · have h : (exAsked.1.head?.map fun d => decide (.askSi cellB ∈ d.mob 5)) = some true := by decide +kernel
    obtain ⟨d, h1, h2⟩ := Option.map_eq_some_iff.1 h
    cases hl : exAsked.1 with
    | nil => rw [hl] at h1; cases h1
    | cons d' l =>
      rw [hl] at h1
      cases h1
      exact ⟨d, l, rfl, of_decide_eq_true h2⟩
  · have h1 : (exAsked.2.l1.get 0).map (·.cgi) = some cellA := by decide +kernel
    have h2 : exAsked.2.l1.bts.all fun x => decide (x.1 = 0) := by decide +kernel
    have h3 : (exAsked.2.nacc 5).map (fun c => (c.st, c.cgi)) = some (.requestSi, cellB) := by decide +kernel
    obtain ⟨b, k1, k2⟩ := Option.map_eq_some_iff.1 h1
    obtain ⟨c, k3, k4⟩ := Option.map_eq_some_iff.1 h3
    injection k4 with k4 k5
    exact ⟨b, c, k1, k2, fun x hx _ => of_decide_eq_true (List.all_eq_true.1 h2 x hx), k3, k4, k5⟩
  · obtain ⟨body, hb⟩ := is_cgi (exInfo_is (.inl rfl)) cellB (by decide)
    obtain ⟨s1, h1, -, ⟨t1, l1⟩, -, -⟩ := step_info (fun _ => 0) (init 0 10 10) true 0 { exInfo none with cgi := cellB } body hb (.inl rfl)
    have hm : ∀ p, msgs [⟨.bts true (msg 0x32 0 [0, 0] body), [], fun _ => [], p⟩] = [msg 0x32 0 [0, 0] body] := fun _ => rfl
    refine ⟨_, s1, .step _ (.init 0 10 10) h1, ?_, ?_, ?_, ?_⟩
    · rw [hm]
      exact ⟨[], [], [0, 0], body, rfl, rfl, hb, nofun⟩
    · intro k
      refine .never ?_
      rw [hm]
      intro m hm ha
      rcases List.mem_cons.1 hm with rfl | hm
      · have := ha.1
        unfold msg at this
        rw [List.getElem?_cons_zero] at this
        cases this
      · cases hm
    · rw [hm]
      intro m hm _
      obtain rfl := List.mem_singleton.1 hm
      exact ⟨0, [0, 0], body, _, rfl, rfl, hb, rfl⟩
    · rw [l1]
      intro x hx _
      obtain rfl := List.mem_singleton.1 (show x ∈ [_] from hx)
      rfl

end Verif.Rim
