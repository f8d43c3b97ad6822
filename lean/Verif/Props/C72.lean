import Verif.Lemmas.Rim
/-!
C72: other networks are given the system information that a cell sends.

`Run` (Spec/Rim): histories of the PCU with messages of any octets from BTSs, any RIM PDUs and any events of mobiles. `Announced`, `Broadcast`: what
a BTS last said of itself and of the system information it sends.
-/

namespace Verif.Rim

open BtsMsg PcuIf
open Verif.Nacc (Key Cgi Si Ctx Notif Mob)

/-- In all histories: a request for the system information of a cell is answered at once, to the cell that asked and with the address asked for as
source, with a single report with the messages that the BTS of the cell last said it sends: SI 1, 3, 13. Nothing else happens. Partial: the cell
that is named in the report (`g`), see below. Hypothesis: cells of BTSs of the PCU have different addresses. -/
theorem C72_answer_partial (home : Nat → Nat) (e : Env) (l : List Did) (s : Pcu) (h : Run home e l s) (nr : Nat) (a : Info)
    (x1 x3 x13 : Option (List Nat)) (ha : Announced (msgs l) nr a) (h1 : Broadcast (msgs l) nr .si1 x1) (h3 : Broadcast (msgs l) nr .si3 x3)
    (h13 : Broadcast (msgs l) nr .si13 x13) (hu : ∀ x ∈ s.l1.bts, x.2.cgi = a.cgi → x.1 = nr) (src : Routing) (raw : List Nat)
    (seq type ver : Nat) :
    ∃ g, step home e s (.rim ⟨.geran a.cgi, src, raw, some (.request 1 seq type ver a.cgi)⟩) =
        .ok s [.pdu src (.geran a.cgi) (.info 1 1 1 1 (.si g false (forRim x1 x3 x13)))] (fun _ => []) ∧
      (OneCell (msgs l) a.cgi → g = a.cgi) := by
  obtain ⟨o, r1, r2⟩ := run_l1 h
  obtain ⟨b, b1, b2⟩ := announced_cgi r1 ha
  obtain ⟨g, hg⟩ := Option.isSome_iff_exists.1 (bssgp_some r1 ha)
  have hb : s.l1.bts' nr = b := by unfold St.bts'; rw [b1]; rfl
  refine ⟨g, ?_, fun hc => bssgp_cell _ _ _ _ r1 hc g hg⟩
  rw [step_rim]
  unfold handleRim
  dsimp only
  rw [show byCgi s.l1 a.cgi = some (nr, b) from find_cgi b1 b2 hu]
  dsimp only
  unfold handleRequest
  rw [if_neg (by decide), if_neg (fun hh => hh b2), r2, hg]
  dsimp only
  unfold response
  rw [siList_forRim, ← hb, broadcast_si r1 h1, broadcast_si r1 h3, broadcast_si r1 h13]

/-- A PDU for a cell of another kind of network, or for a cell that no BTS of the PCU has, is answered with a STATUS that says so and has no
other effect. -/
theorem C72_not_ours (home : Nat → Nat) (e : Env) (s : Pcu) (p : Pdu) :
    (∀ id, p.dst = .other id → step home e s (.rim p) = .ok s [.unknownApp] fun _ => []) ∧
    (∀ c, p.dst = .geran c → (∀ x ∈ s.l1.bts, x.2.cgi ≠ c) → step home e s (.rim p) = .ok s [.unknownDst] fun _ => []) := by
  refine ⟨?_, ?_⟩
  · intro id hd
    rw [step_rim]
    unfold handleRim
    rw [hd]
  · intro c hd hc
    rw [step_rim]
    unfold handleRim
    rw [hd]
    dsimp only
    rw [show byCgi s.l1 c = none by
      unfold byCgi
      rw [List.find?_eq_none]
      intro x hx
      rw [decide_eq_true_eq]
      exact hc x hx]

/-- A request that cannot be answered, for another application or about a cell that it is not addressed to, is answered with an error PDU that
has the octets of the request. Nothing else happens. -/
theorem C72_refused (home : Nat → Nat) (e : Env) (s : Pcu) (c : Cgi) (hc : ∃ x ∈ s.l1.bts, x.2.cgi = c) (src : Routing) (raw : List Nat)
    (app seq type ver : Nat) (cell : Cgi) (hr : app ≠ 1 ∨ cell ≠ c) :
    step home e s (.rim ⟨.geran c, src, raw, some (.request app seq type ver cell)⟩) =
      .ok s [.pdu src (.geran c) (.error 1 1 raw)] fun _ => [] := by
  obtain ⟨x, hx, hxc⟩ := hc
  have hs : (byCgi s.l1 c).isSome := by
    unfold byCgi
    rw [List.find?_isSome]
    exact ⟨x, hx, decide_eq_true hxc⟩
  obtain ⟨⟨nr, b⟩, hb⟩ := Option.isSome_iff_exists.1 hs
  have hbc : b.cgi = c := by
    have := List.find?_some hb
    simpa using this
  rw [step_rim]
  unfold handleRim
  dsimp only
  rw [hb]
  dsimp only
  unfold handleRequest
  by_cases h1 : app ≠ 1
  · rw [if_pos h1]; rfl
  · rw [if_neg h1, if_pos (by
      rw [hbc]
      rcases hr with h | h
      · exact absurd h h1
      · exact Ne.symm h)]
    rfl

/-- The SGSN gets nothing but answers to PDUs, at most one for each, and the requests for mobiles (`Nacc.Out.askSi`, see C73). -/
theorem C72_only_answers (home : Nat → Nat) (e : Env) (s s' : Pcu) (ev : In) (net : List Net) (mob : Nat → List Nacc.Out)
    (h : step home e s ev = .ok s' net mob) (hn : net ≠ []) : ∃ p x, ev = .rim p ∧ net = [x] ∧ s' = s := by
  have one0 : ∀ {i : Nat} {f : Bts → Nacc.Ev}, one home s i f = .ok s' net mob → net = [] := by
    intro i f h
    cases h; rfl
  cases ev with
  | rim p =>
    refine ⟨p, ?_⟩
    change handleRim home s p = _ at h
    unfold handleRim at h
    split at h
    · cases h; exact ⟨_, rfl, rfl, rfl⟩
    split at h
    · cases h; exact ⟨_, rfl, rfl, rfl⟩
    split at h
    · cases h; exact absurd rfl hn
    · cases h
      unfold handleRequest at hn ⊢
      split
      · exact ⟨_, rfl, rfl, rfl⟩
      · split
        · exact ⟨_, rfl, rfl, rfl⟩
        · rename_i h1 h2
          rw [if_neg h1, if_neg h2] at hn
          cases hc : s.cell with
          | none => rw [hc] at hn; exact absurd rfl hn
          | some g => exact ⟨_, rfl, rfl, rfl⟩
    · split at h
      · cases h; exact absurd rfl hn
      · unfold handleInfo at h
        split at h
        · cases h
        · cases h; exact absurd rfl hn
    all_goals (cases h; exact absurd rfl hn)
  | bts rimOk m =>
    change rxBts home e s rimOk m = _ at h
    unfold rxBts at h
    split at h
    · dsimp only at h
      split at h
      · unfold rxNeigh at h
        split at h <;> (cases h; exact absurd rfl hn)
      · cases h; exact absurd rfl hn
    · cases h
    · cases h
  | notify q r i n => rw [(step_one home e s i).1] at h; exact absurd (one0 h) hn
  | rts i p => rw [(step_one home e s i).2.1] at h; exact absurd (one0 h) hn
  | ack i p => rw [(step_one home e s i).2.2.1] at h; exact absurd (one0 h) hn
  | noAck i p => rw [(step_one home e s i).2.2.2.1] at h; exact absurd (one0 h) hn
  | timer i => rw [(step_one home e s i).2.2.2.2] at h; exact absurd (one0 h) hn
  | wait d => cases h; exact absurd rfl hn
  | cleanNeigh => cases h; exact absurd rfl hn
  | cleanSi => cases h; exact absurd rfl hn
  | keepNeigh d => cases h; exact absurd rfl hn
  | keepSi d => cases h; exact absurd rfl hn

theorem copySi_ok {len : Nat} : ∀ (si : List (List Nat)) (buf : List Nat), (∀ x ∈ si, x.length = len) →
    buf.length + len * si.length ≤ 22 * 127 → copySi len buf si = some (buf ++ si.flatten)
  | [], buf, _, _ => by rw [copySi]; simp
  | x :: si, buf, hx, hl => by
    have h1 := hx x List.mem_cons_self
    rw [List.length_cons, Nat.mul_add, Nat.mul_one] at hl
    have h0 := Nat.zero_le (len * si.length)
    rw [copySi, if_pos ⟨by omega, by omega⟩, ← h1, List.take_length, h1, copySi_ok si _ (fun y hy => hx y (List.mem_cons_of_mem _ hy)) (by
      rw [List.length_append]; omega)]
    simp

/-- A report of up to 127 messages (the number has 7 bits) is stored inside the buffer. In all histories: afterwards it is what the PCU has of
the reported cell, whatever it had before. -/
theorem C72_report_kept (home : Nat → Nat) (e : Env) (l : List Did) (s : Pcu) (h : Run home e l s) (c : Cgi) (hc : ∃ x ∈ s.l1.bts, x.2.cgi = c)
    (src : Routing) (raw : List Nat) (seq type ver : Nat) (cell : Cgi) (psi : Bool) (si : List (List Nat)) (hn : si.length ≤ 127)
    (hl : ∀ x ∈ si, x.length = if psi then 22 else 21) :
    ∃ s', step home e s (.rim ⟨.geran c, src, raw, some (.info 1 seq type ver (.si cell psi si))⟩) = .ok s' [] (fun _ => []) ∧
      Cache.lookup s'.sis cell = some ⟨si.flatten, psi⟩ := by
  obtain ⟨x, hx, hxc⟩ := hc
  have hs : (byCgi s.l1 c).isSome := by
    unfold byCgi
    rw [List.find?_isSome]
    exact ⟨x, hx, decide_eq_true hxc⟩
  obtain ⟨⟨nr, b⟩, hb⟩ := Option.isSome_iff_exists.1 hs
  have hcopy := copySi_ok si [] hl (by
    cases psi
    · show 0 + 21 * si.length ≤ _; omega
    · show 0 + 22 * si.length ≤ _; omega)
  refine ⟨{ s with sis := Cache.add s.now s.sis cell ⟨si.flatten, psi⟩
                   nacc := fun i => if home i = nr then (s.nacc i).map fun c => Nacc.rxSi c cell ⟨si.flatten, psi⟩ else s.nacc i }, ?_, ?_⟩
  · rw [step_rim]
    unfold handleRim
    dsimp only
    rw [hb]
    dsimp only
    rw [if_neg (by decide)]
    unfold handleInfo
    rw [hcopy]
    rfl
  · show Cache.lookup (Cache.add _ _ _ _) _ = _
    obtain ⟨⟨st, ks, h1, _⟩, _⟩ := run_sis h
    have h2 := Cache.Hist.add cell ⟨si.flatten, psi⟩ h1
    have h3 : (Cache.lookup (Cache.add s.now s.sis cell ⟨si.flatten, psi⟩) cell).isSome := by
      unfold Cache.lookup Cache.add
      rw [Option.isSome_map, (Cache.schedule_list _ _).1, List.find?_isSome]
      exact ⟨_, List.mem_append_right _ List.mem_cons_self, decide_eq_true rfl⟩
    obtain ⟨v, hv⟩ := Option.isSome_iff_exists.1 h3
    obtain ⟨t, _, a, b, h4, h5⟩ := Cache.C36_latest h2 hv
    rw [hv]
    cases a with
    | nil =>
      injection h4 with h4 _
      injection h4 with _ _ h4
      rw [h4]
    | cons y a =>
      injection h4 with h4 _
      exact absurd (by rw [← h4]) (h5 y List.mem_cons_self)

/-! ### What does not hold -/

/-- A PDU for a cell of the PCU whose container cannot be decoded is not answered. TS 48.018 8c.3.4.1 asks for an error PDU, which the code makes
but does not send. -/
theorem C72_fails_undecoded (home : Nat → Nat) (e : Env) (s : Pcu) (c : Cgi) (hc : ∃ x ∈ s.l1.bts, x.2.cgi = c) (src : Routing) (raw : List Nat) :
    step home e s (.rim ⟨.geran c, src, raw, none⟩) = .ok s [] fun _ => [] := by
  obtain ⟨x, hx, hxc⟩ := hc
  have hs : (byCgi s.l1 c).isSome := by
    unfold byCgi
    rw [List.find?_isSome]
    exact ⟨x, hx, decide_eq_true hxc⟩
  obtain ⟨⟨nr, b⟩, hb⟩ := Option.isSome_iff_exists.1 hs
  rw [step_rim]
  unfold handleRim
  dsimp only
  rw [hb]

theorem is_cgi {a : Info} {body : List Nat} (h : a.Is body) (c : Cgi) (hc : c.mcc < 65536 ∧ c.mnc < 65536 ∧ c.lac < 65536 ∧ c.rac < 256 ∧ c.ci < 65536) :
    ∃ body', ({ a with cgi := c } : Info).Is body' := by
  obtain ⟨trx, timers, rep, cv, ip0, ip1, rest, ty0, ty1, l0, l1, r0, r1, n0, n1, h1, h2, h3, h4, h5, h6, h7, h8, _⟩ := h.octets
  exact ⟨_, { cs := h.cs, mcs := h.mcs, ntrx := h.ntrx, cgi := hc, ns := h.ns
              octets := ⟨trx, timers, rep, cv, ip0, ip1, rest, ty0, ty1, l0, l1, r0, r1, n0, n1, h1, h2, h3, h4, h5, h6, h7, h8, rfl⟩ }⟩

/-- Effect of an INFO indication on the PCU. -/
theorem step_info (home : Nat → Nat) (s : Pcu) (q : Bool) (nr : Nat) (a : Info) (body : List Nat) (h : a.Is body) (hv : a.vcs.1.isSome ∨ a.vcs.2.isSome) :
    ∃ s', step home {} s (.bts q (msg 0x32 nr [0, 0] body)) = .ok s' [] (fun _ => []) ∧ s'.cell = s.cell.or (some a.cgi) ∧
      (∃ t, s'.l1 = { (s.l1.ensure nr).set nr (infoBts {} (s.l1.bts' nr) (body.take 1003)) with timers := t }) ∧
      (s'.now = s.now ∧ s'.neigh = s.neigh ∧ s'.sis = s.sis ∧ s'.nacc = s.nacc) ∧ cgiOf (body.take 1003) = a.cgi := by
  obtain ⟨s1, acts, r1⟩ := C70_accepted {} s.l1 nr [0, 0] body a rfl h rfl rfl hv
  obtain ⟨k1, _, _⟩ := rx_info_ok rfl h r1
  have r2 := r1
  rw [rx_info rfl h] at r2
  have hn := rxInfo_neigh r2
  refine ⟨{ s with l1 := s1, cell := s.cell.or (some a.cgi) }, ?_, rfl, ⟨_, k1⟩, ⟨rfl, rfl, rfl, rfl⟩, info_cgi h⟩
  change rxBts home {} s q _ = _
  unfold rxBts
  rw [r1]
  dsimp only
  rw [hn]
  dsimp only
  cases s.cell <;> rfl

def cellA : Cgi := ⟨1, 1, false, 300, 7, 4⟩
def cellB : Cgi := ⟨1, 1, false, 301, 7, 5⟩

/-- BTSs 0 and 1 with different cells have announced themselves. -/
theorem ex_two (home : Nat → Nat) : ∃ l s, Run home {} l s ∧ Announced (msgs l) 1 { exInfo none with cgi := cellB } ∧ s.cell = some cellA ∧
    (∀ k, Broadcast (msgs l) 1 k none) ∧ ∃ b0 b1, s.l1.bts = [(0, b0), (1, b1)] ∧ b0.cgi = cellA ∧ b1.cgi = cellB := by
  obtain ⟨body, hb⟩ := is_cgi (exInfo_is (.inl rfl)) cellB (by decide)
  obtain ⟨s1, h1, c1, ⟨t1, l1⟩, _, g1⟩ := step_info home (init 0 10 10) true 0 (exInfo none) _ (exInfo_is (.inl rfl)) (.inl rfl)
  obtain ⟨s2, h2, c2, ⟨t2, l2⟩, _, g2⟩ := step_info home s1 true 1 { exInfo none with cgi := cellB } body hb (.inl rfl)
  have hm : ∀ p1 p2, msgs [⟨.bts true (msg 0x32 1 [0, 0] body), [], fun _ => [], p1⟩, ⟨.bts true (msg 0x32 0 [0, 0] (exBody none)), [], fun _ => [], p2⟩] =
      [msg 0x32 0 [0, 0] (exBody none), msg 0x32 1 [0, 0] body] := fun _ _ => rfl
  refine ⟨_, s2, .step _ (.step _ (.init 0 10 10) h1) h2, ?_, ?_, ?_, ?_⟩
  · rw [hm]
    exact ⟨[msg 0x32 0 [0, 0] (exBody none)], [], [0, 0], body, rfl, rfl, hb, nofun⟩
  · rw [c2, c1]; rfl
  · intro k
    refine .never ?_
    rw [hm]
    intro m hm ha
    rcases List.mem_cons.1 hm with rfl | hm
    · exact absurd ha.1 (by unfold msg; decide)
    · rcases List.mem_cons.1 hm with rfl | hm
      · have := ha.1
        unfold msg at this
        rw [List.getElem?_cons_zero] at this
        cases this
      · cases hm
  · have e1 : s1.l1.bts = [(0, infoBts {} {} ((exBody none).take 1003))] := by rw [l1]; rfl
    have e2 : s1.l1.get 1 = none := by unfold St.get; rw [e1]; rfl
    refine ⟨infoBts {} {} ((exBody none).take 1003), infoBts {} (s1.l1.bts' 1) (body.take 1003), ?_, ?_, ?_⟩
    · rw [l2]
      show setFirst 1 _ (s1.l1.ensure 1).bts = _
      unfold St.ensure
      rw [e2]
      dsimp only
      rw [e1]
      rfl
    · exact g1
    · exact g2

/-- An instance of the hypotheses of `C72_answer_partial`, and why it is partial: with two BTSs, a request for the system information of the cell of
the second one is answered with a report about the cell of the first one. -/
theorem C72_fails_cell : ∃ l s a, Run (fun _ => 0) {} l s ∧ Announced (msgs l) 1 a ∧ (∀ k, Broadcast (msgs l) 1 k none) ∧
    (∀ x ∈ s.l1.bts, x.2.cgi = a.cgi → x.1 = 1) ∧ ∃ g, g ≠ a.cgi ∧ ∀ src raw seq,
      step (fun _ => 0) {} s (.rim ⟨.geran a.cgi, src, raw, some (.request 1 seq 1 1 a.cgi)⟩) =
        .ok s [.pdu src (.geran a.cgi) (.info 1 1 1 1 (.si g false []))] (fun _ => []) := by
  obtain ⟨l, s, hr, ha, hc, hb, b0, b1, hl, h0, h1⟩ := ex_two fun _ => 0
  have hu : ∀ x ∈ s.l1.bts, x.2.cgi = cellB → x.1 = 1 := by
    rw [hl]
    intro x hx hxc
    rcases List.mem_cons.1 hx with rfl | hx
    · rw [h0] at hxc; exact absurd hxc (by decide)
    · rw [List.mem_singleton.1 hx]
  refine ⟨l, s, _, hr, ha, hb, hu, cellA, by decide, ?_⟩
  intro src raw seq
  obtain ⟨g, hg, _⟩ := C72_answer_partial _ _ l s hr 1 _ none none none ha (hb _) (hb _) (hb _) hu src raw seq 1 1
  have : g = cellA := by
    rw [step_rim] at hg
    unfold handleRim at hg
    dsimp only at hg
    rw [show byCgi s.l1 cellB = some (1, b1) by unfold byCgi; rw [hl]; simp [h0, h1, cellA, cellB]] at hg
    dsimp only at hg
    unfold handleRequest at hg
    rw [if_neg (by decide), if_neg (fun hh => hh h1), hc] at hg
    unfold response at hg
    simp only [Res.ok.injEq, List.cons.injEq, Net.pdu.injEq, Body.info.injEq, Report.si.injEq, true_and, and_true] at hg
    exact hg.1.symm
  rw [hg, this]
  rfl

/-- One BTS that sends system information 3: the hypotheses of `C72_answer_partial` with `OneCell`. -/
example : ∃ l s g, Run (fun _ => 0) {} l s ∧ step (fun _ => 0) {} s (.rim ⟨.geran cellA, .other [7], [], some (.request 1 1 1 1 cellA)⟩) =
    .ok s [.pdu (.other [7]) (.geran cellA) (.info 1 1 1 1 (.si g false [0x1b :: List.replicate 20 1]))] (fun _ => []) ∧ g = cellA := by
  let d : Data := ⟨4, [0x49, 6, 0x1b] ++ List.replicate 20 1, 0, 0, 0, 0, 0, 0, 0, 0, 0⟩
  obtain ⟨body, hd⟩ : ∃ body, d.Is body :=
    ⟨_, by decide, by decide, by decide, by decide, by decide, by decide, List.replicate 139 0, by simp [d], rfl⟩
  obtain ⟨s1, h1, c1, ⟨t1, l1⟩, _, g1⟩ := step_info (fun _ => 0) (init 0 10 10) true 0 (exInfo none) _ (exInfo_is (.inl rfl)) (.inl rfl)
  have r2 := rx_bcch {} s1.l1 0 (fill := [0, 0]) rfl hd rfl
  have h2 : step (fun _ => 0) {} s1 (.bts true (msg 0x02 0 [0, 0] body)) =
      .ok { s1 with l1 := (s1.l1.ensure 0).set 0 (dataBcch (s1.l1.bts' 0) (slice body 2 162) d.data.length).1 } [] (fun _ => []) := by
    change rxBts _ {} s1 true _ = _
    unfold rxBts
    rw [r2]
    dsimp only
    cases s1.cell <;> rfl
  have hm : ∀ p1 p2, msgs [⟨.bts true (msg 0x02 0 [0, 0] body), [], fun _ => [], p1⟩, ⟨.bts true (msg 0x32 0 [0, 0] (exBody none)), [], fun _ => [], p2⟩] =
      [msg 0x32 0 [0, 0] (exBody none)] ++ msg 0x02 0 [0, 0] body :: [] := fun _ _ => rfl
  have hbody : ∃ fill, body = 4 :: 23 :: (0x49 :: 6 :: 0x1b :: fill) := by
    obtain ⟨_, _, _, _, _, _, fill, _, rfl⟩ := hd
    exact ⟨_, rfl⟩
  have nev : ∀ k : SiKind, k ≠ .si3 → ∀ m ∈ [msg 0x32 0 [0, 0] (exBody none)] ++ msg 0x02 0 [0, 0] body :: [], ¬ AboutSi 0 k m := by
    intro k hk m hm ha
    rcases List.mem_cons.1 hm with rfl | hm
    · have := ha.1
      unfold msg at this
      rw [List.getElem?_cons_zero] at this
      cases this
    · have hm : m ∈ [msg 0x02 0 [0, 0] body] := hm
      rw [List.mem_singleton.1 hm] at ha
      obtain ⟨fill, rfl⟩ := hbody
      obtain ⟨_, _, _, ⟨_, h⟩ | ⟨h, _⟩ | ⟨h, _⟩⟩ := ha
      · have h := Option.some.inj h
        cases k
        · cases h
        · cases h
        · exact hk rfl
        · cases h
      · cases h
      · cases h
  have hr := Run.step _ (.step (e := {}) _ (.init 0 10 10) h1) h2
  obtain ⟨g, hg, hc⟩ := C72_answer_partial _ _ _ _ hr 0 (exInfo none) none (some d.data) none
    (by rw [hm]
        refine ⟨[], _, [0, 0], _, rfl, rfl, exInfo_is (.inl rfl), ?_⟩
        intro m hm ha
        have hm : m ∈ [msg 0x02 0 [0, 0] body] := hm
        rw [List.mem_singleton.1 hm] at ha
        cases ha.1)
    (.never (by rw [hm]; exact nev _ nofun)) (.sent _ [] _ _ d (hm _ _) rfl hd rfl rfl rfl nofun) (.never (by rw [hm]; exact nev _ nofun))
    (by
      intro x hx hxc
      have e1 : s1.l1.bts = [(0, infoBts {} {} ((exBody none).take 1003))] := by rw [l1]; rfl
      have e2 : s1.l1.ensure 0 = s1.l1 := by unfold St.ensure St.get; rw [e1]; rfl
      have hx : x ∈ setFirst 0 _ (s1.l1.ensure 0).bts := hx
      rw [e2, e1] at hx
      have hx : x ∈ [(0, _)] := hx
      rw [List.mem_singleton.1 hx]) (.other [7]) [] 1 1 1
  refine ⟨_, _, g, hr, hg, hc ?_⟩
  rw [hm]
  intro m hm h0
  rcases List.mem_cons.1 hm with rfl | hm
  · exact ⟨0, [0, 0], exBody none, exInfo none, rfl, rfl, exInfo_is (.inl rfl), rfl⟩
  · have hm : m ∈ [msg 0x02 0 [0, 0] body] := hm
    rw [List.mem_singleton.1 hm] at h0
    cases h0

/-- The hypotheses of `C72_report_kept`, `C72_refused` and `C72_not_ours`. -/
example : ∃ l s s', Run (fun _ => 0) {} l s ∧ step (fun _ => 0) {} s (.rim ⟨.geran cellB, .other [7], [], some (.info 1 1 1 1 (.si cellA false
    [List.range 21, List.replicate 21 3]))⟩) = .ok s' [] (fun _ => []) ∧ Cache.lookup s'.sis cellA = some ⟨List.range 21 ++ List.replicate 21 3, false⟩ ∧
    (∃ x ∈ s.l1.bts, x.2.cgi = cellB) ∧ ∀ x ∈ s.l1.bts, x.2.cgi ≠ ⟨1, 1, false, 301, 7, 6⟩ := by
  obtain ⟨l, s, hr, _, _, _, b0, b1, hl, h0, h1⟩ := ex_two fun _ => 0
  have hx : ∃ x ∈ s.l1.bts, x.2.cgi = cellB := ⟨(1, b1), by rw [hl]; simp, h1⟩
  obtain ⟨s', h2, h3⟩ := C72_report_kept _ _ l s hr cellB hx (.other [7]) [] 1 1 1 cellA false [List.range 21, List.replicate 21 3] (by decide) (by decide)
  refine ⟨l, s, s', hr, h2, h3, hx, ?_⟩
  rw [hl]
  intro x hx
  rcases List.mem_cons.1 hx with rfl | hx
  · rw [h0]; decide
  · rw [List.mem_singleton.1 hx, h1]; decide

end Verif.Rim
