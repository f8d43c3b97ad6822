import Verif.Lemmas.MsStore
/-!
# C42: the old TLLI of a downlink PDU

The code does not have this property: the old TLLI is decoded from two of its four octets, and only
if the lifetime has two octets (gprs_bssgp_pcu.c:167-176).
-/

namespace Verif.Store

/-- The octets of a 32-bit TLLI in a message. -/
def octets32 (t : Nat) : List Nat := [t / 2 ^ 24 % 256, t / 2 ^ 16 % 256, t / 2 ^ 8 % 256, t % 256]

/-- C42, inside: a PDU handed on with the old TLLI of a mobile goes to this mobile, which is found
under the new TLLI afterwards, and no mobile is made. Partial: the receiver of the message does not
hand on the old TLLI (`C42_decoded`), and the SGSN does not name two different mobiles in one PDU. -/
theorem C42_handle_partial (b : Clock) (c : Nat) (s s' : St) (h : Hist c Orderly s) (p : Pdu) (i : Nat) (m : Mob)
    (hg : get? s i = some m) (hold : m.check p.old = true) (hp : Orderly s (.pdu p))
    (hs : step b c s (.pdu p) = some s') : byTlli s' p.tlli = some i ∧ s'.next = s.next := by
  have hok := step_ok h.ok.1 h.ok.2 hp hs
  have hm := get_mem hg
  obtain ⟨s1, j, new, s2, hf, hsub, hh, rfl⟩ := dlHandle_parts hs
  have hj : getMs s p.tlli p.old (p.imsi.getD []) = some i := by
    rcases @getMs_cases s p.tlli p.old (p.imsi.getD []) with ⟨k, m', h1, h2, h3 | h3⟩ | ⟨h1, -⟩
    · rw [h1]; exact congrArg some (hp.2 _ h2 _ hm h3 hold)
    · rw [h1]; exact congrArg some (h.ok.2 _ h2 _ hm _ h3 hold)
    · have := (h1 _ hm).2; simp only at this; rw [hold] at this; cases this
  rcases findMs_ok hf with ⟨-, hg', -⟩ | ⟨rfl, hg', hs1, hh1⟩
  · rw [hj] at hg'; cases hg'
  · rw [hj] at hg'
    cases hg'
    obtain ⟨m2, hm2, -⟩ := hh _ (hh1 _ ⟨m, hm, rfl⟩)
    rw [if_neg (by decide)] at hok ⊢
    refine ⟨(byTlli_iff hok.2 _ _).2 ⟨m2.accept p, mem_modify.2 ⟨_, hm2, by rw [if_pos rfl]⟩, ?_⟩, ?_⟩
    · rw [check_accept]; exact check_confirm_self _ _ hp.1
    · exact hsub.2.1.trans hs1.2.1

/-- The message with old TLLI `t`, as the code reads it: the upper half of `t`, or nothing. -/
theorem C42_decoded (u : DlUd) (t : Nat) (ht : t < 2 ^ 32) (hu : u.tlliOld = some (octets32 t)) :
    oldTlli u = if (u.lifetime.getD []).length = 2 then t / 2 ^ 16 else noTlli := by
  unfold oldTlli
  rw [hu]
  dsimp only
  split
  · simp only [load16, octets32, List.headD_cons, List.drop_succ_cons, List.drop_zero]
    omega
  · rfl

/-- C42 fails for every old TLLI but those below 2^16, which no network assigns: the value used
differs from the one in the message. -/
theorem C42_wrong_tlli (u : DlUd) (t : Nat) (h1 : 2 ^ 16 ≤ t) (h2 : t < 2 ^ 32 - 1) (hu : u.tlliOld = some (octets32 t)) :
    oldTlli u ≠ t := by
  rw [C42_decoded u t (by omega) hu]
  split
  · omega
  · unfold noTlli; omega

/-- C42 fails: a message without IMSI whose new TLLI and whose half of the old TLLI are not known
goes to a new mobile, whoever is known under the old TLLI. -/
theorem C42_violated (b : Clock) (c : Nat) (s s' : St) (h : Hist c Orderly s) (u : DlUd) (t force : Nat) (now : Int)
    (att : Option Bool) (data : List Nat) (hd : u.llc = some data) (hl : data.length ≤ 1543)
    (h1 : t < 2 ^ 32) (hu : u.tlliOld = some (octets32 t)) (hi : u.imsi = none) (hn : u.tlli ≠ noTlli)
    (hx : byTlli s u.tlli = none) (hy : byTlli s (t / 2 ^ 16) = none)
    (hs : rxDlUd b c s u force now att = some s') :
    s'.next = s.next + 1 ∧ (b.x2030 ≠ 0 ∨ att ≠ none → byTlli s' u.tlli = some s.next) := by
  unfold rxDlUd at hs
  rw [hd] at hs
  dsimp only at hs
  rw [if_neg (by omega)] at hs
  generalize hp : ({ tlli := u.tlli, old := oldTlli u, imsi := u.imsi, msClass := u.msClass, egprsClass := u.egprsClass, data := data, now := now, expire := Llc.lifetime force u.csec now, att := att } : Pdu) = p at hs
  have ht : p.tlli = u.tlli := by rw [← hp]
  have ho : p.old = oldTlli u := by rw [← hp]
  have him : p.imsi = none := by rw [← hp]; exact hi
  have hat : p.att = att := by rw [← hp]
  have hnone : ∀ q ∈ s.ms, q.2.check p.tlli = false ∧ q.2.check p.old = false := by
    intro q hq
    refine ⟨ht ▸ byTlli_none hx q hq, ?_⟩
    rw [ho, C42_decoded u t h1 hu]
    split
    · exact byTlli_none hy q hq
    · exact check_none _
  obtain ⟨s1, i, new, s2, hf, hs2, rfl⟩ := dlHandle_eq hs
  rcases findMs_ok hf with ⟨rfl, -, rfl, rfl⟩ | ⟨-, hg, -⟩
  · rw [him] at hs2
    cases hs2
    have hord : Orderly s (.pdu p) := ⟨ht ▸ hn, fun a ha _ _ h1 => by rw [(hnone a ha).1] at h1; cases h1⟩
    have hok := step_ok (op := .pdu p) h.ok.1 h.ok.2 hord hs
    refine ⟨(sub_unref _ _ _).2.1, fun hb => ?_⟩
    rw [if_pos rfl] at hok ⊢
    rw [← ht]
    refine (byTlli_iff hok.2 _ _).2 ?_
    generalize hm : (newMob c 1).accept p = m
    have hc : m.check p.tlli = true := by rw [← hm, check_accept]; exact check_confirm_self _ _ (ht ▸ hn)
    have hdl : att ≠ none → m.dl.isSome = true := by
      intro hne
      rw [← hm]
      unfold Mob.accept
      rw [hat]
      cases att with
      | none => exact absurd rfl hne
      | some x => rfl
    have hx : (s.next, { m with refs := m.refs - 1 }) ∈
        (modify (modify (alloc s c 1).1 s.next (·.accept p)) s.next fun m => { m with refs := m.refs - 1 }).ms := by
      refine mem_modify.2 ⟨_, mem_modify.2 ⟨(s.next, newMob c 1), List.mem_cons_self, rfl⟩, ?_⟩
      rw [if_pos rfl, if_pos rfl, hm]
    have hid : Ids (modify (modify (alloc s c 1).1 s.next (·.accept p)) s.next fun m => { m with refs := m.refs - 1 }) :=
      ids_modify' (ids_modify' (alloc_ok h.ok.1 h.ok.2 c 1).1 _ _) _ _
    unfold unref checkIdle
    rw [get_of_mem hid.1 hx]
    dsimp only
    split
    · exact ⟨_, hx, hc⟩
    · rename_i hus
      split
      · rename_i hor
        exfalso
        rcases hor with hor | hor
        · rcases hb with hb | hb
          · exact absurd hor hb
          · have := hdl hb
            simp only [Mob.users, this, if_true] at hus
            omega
        · exact anyTlli_of_check m p.tlli hc hor
      · exact ⟨{ m with refs := m.refs - 1, releasing := some (b.now + b.x2030) }, mem_modify.2 ⟨_, hx, by rw [if_pos rfl]⟩, hc⟩
  · rcases @getMs_cases s p.tlli p.old (p.imsi.getD []) with ⟨k, m', _, h2, h3⟩ | ⟨-, ⟨_, _, _, _, h3, _⟩ | ⟨h1, -⟩⟩
    · have := hnone _ h2; rw [this.1, this.2] at h3; simp at h3
    · rw [him] at h3; exact absurd rfl h3
    · rw [hg] at h1; cases h1

/-! Instances: the mobile known under TLLI 0xc0001234 gets TLLI 0xc0005678; handed on properly, it
keeps its record; sent in a message, a second record is made and the frames of the first stay
there. -/

def known : Nat × Mob := (0, { newMob 0 0 with tlli := 0xc0001234, releasing := some 60 })
example : step ⟨0, 60⟩ 0 ⟨[], 0⟩ (.meas 0xc0001234) = some ⟨[(0, { (newMob 0 0) with newUl := 0xc0001234, releasing := some 60 })], 1⟩ := rfl
example : Orderly ⟨[known], 1⟩ (.pdu { tlli := 0xc0005678, old := 0xc0001234 }) := by
  refine ⟨by decide, fun a ha b hb _ _ => ?_⟩
  rw [List.mem_singleton.1 ha, List.mem_singleton.1 hb]
example : ∃ s s', step ⟨0, 60⟩ 0 ⟨[], 0⟩ (.meas 0xc0001234) = some s ∧
    rxDlUd ⟨0, 60⟩ 0 s { tlli := 0xc0005678, tlliOld := some [0xc0, 0x00, 0x12, 0x34], lifetime := some [0, 100], llc := some [1, 2] } 0 7 none = some s' ∧
    octets32 0xc0001234 = [0xc0, 0x00, 0x12, 0x34] ∧ byTlli s 0xc0001234 = some 0 ∧ byTlli s (0xc0001234 / 2 ^ 16) = none ∧
    byTlli s' 0xc0005678 = some 1 ∧ byTlli s' 0xc0001234 = some 0 := by
  refine ⟨_, _, rfl, rfl, ?_, ?_, ?_, ?_, ?_⟩ <;> decide +kernel

end Verif.Store
