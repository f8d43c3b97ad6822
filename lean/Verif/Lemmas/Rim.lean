import Verif.Spec.Rim
import Verif.Props.C36
import Verif.Props.C70
/-!
Lemmas for C72, C73: what an event does to the parts of the PCU.
-/

namespace Verif.PcuIf

open BtsMsg Rim

theorem rx_bssgp {e : Env} {s s' : St} {m : List Nat} {o : List Out} {acc : Bool} (h : rx e s m = .ok s' o acc) :
    o.findSome? bssgpOf = none ∨
    (u8 m 0 = 0x32 ∧ 1007 ≤ m.length ∧ rxInfo e (s.ensure (u8 m 1)) (u8 m 1) (s.bts' (u8 m 1)) (slice m 4 1003) = .ok s' o acc) := by
  have nil : ∀ {s s' : St} {acc acc' : Bool} {o : List Out}, Res.ok s [] acc = .ok s' o acc' → o.findSome? bssgpOf = none := by
    intro _ _ _ _ _ h; cases h; rfl
  unfold rx at h
  by_cases hl : m.length < 4
  · rw [if_pos hl] at h; exact .inl (nil h)
  rw [if_neg hl] at h
  dsimp only at h
  generalize hnr : u8 m 1 = nr at h ⊢
  rw [get_ensure] at h
  dsimp only at h
  rw [show (s.get nr).getD {} = s.bts' nr from rfl] at h
  by_cases t1 : u8 m 0 = 0x02
  · rw [if_pos t1] at h
    rcases check_inv h with ⟨_, rfl⟩ | ⟨_, h⟩
    · exact .inl rfl
    · unfold rxDataInd at h
      dsimp only at h
      split at h
      · split at h
        · cases h
        · split at h
          · cases h
          · split at h
            · exact .inl (nil h)
            · split at h
              · cases h
              · cases h; exact .inl rfl
      · split at h
        · exact .inl (nil h)
        · exact .inl (nil h)
  rw [if_neg t1] at h
  by_cases t2 : u8 m 0 = 0x11
  · rw [if_pos t2] at h
    rcases check_inv h with ⟨_, rfl⟩ | ⟨_, h⟩
    · exact .inl rfl
    · unfold rxDataCnf at h
      split at h <;> (cases h; exact .inl rfl)
  rw [if_neg t2] at h
  by_cases t3 : u8 m 0 = 0x10
  · rw [if_pos t3] at h
    rcases check_inv h with ⟨_, rfl⟩ | ⟨_, h⟩
    · exact .inl rfl
    · unfold rxRts at h
      dsimp only at h
      repeat' split at h
      all_goals (cases h; exact .inl rfl)
  rw [if_neg t3] at h
  by_cases t4 : u8 m 0 = 0x22
  · rw [if_pos t4] at h
    rcases check_inv h with ⟨_, rfl⟩ | ⟨_, h⟩
    · exact .inl rfl
    · unfold rxRach at h
      dsimp only at h
      repeat' split at h
      all_goals (cases h; exact .inl rfl)
  rw [if_neg t4] at h
  by_cases t5 : u8 m 0 = 0x32
  · rw [if_pos t5] at h
    rcases check_inv h with ⟨_, rfl⟩ | ⟨h0, h⟩
    · exact .inl rfl
    · exact .inr ⟨t5, by omega, h⟩
  rw [if_neg t5] at h
  by_cases t6 : u8 m 0 = 0x33
  · rw [if_pos t6] at h
    rcases check_inv h with ⟨_, rfl⟩ | ⟨_, h⟩
    · exact .inl rfl
    · unfold rxE1 at h; exact .inl (nil h)
  rw [if_neg t6] at h
  by_cases t7 : u8 m 0 = 0x52
  · rw [if_pos t7] at h
    rcases check_inv h with ⟨_, rfl⟩ | ⟨_, h⟩
    · exact .inl rfl
    · exact .inl (nil h)
  rw [if_neg t7] at h
  by_cases t8 : u8 m 0 = 0x60
  · rw [if_pos t8] at h
    rcases check_inv h with ⟨_, rfl⟩ | ⟨_, h⟩
    · exact .inl rfl
    · unfold rxPag at h
      dsimp only at h
      split at h <;> (cases h; exact .inl rfl)
  rw [if_neg t8] at h
  by_cases t9 : u8 m 0 = 0x03
  · rw [if_pos t9] at h
    rcases check_inv h with ⟨_, rfl⟩ | ⟨_, h⟩
    · exact .inl rfl
    · cases h; exact .inl rfl
  rw [if_neg t9] at h
  by_cases t10 : u8 m 0 = 0x04
  · rw [if_pos t10] at h
    rcases check_inv h with ⟨_, rfl⟩ | ⟨_, h⟩
    · exact .inl rfl
    · cases h; exact .inl rfl
  rw [if_neg t10] at h
  by_cases t11 : u8 m 0 = 0x53
  · rw [if_pos t11] at h; exact .inl (nil h)
  rw [if_neg t11] at h
  by_cases t12 : u8 m 0 = 0x80
  · rw [if_pos t12] at h
    rcases check_inv h with ⟨_, rfl⟩ | ⟨_, h⟩
    · exact .inl rfl
    · unfold rxContainer at h
      generalize be16 (slice m 4 4) 2 = len at h
      dsimp only at h
      by_cases h1 : m.length < 4 + 4 + len
      · rw [if_pos h1] at h; exact .inl (nil h)
      rw [if_neg h1] at h
      by_cases h2 : u8 (slice m 4 4) 0 = 0x82
      · rw [if_pos h2] at h
        by_cases h3 : len < 18
        · rw [if_pos h3] at h; exact .inl (nil h)
        · rw [if_neg h3] at h
          unfold cast at h
          rw [if_pos (by omega)] at h
          unfold PcuIf.rxNeigh at h
          cases h; exact .inl rfl
      · rw [if_neg h2] at h; exact .inl (nil h)
  rw [if_neg t12] at h
  exact .inl (nil h)

theorem rxInfo_neigh {e : Env} {s s' : St} {nr : Nat} {b : Bts} {v : List Nat} {o : List Out} {acc : Bool} (h : rxInfo e s nr b v = .ok s' o acc) :
    o.findSome? neighOf = none := by
  rcases rxInfo_ok h with ⟨_, rfl, _⟩ | ⟨_, rfl, _⟩
  · rfl
  · rw [List.findSome?_cons, List.findSome?_cons]
    show (infoActs nr b v).findSome? neighOf = none
    rw [List.findSome?_eq_none_iff]
    intro x hx
    unfold infoActs at hx
    rw [List.mem_flatMap] at hx
    obtain ⟨i, _, hx⟩ := hx
    rw [List.mem_flatMap] at hx
    obtain ⟨j, _, hx⟩ := hx
    unfold actOf at hx
    split at hx
    · exact absurd hx List.not_mem_nil
    · rw [List.mem_singleton.1 hx]; rfl

theorem rx_neigh {e : Env} {s s' : St} {m : List Nat} {o : List Out} {acc : Bool} (h : rx e s m = .ok s' o acc) {nr : Nat} {k : Nacc.Key}
    {c : Option Nacc.Cgi} (hn : o.findSome? neighOf = some (nr, k, c)) : Rim.told m = some (nr, k, c) := by
  have nil : ∀ {s s' : St} {acc acc' : Bool} {o : List Out}, Res.ok s [] acc = .ok s' o acc' → ¬ o.findSome? neighOf = some (nr, k, c) := by
    intro _ _ _ _ _ h h'; cases h; cases h'
  have nil' : ∀ {o : List Out}, o.findSome? neighOf = none → ¬ o.findSome? neighOf = some (nr, k, c) := by
    intro _ h h'; rw [h] at h'; cases h'
  unfold rx at h
  by_cases hl : m.length < 4
  · rw [if_pos hl] at h; exact absurd hn (nil h)
  rw [if_neg hl] at h
  dsimp only at h
  generalize hnr : u8 m 1 = nr' at h
  rw [get_ensure] at h
  dsimp only at h
  rw [show (s.get nr').getD {} = s.bts' nr' from rfl] at h
  by_cases t1 : u8 m 0 = 0x02
  · rw [if_pos t1] at h
    rcases check_inv h with ⟨_, rfl⟩ | ⟨_, h⟩
    · cases hn
    · unfold rxDataInd at h
      dsimp only at h
      split at h
      · split at h
        · cases h
        · split at h
          · cases h
          · split at h
            · exact absurd hn (nil h)
            · split at h
              · cases h
              · cases h; cases hn
      · split at h
        · exact absurd hn (nil h)
        · exact absurd hn (nil h)
  rw [if_neg t1] at h
  by_cases t2 : u8 m 0 = 0x11
  · rw [if_pos t2] at h
    rcases check_inv h with ⟨_, rfl⟩ | ⟨_, h⟩
    · cases hn
    · unfold rxDataCnf at h
      split at h <;> (cases h; cases hn)
  rw [if_neg t2] at h
  by_cases t3 : u8 m 0 = 0x10
  · rw [if_pos t3] at h
    rcases check_inv h with ⟨_, rfl⟩ | ⟨_, h⟩
    · cases hn
    · unfold rxRts at h
      dsimp only at h
      repeat' split at h
      all_goals (cases h; cases hn)
  rw [if_neg t3] at h
  by_cases t4 : u8 m 0 = 0x22
  · rw [if_pos t4] at h
    rcases check_inv h with ⟨_, rfl⟩ | ⟨_, h⟩
    · cases hn
    · unfold rxRach at h
      dsimp only at h
      repeat' split at h
      all_goals (cases h; cases hn)
  rw [if_neg t4] at h
  by_cases t5 : u8 m 0 = 0x32
  · rw [if_pos t5] at h
    rcases check_inv h with ⟨_, rfl⟩ | ⟨h0, h⟩
    · cases hn
    · exact absurd hn (nil' (rxInfo_neigh h))
  rw [if_neg t5] at h
  by_cases t6 : u8 m 0 = 0x33
  · rw [if_pos t6] at h
    rcases check_inv h with ⟨_, rfl⟩ | ⟨_, h⟩
    · cases hn
    · unfold rxE1 at h; exact absurd hn (nil h)
  rw [if_neg t6] at h
  by_cases t7 : u8 m 0 = 0x52
  · rw [if_pos t7] at h
    rcases check_inv h with ⟨_, rfl⟩ | ⟨_, h⟩
    · cases hn
    · exact absurd hn (nil h)
  rw [if_neg t7] at h
  by_cases t8 : u8 m 0 = 0x60
  · rw [if_pos t8] at h
    rcases check_inv h with ⟨_, rfl⟩ | ⟨_, h⟩
    · cases hn
    · unfold rxPag at h
      dsimp only at h
      split at h <;> (cases h; cases hn)
  rw [if_neg t8] at h
  by_cases t9 : u8 m 0 = 0x03
  · rw [if_pos t9] at h
    rcases check_inv h with ⟨_, rfl⟩ | ⟨_, h⟩
    · cases hn
    · cases h; cases hn
  rw [if_neg t9] at h
  by_cases t10 : u8 m 0 = 0x04
  · rw [if_pos t10] at h
    rcases check_inv h with ⟨_, rfl⟩ | ⟨_, h⟩
    · cases hn
    · cases h; cases hn
  rw [if_neg t10] at h
  by_cases t11 : u8 m 0 = 0x53
  · rw [if_pos t11] at h; exact absurd hn (nil h)
  rw [if_neg t11] at h
  by_cases t12 : u8 m 0 = 0x80
  · rw [if_pos t12] at h
    rcases check_inv h with ⟨_, rfl⟩ | ⟨hl4, h⟩
    · cases hn
    · unfold rxContainer at h
      dsimp only at h
      have hlen : be16 (slice m 4 4) 2 = 256 * m.getD 6 0 + m.getD (6 + 1) 0 := by
        unfold be16
        rw [u8_slice (by omega), u8_slice (by omega)]
        rfl
      rw [hlen] at h
      by_cases h1 : m.length < 4 + 4 + (256 * m.getD 6 0 + m.getD (6 + 1) 0)
      · rw [if_pos h1] at h; exact absurd hn (nil h)
      rw [if_neg h1] at h
      by_cases h2 : u8 (slice m 4 4) 0 = 0x82
      · rw [if_pos h2] at h
        by_cases h3 : 256 * m.getD 6 0 + m.getD (6 + 1) 0 < 18
        · rw [if_pos h3] at h; exact absurd hn (nil h)
        · rw [if_neg h3] at h
          unfold cast at h
          rw [if_pos (by omega)] at h
          unfold PcuIf.rxNeigh at h
          rw [u8_slice (by omega)] at h2
          have hb : ∀ i, i + 1 < 18 → be16 (slice m 8 18) i = 256 * m.getD (8 + i) 0 + m.getD (8 + i + 1) 0 := by
            intro i hi
            unfold be16
            rw [u8_slice (by omega), u8_slice (by omega)]
            rfl
          have hu : ∀ i, i < 18 → u8 (slice m 8 18) i = m.getD (8 + i) 0 := fun i hi => u8_slice hi
          rw [hb 0 (by decide), hb 2 (by decide), hb 4 (by decide), hu 6 (by decide), hu 7 (by decide), hb 8 (by decide), hb 10 (by decide),
            hu 12 (by decide), hb 13 (by decide), hu 15 (by decide), hb 16 (by decide)] at h
          injection h with a1 a2 a3
          rw [← a2] at hn
          rw [show List.findSome? neighOf _ = some _ from rfl] at hn
          injection hn with hn
          rw [← hn]
          unfold Rim.told
          dsimp only
          rw [if_pos ⟨t12, h2, by omega, by omega⟩, ← hnr]
          rfl
      · rw [if_neg h2] at h; exact absurd hn (nil h)
  rw [if_neg t12] at h
  exact absurd hn (nil h)

/-- Exactly the confirmations hand on an address. -/
theorem rx_told {e : Env} {s s' : St} {m : List Nat} {o : List Out} {acc : Bool} (h : rx e s m = .ok s' o acc) :
    o.findSome? neighOf = Rim.told m := by
  cases hf : o.findSome? neighOf with
  | some x => exact (rx_neigh h hf).symm
  | none =>
    by_cases hc : m.getD 0 0 = 0x80 ∧ m.getD 4 0 = 0x82 ∧ 18 ≤ 256 * m.getD 6 0 + m.getD (6 + 1) 0 ∧ 8 + (256 * m.getD 6 0 + m.getD (6 + 1) 0) ≤ m.length
    · exfalso
      obtain ⟨t12, h2, h3, h4⟩ := hc
      have t12 : u8 m 0 = 0x80 := t12
      have hlen : be16 (slice m 4 4) 2 = 256 * m.getD 6 0 + m.getD (6 + 1) 0 := by
        unfold be16
        rw [u8_slice (by omega), u8_slice (by omega)]
        rfl
      unfold rx at h
      rw [if_neg (by omega)] at h
      dsimp only at h
      rw [get_ensure] at h
      dsimp only at h
      rw [t12] at h
      rw [if_neg (by decide), if_neg (by decide), if_neg (by decide), if_neg (by decide), if_neg (by decide), if_neg (by decide), if_neg (by decide),
        if_neg (by decide), if_neg (by decide), if_neg (by decide), if_neg (by decide), if_pos rfl] at h
      unfold check cast rxContainer at h
      dsimp only at h
      rw [if_neg (by omega), if_pos (by omega), hlen, if_neg (by omega), if_pos (by rw [u8_slice (by omega)]; exact h2), if_neg (by omega)] at h
      unfold cast PcuIf.rxNeigh at h
      rw [if_pos (by omega)] at h
      cases h
      cases hf
    · unfold Rim.told
      dsimp only
      rw [if_neg hc]

end Verif.PcuIf

namespace Verif.Rim

open BtsMsg PcuIf
open Verif.Nacc (Key Cgi Si Ctx Notif Mob)

theorem rxNeigh_l1 {home : Nat → Nat} {s s' : Pcu} {rimOk : Bool} {nr : Nat} {k : Key} {c : Option Cgi} {net : List Net}
    {mob : Nat → List Nacc.Out} (h : rxNeigh home s rimOk nr k c = .ok s' net mob) : s'.l1 = s.l1 ∧ s'.cell = s.cell := by
  unfold rxNeigh at h
  cases c <;> (cases h; exact ⟨rfl, rfl⟩)

theorem one_l1 {home : Nat → Nat} {s s' : Pcu} {i : Nat} {ev : Bts → Nacc.Ev} {net : List Net} {mob : Nat → List Nacc.Out}
    (h : one home s i ev = .ok s' net mob) : s'.l1 = s.l1 ∧ s'.cell = s.cell := by
  cases h; exact ⟨rfl, rfl⟩

theorem rim_l1 {home : Nat → Nat} {s s' : Pcu} {p : Pdu} {net : List Net} {mob : Nat → List Nacc.Out}
    (h : handleRim home s p = .ok s' net mob) : s'.l1 = s.l1 ∧ s'.cell = s.cell := by
  unfold handleRim at h
  split at h
  · cases h; exact ⟨rfl, rfl⟩
  split at h
  · cases h; exact ⟨rfl, rfl⟩
  split at h
  · cases h; exact ⟨rfl, rfl⟩
  · cases h; exact ⟨rfl, rfl⟩
  · split at h
    · cases h; exact ⟨rfl, rfl⟩
    · unfold handleInfo at h
      split at h
      · cases h
      · cases h; exact ⟨rfl, rfl⟩
  all_goals (cases h; exact ⟨rfl, rfl⟩)

/-- Events of one mobile. -/
theorem step_one (home : Nat → Nat) (e : Env) (s : Pcu) (i : Nat) :
    (∀ q r n, step home e s (.notify q r i n) = one home s i fun b => .notify (worldOf s (home i) b q r) n) ∧
    (∀ p, step home e s (.rts i p) = one home s i fun _ => .rts p) ∧ (∀ p, step home e s (.ack i p) = one home s i fun _ => .ack p) ∧
    (∀ p, step home e s (.noAck i p) = one home s i fun _ => .noAck p) ∧ step home e s (.timer i) = one home s i fun _ => .timer :=
  ⟨fun _ _ _ => rfl, fun _ => rfl, fun _ => rfl, fun _ => rfl, rfl⟩

/-- Only messages of BTSs change what the PCU knows of its BTSs. -/
theorem step_l1 {home : Nat → Nat} {e : Env} {s s' : Pcu} {ev : In} {net : List Net} {mob : Nat → List Nacc.Out}
    (h : step home e s ev = .ok s' net mob) :
    (∃ rimOk m o acc, ev = .bts rimOk m ∧ rx e s.l1 m = .ok s'.l1 o acc ∧ s'.cell = s.cell.or (o.findSome? bssgpOf)) ∨
    (ev.btsMsg = none ∧ s'.l1 = s.l1 ∧ s'.cell = s.cell) := by
  cases ev with
  | bts rimOk m =>
    left
    change rxBts home e s rimOk m = _ at h
    unfold rxBts at h
    cases hr : rx e s.l1 m with
    | exit => rw [hr] at h; cases h
    | abort => rw [hr] at h; cases h
    | outside => rw [hr] at h; cases h
    | ok l1 o acc =>
      rw [hr] at h
      dsimp only at h
      have hc : ∀ o : List Out, (match s.cell with | some c => some c | none => o.findSome? bssgpOf) = s.cell.or (o.findSome? bssgpOf) := by
        intro o; cases s.cell <;> rfl
      refine ⟨rimOk, m, o, acc, rfl, ?_⟩
      split at h
      · obtain ⟨h1, h2⟩ := rxNeigh_l1 h
        rw [h1, h2]
        exact ⟨hr, hc o⟩
      · cases h
        exact ⟨hr, hc o⟩
  | rim p => exact .inr ⟨rfl, rim_l1 h⟩
  | notify q r i n => rw [(step_one home e s i).1] at h; exact .inr ⟨rfl, one_l1 h⟩
  | rts i p => rw [(step_one home e s i).2.1] at h; exact .inr ⟨rfl, one_l1 h⟩
  | ack i p => rw [(step_one home e s i).2.2.1] at h; exact .inr ⟨rfl, one_l1 h⟩
  | noAck i p => rw [(step_one home e s i).2.2.2.1] at h; exact .inr ⟨rfl, one_l1 h⟩
  | timer i => rw [(step_one home e s i).2.2.2.2] at h; exact .inr ⟨rfl, one_l1 h⟩
  | wait d => cases h; exact .inr ⟨rfl, rfl, rfl⟩
  | cleanNeigh => cases h; exact .inr ⟨rfl, rfl, rfl⟩
  | cleanSi => cases h; exact .inr ⟨rfl, rfl, rfl⟩
  | keepNeigh d => cases h; exact .inr ⟨rfl, rfl, rfl⟩
  | keepSi d => cases h; exact .inr ⟨rfl, rfl, rfl⟩

theorem run_snoc {e : Env} {l : List (List Nat)} {s0 s s' : St} {o o' : List Out} {m : List Nat} {acc : Bool}
    (h : PcuIf.run e s0 l = some (s, o)) (hm : rx e s m = .ok s' o' acc) : PcuIf.run e s0 (l ++ [m]) = some (s', o ++ o') := by
  rw [run_append, h]
  simp only [PcuIf.run, hm, Option.map_some, Option.bind_some]
  simp

/-- The BTSs in a history are those that the interface to the BTSs makes of the messages. -/
theorem run_l1 {home : Nat → Nat} {e : Env} {l : List Did} {s : Pcu} (h : Run home e l s) :
    ∃ o, PcuIf.run e {} (msgs l) = some (s.l1, o) ∧ s.cell = o.findSome? bssgpOf := by
  induction h with
  | init => exact ⟨[], rfl, rfl⟩
  | step ev hr hs ih =>
    obtain ⟨o, h1, h2⟩ := ih
    rcases step_l1 hs with ⟨rimOk, m, o', acc, rfl, h3, h4⟩ | ⟨h3, h4, h5⟩
    · refine ⟨o ++ o', ?_, ?_⟩
      · unfold msgs
        rw [List.filterMap_cons]
        dsimp only [In.btsMsg]
        rw [List.reverse_cons]
        exact run_snoc h1 h3
      · rw [h4, h2, List.findSome?_append]
    · refine ⟨o, ?_, by rw [h5]; exact h2⟩
      unfold msgs
      rw [List.filterMap_cons, h3, h4]
      exact h1

/-- System information known of a BTS, in all histories. -/
theorem broadcast_si {e : Env} {ms : List (List Nat)} {s : St} {o : List Out} (h : PcuIf.run e {} ms = some (s, o)) {nr : Nat} {k : SiKind}
    {x : Option (List Nat)} (hb : Broadcast ms nr k x) : siOf (s.bts' nr) k = x := by
  cases hb with
  | sent ms1 ms2 fill body d hm hf hd hs hl ht hn =>
    rw [hm] at h
    obtain ⟨b, h1, h2, _⟩ := C70_system_information e nr k ms1 ms2 fill body d s o hf hd hs h hn
    rw [show s.bts' nr = b by unfold St.bts'; rw [h1]; rfl]
    exact h2 hl ht
  | stopped ms1 ms2 fill body d hm hf hd hs hc hn =>
    rw [hm] at h
    obtain ⟨b, h1, _, h2⟩ := C70_system_information e nr k ms1 ms2 fill body d s o hf hd hs h hn
    rw [show s.bts' nr = b by unfold St.bts'; rw [h1]; rfl]
    exact h2 hc
  | never hn =>
    rw [run_si nr k ms {} s o h hn]
    cases k <;> rfl

theorem info_cgi {a : Info} {body : List Nat} (h : a.Is body) : cgiOf (body.take 1003) = a.cgi := (info_fields h).2.cgi

/-- The cell of a BTS, in all histories. -/
theorem announced_cgi {e : Env} {ms : List (List Nat)} {s : St} {o : List Out} (h : PcuIf.run e {} ms = some (s, o)) {nr : Nat} {a : Info}
    (ha : Announced ms nr a) : ∃ b, s.get nr = some b ∧ b.cgi = a.cgi := by
  obtain ⟨ms1, ms2, fill, body, rfl, hf, hi, hn⟩ := ha
  obtain ⟨b, h1, h2⟩ := C70_config_partial e nr ms1 ms2 fill body a s o hf hi h hn
  exact ⟨b, h1, h2.cgi⟩

/-- What is told to BSSGP about a cell. -/
theorem bssgp_cell {e : Env} {c : Cgi} : ∀ (ms : List (List Nat)) (s s' : St) (o : List Out), PcuIf.run e s ms = some (s', o) → OneCell ms c →
    ∀ g, o.findSome? bssgpOf = some g → g = c
  | [], s, s', o, h, _, g, hg => by
    rw [PcuIf.run] at h
    obtain ⟨rfl, rfl⟩ : s = s' ∧ [] = o := by simpa using h
    cases hg
  | m :: ms, s, s', o, h, hc, g, hg => by
    obtain ⟨s1, o1, acc, o2, h1, h2, rfl⟩ := run_cons h
    rw [List.findSome?_append] at hg
    cases ho : o1.findSome? bssgpOf with
    | none =>
      rw [ho] at hg
      exact bssgp_cell ms s1 s' o2 h2 (fun x hx => hc x (List.mem_cons_of_mem _ hx)) g hg
    | some g' =>
      rw [ho] at hg
      obtain rfl : g' = g := Option.some.inj hg
      rcases rx_bssgp h1 with h3 | ⟨h3, h4, h5⟩
      · rw [h3] at ho; cases ho
      · obtain ⟨nr, fill, body, a, rfl, hf, hi, rfl⟩ := hc m List.mem_cons_self (u8_some h3 (by omega))
        rw [rx_info hf hi] at h1
        rcases rxInfo_ok h1 with ⟨_, rfl, _⟩ | ⟨_, rfl, _⟩
        · cases ho
        · obtain rfl : cgiOf (body.take 1003) = g' := Option.some.inj ho
          exact info_cgi hi

/-- BSSGP is set up when a BTS has announced itself. -/
theorem bssgp_some {e : Env} {ms : List (List Nat)} {s : St} {o : List Out} (h : PcuIf.run e {} ms = some (s, o)) {nr : Nat} {a : Info}
    (ha : Announced ms nr a) : (o.findSome? bssgpOf).isSome := by
  obtain ⟨ms1, ms2, fill, body, rfl, hf, hi, hn⟩ := ha
  obtain ⟨s1, o1, o2, h1, h2, rfl⟩ := run_split h
  obtain ⟨s2, o3, acc, o4, h3, h4, rfl⟩ := run_cons h2
  rw [rx_info hf hi] at h3
  rcases rxInfo_ok h3 with ⟨_, _, _, h5⟩ | ⟨_, rfl, _⟩
  · rw [flag_active (info_fields hi).2] at h5; cases h5
  · rw [List.findSome?_append]
    cases o1.findSome? bssgpOf <;> rfl

theorem find_cgi {l : List (Nat × Bts)} {nr : Nat} {b : Bts} {c : Cgi} (hb : (l.find? (·.1 = nr)).map (·.2) = some b) (hc : b.cgi = c)
    (hu : ∀ x ∈ l, x.2.cgi = c → x.1 = nr) : l.find? (·.2.cgi = c) = some (nr, b) := by
  induction l with
  | nil => cases hb
  | cons x l ih =>
    rw [List.find?_cons] at hb ⊢
    by_cases hx : x.2.cgi = c
    · have hn := hu x List.mem_cons_self hx
      rw [show decide (x.1 = nr) = true from decide_eq_true hn] at hb
      rw [show decide (x.2.cgi = c) = true from decide_eq_true hx]
      have : x.2 = b := Option.some.inj hb
      rw [← hn, ← this]
    · rw [show decide (x.2.cgi = c) = false from decide_eq_false hx]
      have hn : x.1 ≠ nr := by
        intro hn
        rw [show decide (x.1 = nr) = true from decide_eq_true hn] at hb
        have : x.2 = b := Option.some.inj hb
        exact hx (this ▸ hc)
      rw [show decide (x.1 = nr) = false from decide_eq_false hn] at hb
      exact ih hb fun y hy => hu y (List.mem_cons_of_mem _ hy)

theorem siList_forRim (b : Bts) : siList b = forRim (siOf b .si1) (siOf b .si3) (siOf b .si13) := by
  unfold siList forRim siOf
  cases b.si1 <;> cases b.si3 <;> cases b.si13 <;> rfl

theorem step_rim (home : Nat → Nat) (e : Env) (s : Pcu) (p : Pdu) : step home e s (.rim p) = handleRim home s p := rfl

/-! ### The caches -/

theorem copySi_take {len : Nat} : ∀ (si : List (List Nat)) (buf buf' : List Nat), copySi len buf si = some buf' →
    buf' = buf ++ (si.map (List.take len)).flatten
  | [], buf, buf', h => by
    rw [copySi] at h
    rw [← Option.some.inj h]; simp
  | x :: si, buf, buf', h => by
    rw [copySi] at h
    split at h
    · rw [copySi_take si _ _ h]; simp
    · cases h

theorem clean_hist {κ ν : Type} [DecidableEq κ] {c : Cache.Cache κ ν} {st : List (Cache.Stored κ ν)} {now : Nat} {ks : List Nat}
    (h : Cache.Hist c st now ks) : Cache.Hist (clean now c) st now ks := by
  unfold clean
  cases hd : c.timer with
  | none => exact h
  | some d =>
    dsimp only
    split
    · exact .timer d h hd ‹_›
    · exact h

/-- A report changes the cache of system information and the procedures of mobiles in one cell, other PDUs change nothing. -/
theorem rim_inv {home : Nat → Nat} {s s' s0 : Pcu} {p : Pdu} {net : List Net} {mob : Nat → List Nacc.Out}
    (h : handleRim home s p = .ok s' net mob) :
    (mob = fun _ => []) ∧ ((s' = s ∧ Did.report ⟨.rim p, net, mob, s0⟩ = none) ∨
    ∃ c nr b g v, p.dst = .geran c ∧ byCgi s.l1 c = some (nr, b) ∧ Did.report ⟨.rim p, net, mob, s0⟩ = some (g, v) ∧ s' = { s with
      sis := Cache.add s.now s.sis g v
      nacc := fun i => if home i = nr then (s.nacc i).map fun c => Nacc.rxSi c g v else s.nacc i }) := by
  obtain ⟨dst, src, raw, body⟩ := p
  unfold handleRim at h
  dsimp only at h
  cases dst with
  | other id => cases h; exact ⟨rfl, .inl ⟨rfl, rfl⟩⟩
  | geran c =>
    dsimp only at h
    cases hb : byCgi s.l1 c with
    | none => rw [hb] at h; cases h; refine ⟨rfl, .inl ⟨rfl, ?_⟩⟩; unfold Did.report; split <;> simp_all
    | some x =>
      obtain ⟨nr, b⟩ := x
      rw [hb] at h
      dsimp only at h
      cases body with
      | none => cases h; exact ⟨rfl, .inl ⟨rfl, rfl⟩⟩
      | some body =>
        cases body with
        | request app seq type ver cell => cases h; exact ⟨rfl, .inl ⟨rfl, rfl⟩⟩
        | error => cases h; exact ⟨rfl, .inl ⟨rfl, rfl⟩⟩
        | otherKind => cases h; exact ⟨rfl, .inl ⟨rfl, rfl⟩⟩
        | info app seq type ver r =>
          cases r with
          | err => cases h; exact ⟨rfl, .inl ⟨rfl, rfl⟩⟩
          | si g psi si =>
            dsimp only at h
            by_cases ha : app = 1
            · subst ha
              rw [if_neg (by decide)] at h
              unfold handleInfo at h
              cases hc : copySi (if psi then 22 else 21) [] si with
              | none => rw [hc] at h; cases h
              | some buf =>
                rw [hc] at h
                cases h
                have := copySi_take si [] buf hc
                rw [List.nil_append] at this
                refine ⟨rfl, .inr ⟨c, nr, b, g, ⟨buf, psi⟩, rfl, hb, ?_, rfl⟩⟩
                show (if 1 = 1 then some (g, _) else none) = _
                rw [if_pos rfl, this]
            · rw [if_pos ha] at h
              cases h
              refine ⟨rfl, .inl ⟨rfl, ?_⟩⟩
              show (if app = 1 then some (g, _) else none) = _
              rw [if_neg ha]

/-- Effect of an event on the caches. -/
theorem step_caches {home : Nat → Nat} {e : Env} {s s' : Pcu} {ev : In} {net : List Net} {mob : Nat → List Nacc.Out}
    (h : step home e s ev = .ok s' net mob) {st : List (Cache.Stored Cgi Si)} {ks : List Nat} (hs : Cache.Hist s.sis st s.now ks)
    {nt : List (Cache.Stored Key Cgi)} {kn : List Nat} (hn : Cache.Hist s.neigh nt s.now kn) :
    (∃ st' ks', Cache.Hist s'.sis st' s'.now ks' ∧ ((st' = st ∧ Did.report ⟨ev, net, mob, s'⟩ = none) ∨
      ∃ g v, st' = ⟨s.now, g, v⟩ :: st ∧ Did.report ⟨ev, net, mob, s'⟩ = some (g, v))) ∧
    ∃ nt' kn', Cache.Hist s'.neigh nt' s'.now kn' ∧ ((nt' = nt ∧ Did.told ⟨ev, net, mob, s'⟩ = none) ∨
      ∃ k g, nt' = ⟨s.now, k, g⟩ :: nt ∧ Did.told ⟨ev, net, mob, s'⟩ = some (k, g)) := by
  have hone : ∀ i f, one home s i f = .ok s' net mob → s'.sis = s.sis ∧ s'.neigh = s.neigh ∧ s'.now = s.now := by
    intro i f h; cases h; exact ⟨rfl, rfl, rfl⟩
  cases ev with
  | bts rimOk m =>
    change rxBts home e s rimOk m = _ at h
    unfold rxBts at h
    cases hr : rx e s.l1 m with
    | exit => rw [hr] at h; cases h
    | abort => rw [hr] at h; cases h
    | outside => rw [hr] at h; cases h
    | ok l1 o acc =>
      rw [hr] at h
      dsimp only at h
      rw [rx_told hr] at h
      have hd : Did.told ⟨.bts rimOk m, net, mob, s'⟩ = (told m).bind fun x => x.2.2.map fun g => (x.2.1, g) := rfl
      cases hf : told m with
      | none =>
        rw [hf] at h hd
        cases h
        exact ⟨⟨st, ks, hs, .inl ⟨rfl, rfl⟩⟩, nt, kn, hn, .inl ⟨rfl, hd⟩⟩
      | some x =>
        obtain ⟨nr, k, c⟩ := x
        rw [hf] at h hd
        dsimp only at h
        unfold rxNeigh at h
        cases c with
        | none => cases h; exact ⟨⟨st, ks, hs, .inl ⟨rfl, rfl⟩⟩, nt, kn, hn, .inl ⟨rfl, hd⟩⟩
        | some g => cases h; exact ⟨⟨st, ks, hs, .inl ⟨rfl, rfl⟩⟩, _, kn, .add k g hn, .inr ⟨k, g, rfl, hd⟩⟩
  | rim p =>
    rw [step_rim] at h
    obtain ⟨_, ⟨rfl, h2⟩ | ⟨c, nr, b, g, v, _, _, h2, h3⟩⟩ := rim_inv (s0 := s') h
    · exact ⟨⟨st, ks, hs, .inl ⟨rfl, h2⟩⟩, nt, kn, hn, .inl ⟨rfl, rfl⟩⟩
    · have h4 : s'.sis = Cache.add s.now s.sis g v ∧ s'.neigh = s.neigh ∧ s'.now = s.now := by rw [h3]; exact ⟨rfl, rfl, rfl⟩
      rw [h4.1, h4.2.1, h4.2.2]
      exact ⟨⟨_, ks, .add g v hs, .inr ⟨g, v, rfl, h2⟩⟩, nt, kn, hn, .inl ⟨rfl, rfl⟩⟩
  | notify q r i n =>
    rw [(step_one home e s i).1] at h
    obtain ⟨h1, h2, h3⟩ := hone i _ h
    rw [h1, h2, h3]; exact ⟨⟨st, ks, hs, .inl ⟨rfl, rfl⟩⟩, nt, kn, hn, .inl ⟨rfl, rfl⟩⟩
  | rts i p =>
    rw [(step_one home e s i).2.1] at h
    obtain ⟨h1, h2, h3⟩ := hone i _ h
    rw [h1, h2, h3]; exact ⟨⟨st, ks, hs, .inl ⟨rfl, rfl⟩⟩, nt, kn, hn, .inl ⟨rfl, rfl⟩⟩
  | ack i p =>
    rw [(step_one home e s i).2.2.1] at h
    obtain ⟨h1, h2, h3⟩ := hone i _ h
    rw [h1, h2, h3]; exact ⟨⟨st, ks, hs, .inl ⟨rfl, rfl⟩⟩, nt, kn, hn, .inl ⟨rfl, rfl⟩⟩
  | noAck i p =>
    rw [(step_one home e s i).2.2.2.1] at h
    obtain ⟨h1, h2, h3⟩ := hone i _ h
    rw [h1, h2, h3]; exact ⟨⟨st, ks, hs, .inl ⟨rfl, rfl⟩⟩, nt, kn, hn, .inl ⟨rfl, rfl⟩⟩
  | timer i =>
    rw [(step_one home e s i).2.2.2.2] at h
    obtain ⟨h1, h2, h3⟩ := hone i _ h
    rw [h1, h2, h3]; exact ⟨⟨st, ks, hs, .inl ⟨rfl, rfl⟩⟩, nt, kn, hn, .inl ⟨rfl, rfl⟩⟩
  | wait d => cases h; exact ⟨⟨st, ks, .wait d hs, .inl ⟨rfl, rfl⟩⟩, nt, kn, .wait d hn, .inl ⟨rfl, rfl⟩⟩
  | cleanNeigh => cases h; exact ⟨⟨st, ks, hs, .inl ⟨rfl, rfl⟩⟩, nt, kn, clean_hist hn, .inl ⟨rfl, rfl⟩⟩
  | cleanSi => cases h; exact ⟨⟨st, ks, clean_hist hs, .inl ⟨rfl, rfl⟩⟩, nt, kn, hn, .inl ⟨rfl, rfl⟩⟩
  | keepNeigh d => cases h; exact ⟨⟨st, ks, hs, .inl ⟨rfl, rfl⟩⟩, nt, _, .setKeep d hn, .inl ⟨rfl, rfl⟩⟩
  | keepSi d => cases h; exact ⟨⟨st, _, .setKeep d hs, .inl ⟨rfl, rfl⟩⟩, nt, kn, hn, .inl ⟨rfl, rfl⟩⟩

theorem run_sis {home : Nat → Nat} {e : Env} {l : List Did} {s : Pcu} (h : Run home e l s) :
    (∃ st ks, Cache.Hist s.sis st s.now ks ∧ st.map (fun x => (x.key, x.value)) = l.filterMap Did.report) ∧
    ∃ nt kn, Cache.Hist s.neigh nt s.now kn ∧ nt.map (fun x => (x.key, x.value)) = l.filterMap Did.told := by
  induction h with
  | init now a b => exact ⟨⟨[], _, .init b now, rfl⟩, [], _, .init a now, rfl⟩
  | step ev hr hs ih =>
    obtain ⟨⟨st, ks, h1, h2⟩, nt, kn, h3, h4⟩ := ih
    obtain ⟨⟨st', ks', h5, h6⟩, nt', kn', h7, h8⟩ := step_caches hs h1 h3
    refine ⟨⟨st', ks', h5, ?_⟩, nt', kn', h7, ?_⟩
    · rw [List.filterMap_cons]
      rcases h6 with ⟨rfl, h6⟩ | ⟨g, v, rfl, h6⟩
      · rw [h6]; exact h2
      · rw [h6, List.map_cons, h2]
    · rw [List.filterMap_cons]
      rcases h8 with ⟨rfl, h8⟩ | ⟨g, v, rfl, h8⟩
      · rw [h8]; exact h4
      · rw [h8, List.map_cons, h4]

theorem filterMap_split {α β : Type} (f : α → Option β) : ∀ (l : List α) (a : List β) (x : β) (b : List β), l.filterMap f = a ++ x :: b →
    ∃ l1 d l2, l = l1 ++ d :: l2 ∧ f d = some x ∧ l1.filterMap f = a
  | [], a, x, b, h => by
    rw [List.filterMap_nil] at h
    cases a <;> cases h
  | y :: l, a, x, b, h => by
    rw [List.filterMap_cons] at h
    cases hy : f y with
    | none =>
      rw [hy] at h
      obtain ⟨l1, d, l2, rfl, h1, h2⟩ := filterMap_split f l a x b h
      exact ⟨y :: l1, d, l2, rfl, h1, by rw [List.filterMap_cons, hy]; exact h2⟩
    | some z =>
      rw [hy] at h
      cases a with
      | nil =>
        rw [List.nil_append] at h
        injection h with h1 h2
        exact ⟨[], y, l, rfl, hy.trans (congrArg some h1), rfl⟩
      | cons w a =>
        rw [List.cons_append] at h
        injection h with h1 h2
        obtain ⟨l1, d, l2, rfl, h3, h4⟩ := filterMap_split f l a x b h2
        exact ⟨y :: l1, d, l2, rfl, h3, by rw [List.filterMap_cons, hy, h4, ← h1]⟩

theorem last_of {κ ν : Type} [DecidableEq κ] {l : List Did} {f : Did → Option (κ × ν)} {st : List (Cache.Stored κ ν)} {k : κ} {t : Nat} {v : ν}
    (h : Cache.Last st k t v) (h2 : st.map (fun x => (x.key, x.value)) = l.filterMap f) :
    ∃ l1 d l2, l = l1 ++ d :: l2 ∧ f d = some (k, v) ∧ ∀ x ∈ l1, ∀ v', f x ≠ some (k, v') := by
  obtain ⟨a, b, rfl, h3⟩ := h
  rw [List.map_append, List.map_cons] at h2
  obtain ⟨l1, d, l2, rfl, h4, h5⟩ := filterMap_split _ _ _ _ _ h2.symm
  refine ⟨l1, d, l2, rfl, h4, ?_⟩
  intro x hx v' hv'
  have hm : (k, v') ∈ l1.filterMap f := List.mem_filterMap.2 ⟨x, hx, hv'⟩
  rw [h5] at hm
  obtain ⟨y, hy, hy'⟩ := List.mem_map.1 hm
  exact h3 y hy (congrArg Prod.fst hy')

/-- System information that is found was reported last. -/
theorem sis_last {home : Nat → Nat} {e : Env} {l : List Did} {s : Pcu} (h : Run home e l s) {g : Cgi} {v : Si}
    (hv : Cache.lookup s.sis g = some v) : LastReport l g v := by
  obtain ⟨⟨st, ks, h1, h2⟩, _⟩ := run_sis h
  obtain ⟨t, _, h3⟩ := Cache.C36_latest h1 hv
  exact last_of h3 h2

/-- An address that is found was given last. -/
theorem neigh_last {home : Nat → Nat} {e : Env} {l : List Did} {s : Pcu} (h : Run home e l s) {k : Key} {g : Cgi}
    (hv : Cache.lookup s.neigh k = some g) : LastAddress l k g := by
  obtain ⟨_, nt, kn, h1, h2⟩ := run_sis h
  obtain ⟨t, _, h3⟩ := Cache.C36_latest h1 hv
  exact last_of h3 h2

end Verif.Rim
