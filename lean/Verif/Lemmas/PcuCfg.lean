import Verif.Lemmas.PcuInfo
import Verif.Spec.BtsCfg
/-!
# What a message changes
-/

namespace Verif.PcuIf

open BtsMsg

/-- The BTS an INFO indication leaves. -/
def infoBts (e : Env) (b : Bts) (v : List Nat) : Bts :=
  { b with active := true, cgi := cgiOf v, bsic := u8 v 904
           cell := Ms.cellOf { e.vty with csMask := 1 ||| maskOf (u32 v 4) 16 4, mcsMask := maskOf (u32 v 4) 20 9
                                          infoInitCs := u8 v 954, infoInitMcs := u8 v 955 }
           n3101 := if u8 v 941 ≠ 0 then u8 v 946 else b.n3101
           n3103 := if u8 v 941 ≠ 0 then u8 v 947 else b.n3103
           n3105 := if u8 v 941 ≠ 0 then u8 v 948 else b.n3105
           arfcn := trxArfcn v
           pdch := fun trx ts => if trx < 8 ∧ ts < 8 then cfgPdch (b.pdch trx ts) ((trxMask v trx).testBit ts) (tsInfo v trx ts) else b.pdch trx ts
           genIdle := genIdleOf (u8 v 1002) }

def infoTimers (t : Timers) (v : List Nat) : Timers :=
  if u8 v 941 ≠ 0 then { t3142 := u8 v 941, t3169 := u8 v 942, t3191 := u8 v 943, t3193 := u8 v 944 * 10, t3195 := u8 v 945 } else t

def infoActs (nr : Nat) (b : Bts) (v : List Nat) : List Out :=
  (List.range 8).flatMap fun trx => (List.range 8).flatMap fun ts => actOf nr trx ts (b.pdch trx ts) ((trxMask v trx).testBit ts)

/-- An INFO indication that is handled: refused, or taken over. -/
theorem rxInfo_ok {e : Env} {s s' : St} {nr : Nat} {b : Bts} {v : List Nat} {o : List Out} {acc : Bool} (h : rxInfo e s nr b v = .ok s' o acc) :
    (s' = s ∧ o = [] ∧ acc = false ∧ (u32 v 4).testBit 0 = false) ∨ (s' = { s.set nr (infoBts e b v) with timers := infoTimers s.timers v } ∧
      o = .bssgp nr (u16 v 914) (u16 v 939) (cgiOf v) :: .ns nr (u16 v 914) [nsvc v 0, nsvc v 1] :: infoActs nr b v ∧ acc = true) := by
  unfold rxInfo at h
  dsimp only at h
  by_cases h1 : u32 v 0 ≠ 0x0c
  · rw [if_pos h1] at h; cases h
  rw [if_neg h1] at h
  by_cases h2 : (!(u32 v 4).testBit 0) = true
  · rw [if_pos h2] at h
    by_cases h3 : (!b.active) = true
    · rw [if_pos h3] at h
      cases h; exact .inl ⟨rfl, rfl, rfl, by simpa using h2⟩
    · rw [if_neg h3] at h; cases h
  rw [if_neg h2] at h
  by_cases h3 : (!e.bssgp) = true
  · rw [if_pos h3] at h; cases h
  rw [if_neg h3] at h
  by_cases h4 : nsvc v 0 = none ∧ nsvc v 1 = none
  · rw [if_pos h4] at h; cases h
  rw [if_neg h4] at h
  by_cases h5 : (!e.ns) = true
  · rw [if_pos h5] at h; cases h
  rw [if_neg h5] at h
  cases h6 : (List.range 8).findSome? (trxStop v) with
  | some r =>
    rw [h6] at h
    dsimp only at h
    obtain ⟨i, _, hi⟩ := List.exists_of_findSome?_eq_some h6
    subst h
    unfold trxStop at hi
    split at hi
    · cases hi
    · split at hi <;> cases hi
  | none =>
    rw [h6] at h
    dsimp only at h
    injection h with a1 a2 a3
    exact .inr ⟨a1.symm, a2.symm, a3.symm⟩

/-- An INFO indication of an active BTS is taken over, if BSSGP and NS can be set up. -/
theorem rxInfo_active {e : Env} {s : St} {nr : Nat} {b : Bts} {v : List Nat} (h1 : u32 v 0 = 12) (h2 : (u32 v 4).testBit 0 = true)
    (h3 : e.bssgp = true) (h4 : e.ns = true) (h5 : (nsvc v 0).isSome ∨ (nsvc v 1).isSome) (h6 : ∀ i, i < 8 → trxStop v i = none) :
    rxInfo e s nr b v = .ok { s.set nr (infoBts e b v) with timers := infoTimers s.timers v }
      (.bssgp nr (u16 v 914) (u16 v 939) (cgiOf v) :: .ns nr (u16 v 914) [nsvc v 0, nsvc v 1] :: infoActs nr b v) true := by
  have h7 : (List.range 8).findSome? (trxStop v) = none := by
    rw [List.findSome?_eq_none_iff]
    intro i hi
    exact h6 i (List.mem_range.1 hi)
  unfold rxInfo
  dsimp only
  rw [if_neg (by rw [h1]; decide), h2, if_neg (by decide), h3, if_neg (by decide), if_neg (by
    rintro ⟨a, b⟩; rw [a, b] at h5; simp at h5), h4, if_neg (by decide), h7]
  rfl

/-- What is not configured: frame number, system information. -/
def cfg (b : Bts) : Bts := { b with curFn := none, si1 := none, si2 := none, si3 := none, si13 := none }

theorem follows_cfg {vty : Ms.Cfg} {a : Info} {b b' : Bts} (h : cfg b' = cfg b) (f : Follows vty a b) : Follows vty a b' := by
  have f1 : Follows vty a (cfg b) := by
    obtain ⟨x1, x2, x3, x4, x5, x6, x7, x8, x9, x10, x11, x12, x13, x14, x15, x16, x17, x18, x19⟩ := f
    exact ⟨x1, x2, x3, x4, x5, x6, x7, x8, x9, x10, x11, x12, x13, x14, x15, x16, x17, x18, x19⟩
  rw [← h] at f1
  obtain ⟨x1, x2, x3, x4, x5, x6, x7, x8, x9, x10, x11, x12, x13, x14, x15, x16, x17, x18, x19⟩ := f1
  exact ⟨x1, x2, x3, x4, x5, x6, x7, x8, x9, x10, x11, x12, x13, x14, x15, x16, x17, x18, x19⟩

/-- A message that is not an INFO indication. -/
structure Step (s s' : St) (nr : Nat) (o : List Out) : Prop where
  mono : ∀ n, (s.get n).isSome → (s'.get n).isSome
  other : ∀ n, n ≠ nr → s'.bts' n = s.bts' n
  this : cfg (s'.bts' nr) = cfg (s.bts' nr)
  timers : (s.get nr).isSome → s'.timers = s.timers
  acts : ∀ n t ts on, Out.actReq n t ts on ∉ o

theorem ensure_some (s : St) (nr : Nat) : ((s.ensure nr).get nr).isSome := by rw [get_ensure]; rfl

theorem ensure_bts' (s : St) (nr n : Nat) : (s.ensure nr).bts' n = s.bts' n := by
  unfold St.bts'
  by_cases h : n = nr
  · subst h; rw [get_ensure]; rfl
  · rw [get_ensure_other s h]

theorem ensure_mono (s : St) (nr n : Nat) (h : (s.get n).isSome) : ((s.ensure nr).get n).isSome := by
  by_cases h' : n = nr
  · subst h'; exact ensure_some s n
  · rw [get_ensure_other s h']; exact h

theorem ensure_timers (s : St) (nr : Nat) (h : (s.get nr).isSome) : (s.ensure nr).timers = s.timers := by
  unfold St.ensure
  cases h' : s.get nr
  · rw [h'] at h; simp at h
  · rfl

theorem set_bts' (s : St) (nr n : Nat) (b : Bts) (h : (s.get nr).isSome) : (s.set nr b).bts' n = if n = nr then b else s.bts' n := by
  unfold St.bts'; rw [get_set s nr n b h]; split <;> rfl

theorem set_mono (s : St) (nr n : Nat) (b : Bts) (h : (s.get nr).isSome) (hn : (s.get n).isSome) : ((s.set nr b).get n).isSome := by
  rw [get_set s nr n b h]; split
  · rfl
  · exact hn

theorem step_same {s : St} {nr : Nat} {o : List Out} {e1 : List E1} (h : ∀ n t ts on, Out.actReq n t ts on ∉ o) :
    Step s { s.ensure nr with e1 := e1 } nr o where
  mono n hn := ensure_mono s nr n hn
  other n hn := ensure_bts' s nr n
  this := congrArg cfg (ensure_bts' s nr nr)
  timers hn := ensure_timers s nr hn
  acts := h

theorem step_set {s : St} {nr : Nat} {b' : Bts} {o : List Out} (hb : cfg b' = cfg (s.bts' nr)) (h : ∀ n t ts on, Out.actReq n t ts on ∉ o) :
    Step s ((s.ensure nr).set nr b') nr o where
  mono n hn := set_mono _ _ _ _ (ensure_some s nr) (ensure_mono s nr n hn)
  other n hn := by rw [set_bts' _ _ _ _ (ensure_some s nr), if_neg hn]; exact ensure_bts' s nr n
  this := by rw [set_bts' _ _ _ _ (ensure_some s nr), if_pos rfl]; exact hb
  timers hn := ensure_timers s nr hn
  acts := h

theorem check_inv {s s' : St} {m : List Nat} {n : Nat} {f : List Nat → Res} {o : List Out} {acc : Bool} (h : check s m n f = .ok s' o acc) :
    (s' = s ∧ o = []) ∨ (4 + n ≤ m.length ∧ f (slice m 4 n) = .ok s' o acc) := by
  unfold check at h
  split at h
  · cases h; exact .inl ⟨rfl, rfl⟩
  · unfold cast at h
    split at h
    · rename_i h1; exact .inr ⟨h1, h⟩
    · cases h

theorem dataBcch_cfg (b : Bts) (d : List Nat) (n : Nat) : cfg (dataBcch b d n).1 = cfg b := by
  unfold dataBcch
  repeat' split
  all_goals rfl

theorem rxDataInd_inv {s s' : St} {nr : Nat} {b : Bts} {v : List Nat} {o : List Out} {acc : Bool} (h : rxDataInd s nr b v = .ok s' o acc) :
    (s' = s ∨ ∃ b', s' = s.set nr b' ∧ cfg b' = cfg b) ∧ ∀ n t ts on, Out.actReq n t ts on ∉ o := by
  unfold rxDataInd at h
  dsimp only at h
  split at h
  · split at h
    · cases h
    · split at h
      · cases h
      · split at h
        · cases h; exact ⟨.inr ⟨_, rfl, rfl⟩, by simp⟩
        · split at h
          · cases h
          · cases h; exact ⟨.inr ⟨_, rfl, rfl⟩, by simp⟩
  · split at h
    · cases h; exact ⟨.inr ⟨_, rfl, dataBcch_cfg _ _ _⟩, by simp⟩
    · cases h; exact ⟨.inl rfl, by simp⟩

theorem rxDataCnf_inv {s s' : St} {nr : Nat} {v : List Nat} {o : List Out} {acc : Bool} (h : rxDataCnf s nr v = .ok s' o acc) :
    s' = s ∧ ∀ n t ts on, Out.actReq n t ts on ∉ o := by
  unfold rxDataCnf at h
  split at h <;> (cases h; exact ⟨rfl, by simp⟩)

theorem rxRts_inv {s s' : St} {nr : Nat} {b : Bts} {v : List Nat} {o : List Out} {acc : Bool} (h : rxRts s nr b v = .ok s' o acc) :
    s' = s ∧ ∀ n t ts on, Out.actReq n t ts on ∉ o := by
  unfold rxRts at h
  dsimp only at h
  repeat' split at h
  all_goals (cases h; exact ⟨rfl, by simp⟩)

theorem rxRach_inv {s s' : St} {nr : Nat} {b : Bts} {v : List Nat} {o : List Out} {acc : Bool} (h : rxRach s nr b v = .ok s' o acc) :
    s' = s ∧ ∀ n t ts on, Out.actReq n t ts on ∉ o := by
  unfold rxRach at h
  dsimp only at h
  repeat' split at h
  all_goals (cases h; exact ⟨rfl, by simp⟩)

theorem rxPag_inv {s s' : St} {nr : Nat} {v : List Nat} {o : List Out} {acc : Bool} (h : rxPag s nr v = .ok s' o acc) :
    s' = s ∧ ∀ n t ts on, Out.actReq n t ts on ∉ o := by
  unfold rxPag at h
  dsimp only at h
  split at h <;> (cases h; exact ⟨rfl, by simp⟩)

theorem rxContainer_inv {s s' : St} {nr : Nat} {m v : List Nat} {o : List Out} {acc : Bool} (h : rxContainer s nr m v = .ok s' o acc) :
    s' = s ∧ ∀ n t ts on, Out.actReq n t ts on ∉ o := by
  unfold rxContainer at h
  generalize be16 v 2 = len at h
  dsimp only at h
  by_cases h1 : m.length < 4 + 4 + len
  · rw [if_pos h1] at h; cases h; exact ⟨rfl, by simp⟩
  rw [if_neg h1] at h
  by_cases h2 : u8 v 0 = 0x82
  · rw [if_pos h2] at h
    by_cases h3 : len < 18
    · rw [if_pos h3] at h; cases h; exact ⟨rfl, by simp⟩
    · rw [if_neg h3] at h
      unfold cast at h
      rw [if_pos (by omega)] at h
      unfold rxNeigh at h
      cases h; exact ⟨rfl, by simp⟩
  · rw [if_neg h2] at h; cases h; exact ⟨rfl, by simp⟩

/-- What a message changes, for messages of any octets. -/
theorem rx_step {e : Env} {s s' : St} {m : List Nat} {o : List Out} {acc : Bool} (h : rx e s m = .ok s' o acc) :
    Step s s' (u8 m 1) o ∨ (u8 m 0 = 0x32 ∧ 1007 ≤ m.length ∧ rxInfo e (s.ensure (u8 m 1)) (u8 m 1) (s.bts' (u8 m 1)) (slice m 4 1003) = .ok s' o acc) := by
  unfold rx at h
  by_cases hl : m.length < 4
  · rw [if_pos hl] at h
    cases h
    exact .inl { mono := fun _ h => h, other := fun _ _ => rfl, this := rfl, timers := fun _ => rfl, acts := by simp }
  · rw [if_neg hl] at h
    dsimp only at h
    generalize hnr : u8 m 1 = nr at h ⊢
    rw [get_ensure] at h
    dsimp only at h
    rw [show (s.get nr).getD {} = s.bts' nr from rfl] at h
    have same : ∀ {o : List Out}, s' = s.ensure nr ∧ (∀ n t ts on, Out.actReq n t ts on ∉ o) → Step s s' nr o := by
      rintro o ⟨rfl, h'⟩; exact step_same h'
    have none : s' = s.ensure nr ∧ o = [] → Step s s' nr o := by
      rintro ⟨h1, rfl⟩; exact same ⟨h1, by simp⟩
    by_cases t1 : u8 m 0 = 0x02
    · rw [if_pos t1] at h
      rcases check_inv h with h | ⟨_, h⟩
      · exact .inl (none h)
      · obtain ⟨h1 | ⟨b', h1, h2⟩, h3⟩ := rxDataInd_inv h
        · exact .inl (same ⟨h1, h3⟩)
        · rw [h1]; exact .inl (step_set h2 h3)
    rw [if_neg t1] at h
    by_cases t2 : u8 m 0 = 0x11
    · rw [if_pos t2] at h
      rcases check_inv h with h | ⟨_, h⟩
      · exact .inl (none h)
      · exact .inl (same (rxDataCnf_inv h))
    rw [if_neg t2] at h
    by_cases t3 : u8 m 0 = 0x10
    · rw [if_pos t3] at h
      rcases check_inv h with h | ⟨_, h⟩
      · exact .inl (none h)
      · exact .inl (same (rxRts_inv h))
    rw [if_neg t3] at h
    by_cases t4 : u8 m 0 = 0x22
    · rw [if_pos t4] at h
      rcases check_inv h with h | ⟨_, h⟩
      · exact .inl (none h)
      · exact .inl (same (rxRach_inv h))
    rw [if_neg t4] at h
    by_cases t5 : u8 m 0 = 0x32
    · rw [if_pos t5] at h
      rcases check_inv h with h | ⟨h0, h⟩
      · exact .inl (none h)
      · exact .inr ⟨t5, by omega, h⟩
    rw [if_neg t5] at h
    by_cases t6 : u8 m 0 = 0x33
    · rw [if_pos t6] at h
      rcases check_inv h with h | ⟨_, h⟩
      · exact .inl (none h)
      · unfold rxE1 at h
        cases h
        exact .inl (step_same (by simp))
    rw [if_neg t6] at h
    by_cases t7 : u8 m 0 = 0x52
    · rw [if_pos t7] at h
      rcases check_inv h with h | ⟨_, h⟩
      · exact .inl (none h)
      · cases h; exact .inl (same ⟨rfl, by simp⟩)
    rw [if_neg t7] at h
    by_cases t8 : u8 m 0 = 0x60
    · rw [if_pos t8] at h
      rcases check_inv h with h | ⟨_, h⟩
      · exact .inl (none h)
      · exact .inl (same (rxPag_inv h))
    rw [if_neg t8] at h
    by_cases t9 : u8 m 0 = 0x03
    · rw [if_pos t9] at h
      rcases check_inv h with h | ⟨_, h⟩
      · exact .inl (none h)
      · cases h; exact .inl (same ⟨rfl, by simp⟩)
    rw [if_neg t9] at h
    by_cases t10 : u8 m 0 = 0x04
    · rw [if_pos t10] at h
      rcases check_inv h with h | ⟨_, h⟩
      · exact .inl (none h)
      · cases h; exact .inl (same ⟨rfl, by simp⟩)
    rw [if_neg t10] at h
    by_cases t11 : u8 m 0 = 0x53
    · rw [if_pos t11] at h
      cases h; exact .inl (same ⟨rfl, by simp⟩)
    rw [if_neg t11] at h
    by_cases t12 : u8 m 0 = 0x80
    · rw [if_pos t12] at h
      rcases check_inv h with h | ⟨_, h⟩
      · exact .inl (none h)
      · exact .inl (same (rxContainer_inv h))
    rw [if_neg t12] at h
    cases h; exact .inl (same ⟨rfl, by simp⟩)

/-- DATA and INFO indications change BTSs, others do not. -/
theorem rx_step' {e : Env} {s s' : St} {m : List Nat} {o : List Out} {acc : Bool} (h : rx e s m = .ok s' o acc) :
    (∀ n, s'.bts' n = s.bts' n) ∨
    (u8 m 0 = 0x02 ∧ 184 ≤ m.length ∧ rxDataInd (s.ensure (u8 m 1)) (u8 m 1) (s.bts' (u8 m 1)) (slice m 4 180) = .ok s' o acc) ∨
    (u8 m 0 = 0x32 ∧ 1007 ≤ m.length ∧ rxInfo e (s.ensure (u8 m 1)) (u8 m 1) (s.bts' (u8 m 1)) (slice m 4 1003) = .ok s' o acc) := by
  unfold rx at h
  by_cases hl : m.length < 4
  · rw [if_pos hl] at h
    cases h
    exact .inl fun _ => rfl
  · rw [if_neg hl] at h
    dsimp only at h
    generalize hnr : u8 m 1 = nr at h ⊢
    rw [get_ensure] at h
    dsimp only at h
    rw [show (s.get nr).getD {} = s.bts' nr from rfl] at h
    have same : ∀ {o : List Out}, s' = s.ensure nr ∧ (∀ n t ts on, Out.actReq n t ts on ∉ o) → ∀ n, s'.bts' n = s.bts' n := by
      rintro o ⟨rfl, _⟩; exact ensure_bts' s nr
    have none : s' = s.ensure nr ∧ o = [] → ∀ n, s'.bts' n = s.bts' n := by
      rintro ⟨rfl, _⟩; exact ensure_bts' s nr
    by_cases t1 : u8 m 0 = 0x02
    · rw [if_pos t1] at h
      rcases check_inv h with h | ⟨h0, h⟩
      · exact .inl (none h)
      · exact .inr (.inl ⟨t1, by omega, h⟩)
    rw [if_neg t1] at h
    by_cases t2 : u8 m 0 = 0x11
    · rw [if_pos t2] at h
      rcases check_inv h with h | ⟨_, h⟩
      · exact .inl (none h)
      · exact .inl (same (rxDataCnf_inv h))
    rw [if_neg t2] at h
    by_cases t3 : u8 m 0 = 0x10
    · rw [if_pos t3] at h
      rcases check_inv h with h | ⟨_, h⟩
      · exact .inl (none h)
      · exact .inl (same (rxRts_inv h))
    rw [if_neg t3] at h
    by_cases t4 : u8 m 0 = 0x22
    · rw [if_pos t4] at h
      rcases check_inv h with h | ⟨_, h⟩
      · exact .inl (none h)
      · exact .inl (same (rxRach_inv h))
    rw [if_neg t4] at h
    by_cases t5 : u8 m 0 = 0x32
    · rw [if_pos t5] at h
      rcases check_inv h with h | ⟨h0, h⟩
      · exact .inl (none h)
      · exact .inr (.inr ⟨t5, by omega, h⟩)
    rw [if_neg t5] at h
    by_cases t6 : u8 m 0 = 0x33
    · rw [if_pos t6] at h
      rcases check_inv h with h | ⟨_, h⟩
      · exact .inl (none h)
      · unfold rxE1 at h
        cases h
        exact .inl (ensure_bts' s nr)
    rw [if_neg t6] at h
    by_cases t7 : u8 m 0 = 0x52
    · rw [if_pos t7] at h
      rcases check_inv h with h | ⟨_, h⟩
      · exact .inl (none h)
      · cases h; exact .inl (same (o := []) ⟨rfl, by simp⟩)
    rw [if_neg t7] at h
    by_cases t8 : u8 m 0 = 0x60
    · rw [if_pos t8] at h
      rcases check_inv h with h | ⟨_, h⟩
      · exact .inl (none h)
      · exact .inl (same (rxPag_inv h))
    rw [if_neg t8] at h
    by_cases t9 : u8 m 0 = 0x03
    · rw [if_pos t9] at h
      rcases check_inv h with h | ⟨_, h⟩
      · exact .inl (none h)
      · cases h; exact .inl (same (o := []) ⟨rfl, by simp⟩)
    rw [if_neg t9] at h
    by_cases t10 : u8 m 0 = 0x04
    · rw [if_pos t10] at h
      rcases check_inv h with h | ⟨_, h⟩
      · exact .inl (none h)
      · cases h; exact .inl (same (o := []) ⟨rfl, by simp⟩)
    rw [if_neg t10] at h
    by_cases t11 : u8 m 0 = 0x53
    · rw [if_pos t11] at h
      cases h; exact .inl (same (o := []) ⟨rfl, by simp⟩)
    rw [if_neg t11] at h
    by_cases t12 : u8 m 0 = 0x80
    · rw [if_pos t12] at h
      rcases check_inv h with h | ⟨_, h⟩
      · exact .inl (none h)
      · exact .inl (same (rxContainer_inv h))
    rw [if_neg t12] at h
    cases h; exact .inl (same (o := []) ⟨rfl, by simp⟩)

theorem u8_some {m : List Nat} {i x : Nat} (h : u8 m i = x) (hl : i < m.length) : m[i]? = some x := by
  rw [List.getElem?_eq_getElem hl]
  unfold u8 at h
  rw [List.getD_eq_getElem?_getD, List.getElem?_eq_getElem hl] at h
  exact congrArg some h

theorem u8_of_some {m : List Nat} {i x : Nat} (h : m[i]? = some x) : u8 m i = x := by
  unfold u8; rw [List.getD_eq_getElem?_getD, h]; rfl

/-- Messages one after the other. -/
theorem run_append (e : Env) : ∀ (l1 l2 : List (List Nat)) (s : St),
    run e s (l1 ++ l2) = (run e s l1).bind fun r => (run e r.1 l2).map fun q => (q.1, r.2 ++ q.2)
  | [], l2, s => by
    rw [List.nil_append, run]
    simp
  | m :: l1, l2, s => by
    rw [List.cons_append, run, run]
    cases h : rx e s m with
    | ok s' o acc =>
      dsimp only
      rw [run_append e l1 l2 s']
      cases run e s' l1 with
      | none => rfl
      | some r =>
        simp only [Option.map_some, Option.bind_some]
        cases run e r.1 l2 with
        | none => rfl
        | some q => simp only [Option.map_some, List.append_assoc]
    | exit => rfl
    | abort => rfl
    | outside => rfl

theorem run_cons {e : Env} {s s' : St} {m : List Nat} {ms : List (List Nat)} {o : List Out} (h : run e s (m :: ms) = some (s', o)) :
    ∃ s1 o1 acc o2, rx e s m = .ok s1 o1 acc ∧ run e s1 ms = some (s', o2) ∧ o = o1 ++ o2 := by
  rw [run] at h
  cases hx : rx e s m with
  | ok s1 o1 acc =>
    rw [hx] at h
    dsimp only at h
    cases hr : run e s1 ms with
    | none => rw [hr] at h; simp at h
    | some r =>
      rw [hr] at h
      simp only [Option.map_some, Option.some.injEq, Prod.mk.injEq] at h
      exact ⟨s1, o1, acc, r.2, rfl, by rw [hr, ← h.1], h.2.symm⟩
  | exit => rw [hx] at h; cases h
  | abort => rw [hx] at h; cases h
  | outside => rw [hx] at h; cases h

theorem run_split {e : Env} {s s' : St} {l1 l2 : List (List Nat)} {o : List Out} (h : run e s (l1 ++ l2) = some (s', o)) :
    ∃ s1 o1 o2, run e s l1 = some (s1, o1) ∧ run e s1 l2 = some (s', o2) ∧ o = o1 ++ o2 := by
  rw [run_append] at h
  cases h1 : run e s l1 with
  | none => rw [h1] at h; cases h
  | some r =>
    rw [h1] at h
    simp only [Option.bind_some] at h
    cases h2 : run e r.1 l2 with
    | none => rw [h2] at h; cases h
    | some q =>
      rw [h2] at h
      simp only [Option.map_some, Option.some.injEq, Prod.mk.injEq] at h
      exact ⟨r.1, r.2, q.2, rfl, by rw [h2, ← h.1], h.2.symm⟩

/-- The effect of an INFO indication on each BTS. -/
theorem info_bts' {e : Env} {s : St} {nr : Nat} {v : List Nat} (n : Nat) (t : Timers) :
    ({ (s.ensure nr).set nr (infoBts e (s.bts' nr) v) with timers := t } : St).bts' n = if n = nr then infoBts e (s.bts' nr) v else s.bts' n := by
  show ((s.ensure nr).set nr (infoBts e (s.bts' nr) v)).bts' n = _
  rw [set_bts' _ _ _ _ (ensure_some s nr)]
  split
  · rfl
  · exact ensure_bts' s nr n

/-- Messages that are not INFO indications of a BTS keep its configuration. -/
theorem rx_keep {e : Env} {s s' : St} {m : List Nat} {o : List Out} {acc : Bool} (h : rx e s m = .ok s' o acc) (nr : Nat)
    (hn : ¬ AboutInfo nr m) : cfg (s'.bts' nr) = cfg (s.bts' nr) ∧ ((s.get nr).isSome → (s'.get nr).isSome) := by
  rcases rx_step h with h1 | ⟨h1, h2, h3⟩
  · refine ⟨?_, h1.mono nr⟩
    by_cases hnr : nr = u8 m 1
    · rw [hnr]; exact h1.this
    · rw [h1.other nr hnr]
  · have hnr : nr ≠ u8 m 1 := fun hc => hn ⟨u8_some h1 (by omega), u8_some hc.symm (by omega)⟩
    rcases rxInfo_ok h3 with ⟨rfl, _⟩ | ⟨rfl, _⟩
    · exact ⟨congrArg cfg (ensure_bts' s _ _), ensure_mono s _ _⟩
    · refine ⟨by rw [info_bts', if_neg hnr], ?_⟩
      intro hs
      exact set_mono _ _ _ _ (ensure_some s _) (ensure_mono s _ _ hs)

theorem run_keep {e : Env} (nr : Nat) : ∀ (ms : List (List Nat)) (s s' : St) (o : List Out), run e s ms = some (s', o) →
    (∀ m ∈ ms, ¬ AboutInfo nr m) → cfg (s'.bts' nr) = cfg (s.bts' nr) ∧ ((s.get nr).isSome → (s'.get nr).isSome)
  | [], s, s', o, h, _ => by
    rw [run] at h
    obtain ⟨rfl, rfl⟩ : s = s' ∧ [] = o := by simpa using h
    exact ⟨rfl, id⟩
  | m :: ms, s, s', o, h, hm => by
    obtain ⟨s1, o1, acc, o2, h1, h2, _⟩ := run_cons h
    obtain ⟨k1, k2⟩ := rx_keep h1 nr (hm m List.mem_cons_self)
    obtain ⟨k3, k4⟩ := run_keep nr ms s1 s' o2 h2 (fun x hx => hm x (List.mem_cons_of_mem _ hx))
    exact ⟨k3.trans k1, fun h => k4 (k2 h)⟩

theorem bts'_get {s : St} {nr : Nat} (h : (s.get nr).isSome) : s.get nr = some (s.bts' nr) := by
  unfold St.bts'
  cases h' : s.get nr
  · rw [h'] at h; simp at h
  · rfl

end Verif.PcuIf
