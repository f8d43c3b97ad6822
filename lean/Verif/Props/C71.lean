import Verif.Props.C70
/-!
C71: no message of the BTS, whatever its octets, stops the PCU or makes it read outside the message.

Messages of any length and any octets. Partial: see the conditions, each with a message that meets it.
-/

namespace Verif.PcuIf

open BtsMsg

/-- Octet `i` of a message. -/
def oct (m : List Nat) (i : Nat) : Nat := (m[i]?).getD 0

/-- A block from a channel. -/
def IsBlock (m : List Nat) : Prop := oct m 0 = 0x02 ∧ 184 ≤ m.length ∧ oct m 4 = 5

/-- TRX or time slot do not exist, or more octets than fit. -/
def OddBlock (m : List Nat) : Prop := IsBlock m ∧ (8 ≤ oct m 174 ∨ 8 ≤ oct m 175 ∨ 162 < oct m 5)

/-- The frame number (32 bits) is not one. -/
def LateBlock (m : List Nat) : Prop :=
  IsBlock m ∧ 2715648 ≤ oct m 168 + 256 * oct m 169 + 65536 * (oct m 170 + 256 * oct m 171)

/-- An announcement. -/
def IsInfo (m : List Nat) : Prop := oct m 0 = 0x32 ∧ 1007 ≤ m.length

/-- An announcement with a channel that hops with a mobile allocation of more than 64 bits. -/
def LongMa (m : List Nat) : Prop :=
  IsInfo m ∧ ∃ trx ts, trx < 8 ∧ ts < 8 ∧ (oct m (14 + 112 * trx)).testBit ts = true ∧ oct m (21 + 112 * trx + 13 * ts) ≠ 0 ∧
    64 < oct m (24 + 112 * trx + 13 * ts)

theorem oct_u8 (m : List Nat) (i : Nat) : oct m i = u8 m i := by unfold oct u8; rw [List.getD_eq_getElem?_getD]

theorem check_cases {s : St} {m : List Nat} {n : Nat} {f : List Nat → Res} : check s m n f = .ok s [] false ∨ (4 + n ≤ m.length ∧ check s m n f = f (slice m 4 n)) := by
  unfold check cast
  by_cases h : m.length < 4 + n
  · exact .inl (if_pos h)
  · rw [if_neg h, if_pos (by omega)]; exact .inr ⟨by omega, rfl⟩

/-- The outcome of a message that is neither a block nor an announcement. -/
theorem rx_other {e : Env} {s : St} {m : List Nat} (h1 : ¬ (u8 m 0 = 0x02 ∧ 184 ≤ m.length)) (h2 : ¬ (u8 m 0 = 0x32 ∧ 1007 ≤ m.length)) :
    ∃ s' o acc, rx e s m = .ok s' o acc ∧ (acc = false → o = [] ∧ (s' = s ∨ s' = s.ensure (u8 m 1))) := by
  unfold rx
  by_cases hl : m.length < 4
  · rw [if_pos hl]; exact ⟨_, _, _, rfl, fun _ => ⟨rfl, .inl rfl⟩⟩
  rw [if_neg hl]
  dsimp only
  generalize hnr : u8 m 1 = nr
  rw [get_ensure]
  dsimp only
  generalize (s.get nr).getD {} = b
  generalize s.ensure nr = t
  have done : ∀ {r : Res}, (∃ o acc, r = .ok t o acc ∧ (acc = false → o = [])) →
      ∃ s' o acc, r = .ok s' o acc ∧ (acc = false → o = [] ∧ (s' = s ∨ s' = t)) := by
    rintro r ⟨o, acc, rfl, h⟩
    exact ⟨t, o, acc, rfl, fun ha => ⟨h ha, .inr rfl⟩⟩
  have chk : ∀ {n : Nat} {f : List Nat → Res}, (4 + n ≤ m.length → ∃ o acc, f (slice m 4 n) = .ok t o acc ∧ (acc = false → o = [])) →
      ∃ o acc, check t m n f = .ok t o acc ∧ (acc = false → o = []) := by
    intro n f h
    rcases check_cases (s := t) (m := m) (n := n) (f := f) with h' | ⟨h', h''⟩
    · exact ⟨_, _, h', fun _ => rfl⟩
    · rw [h'']; exact h h'
  by_cases t1 : u8 m 0 = 0x02
  · rw [if_pos t1]
    exact done (chk fun hl => absurd ⟨t1, by omega⟩ h1)
  rw [if_neg t1]
  by_cases t2 : u8 m 0 = 0x11
  · rw [if_pos t2]
    refine done (chk fun _ => ?_)
    unfold rxDataCnf
    split <;> exact ⟨_, _, rfl, by simp⟩
  rw [if_neg t2]
  by_cases t3 : u8 m 0 = 0x10
  · rw [if_pos t3]
    refine done (chk fun _ => ?_)
    generalize slice m 4 13 = v
    unfold rxRts
    dsimp only
    split
    · split
      · exact ⟨_, _, rfl, by simp⟩
      · split <;> exact ⟨_, _, rfl, by simp⟩
    · split
      · split
        · exact ⟨_, _, rfl, by simp⟩
        · split <;> exact ⟨_, _, rfl, by simp⟩
      · exact ⟨_, _, rfl, by simp⟩
  rw [if_neg t3]
  by_cases t4 : u8 m 0 = 0x22
  · rw [if_pos t4]
    refine done (chk fun _ => ?_)
    generalize slice m 4 15 = v
    unfold rxRach
    dsimp only
    split
    · exact ⟨_, _, rfl, by simp⟩
    · split
      · exact ⟨_, _, rfl, by simp⟩
      · split <;> exact ⟨_, _, rfl, by simp⟩
  rw [if_neg t4]
  by_cases t5 : u8 m 0 = 0x32
  · rw [if_pos t5]
    exact done (chk fun hl => absurd ⟨t5, by omega⟩ h2)
  rw [if_neg t5]
  by_cases t6 : u8 m 0 = 0x33
  · rw [if_pos t6]
    rcases check_cases (s := t) (m := m) (n := 5) (f := rxE1 t nr) with h' | ⟨h', h''⟩
    · exact done ⟨_, _, h', fun _ => rfl⟩
    · rw [h'']; exact ⟨_, _, _, rfl, fun h => (nomatch h)⟩
  rw [if_neg t6]
  by_cases t7 : u8 m 0 = 0x52
  · rw [if_pos t7]; exact done (chk fun _ => ⟨_, _, rfl, by simp⟩)
  rw [if_neg t7]
  by_cases t8 : u8 m 0 = 0x60
  · rw [if_pos t8]
    refine done (chk fun _ => ?_)
    unfold rxPag
    dsimp only
    split <;> exact ⟨_, _, rfl, by simp⟩
  rw [if_neg t8]
  by_cases t9 : u8 m 0 = 0x03
  · rw [if_pos t9]; exact done (chk fun _ => ⟨_, _, rfl, by simp⟩)
  rw [if_neg t9]
  by_cases t10 : u8 m 0 = 0x04
  · rw [if_pos t10]; exact done (chk fun _ => ⟨_, _, rfl, by simp⟩)
  rw [if_neg t10]
  by_cases t11 : u8 m 0 = 0x53
  · rw [if_pos t11]; exact done ⟨_, _, rfl, by simp⟩
  rw [if_neg t11]
  by_cases t12 : u8 m 0 = 0x80
  · rw [if_pos t12]
    refine done (chk fun _ => ?_)
    generalize slice m 4 4 = v
    unfold rxContainer
    generalize be16 v 2 = len
    dsimp only
    by_cases g1 : m.length < 4 + 4 + len
    · rw [if_pos g1]; exact ⟨_, _, rfl, by simp⟩
    rw [if_neg g1]
    by_cases g2 : u8 v 0 = 0x82
    · rw [if_pos g2]
      by_cases g3 : len < 18
      · rw [if_pos g3]; exact ⟨_, _, rfl, by simp⟩
      · rw [if_neg g3]
        unfold cast
        rw [if_pos (by omega)]
        exact ⟨_, _, rfl, by simp⟩
    · rw [if_neg g2]; exact ⟨_, _, rfl, by simp⟩
  rw [if_neg t12]
  exact done ⟨_, _, rfl, by simp⟩

theorem rx_block_eq {e : Env} {s : St} {m : List Nat} (h1 : u8 m 0 = 0x02) (h2 : 184 ≤ m.length) :
    rx e s m = rxDataInd (s.ensure (u8 m 1)) (u8 m 1) (s.bts' (u8 m 1)) (slice m 4 180) := by
  unfold rx
  rw [if_neg (by omega)]
  dsimp only
  generalize u8 m 1 = nr
  rw [get_ensure]
  dsimp only
  rw [if_pos h1]
  unfold check cast
  rw [if_neg (by omega), if_pos (by omega)]
  rfl

theorem rx_info_eq {e : Env} {s : St} {m : List Nat} (h1 : u8 m 0 = 0x32) (h2 : 1007 ≤ m.length) :
    rx e s m = rxInfo e (s.ensure (u8 m 1)) (u8 m 1) (s.bts' (u8 m 1)) (slice m 4 1003) := by
  unfold rx
  rw [if_neg (by omega)]
  dsimp only
  generalize u8 m 1 = nr
  rw [get_ensure]
  dsimp only
  rw [if_neg (by rw [h1]; decide), if_neg (by rw [h1]; decide), if_neg (by rw [h1]; decide), if_neg (by rw [h1]; decide), if_pos h1]
  unfold check cast
  rw [if_neg (by omega), if_pos (by omega)]
  rfl

theorem block_cases {s : St} {nr : Nat} {b : Bts} {v : List Nat} :
    (∃ s' o acc, rxDataInd s nr b v = .ok s' o acc ∧ (acc = false → o = [])) ∨
    (rxDataInd s nr b v = .outside ∧ u8 v 0 = 5 ∧ (8 ≤ u8 v 170 ∨ 8 ≤ u8 v 171 ∨ 162 < u8 v 1)) ∨
    (rxDataInd s nr b v = .abort ∧ u8 v 0 = 5 ∧ 2715648 ≤ u32 v 164) := by
  unfold rxDataInd
  dsimp only
  by_cases h1 : u8 v 0 = 5
  · rw [if_pos h1]
    by_cases h2 : u8 v 170 ≥ 8 ∨ u8 v 171 ≥ 8
    · rw [if_pos h2]; exact .inr (.inl ⟨rfl, h1, by omega⟩)
    rw [if_neg h2]
    by_cases h3 : u32 v 164 ≥ Fn.H
    · rw [if_pos h3]; exact .inr (.inr ⟨rfl, h1, h3⟩)
    rw [if_neg h3]
    split
    · exact .inl ⟨_, _, _, rfl, fun _ => rfl⟩
    · by_cases h4 : u8 v 1 > 162
      · rw [if_pos h4]; exact .inr (.inl ⟨rfl, h1, by omega⟩)
      · rw [if_neg h4]; exact .inl ⟨_, _, _, rfl, by simp⟩
  · rw [if_neg h1]
    split
    · exact .inl ⟨_, _, _, rfl, fun _ => rfl⟩
    · exact .inl ⟨_, _, _, rfl, fun _ => rfl⟩

theorem info_cases {e : Env} {s : St} {nr : Nat} {b : Bts} {v : List Nat} :
    (∃ s' o acc, rxInfo e s nr b v = .ok s' o acc ∧ (acc = false → o = [])) ∨
    (rxInfo e s nr b v = .exit ∧ (u32 v 0 ≠ 12 ∨ ((u32 v 4).testBit 0 = false ∧ b.active = true) ∨ e.bssgp = false ∨ e.ns = false ∨
      (nsvc v 0 = none ∧ nsvc v 1 = none) ∨ (u32 v 4).testBit 1 = true)) ∨
    (rxInfo e s nr b v = .abort ∧ ∃ trx ts, trx < 8 ∧ ts < 8 ∧ (trxMask v trx).testBit ts = true ∧ (tsInfo v trx ts).hopping ≠ 0 ∧
      64 < (tsInfo v trx ts).maBitLen) := by
  unfold rxInfo
  dsimp only
  by_cases h1 : u32 v 0 ≠ 0x0c
  · rw [if_pos h1]; exact .inr (.inl ⟨rfl, .inl h1⟩)
  rw [if_neg h1]
  by_cases h2 : (!(u32 v 4).testBit 0) = true
  · rw [if_pos h2]
    by_cases h3 : (!b.active) = true
    · rw [if_pos h3]; exact .inl ⟨_, _, _, rfl, fun _ => rfl⟩
    · rw [if_neg h3]; exact .inr (.inl ⟨rfl, .inr (.inl ⟨by simpa using h2, by simpa using h3⟩)⟩)
  rw [if_neg h2]
  by_cases h3 : (!e.bssgp) = true
  · rw [if_pos h3]; exact .inr (.inl ⟨rfl, .inr (.inr (.inl (by simpa using h3)))⟩)
  rw [if_neg h3]
  by_cases h4 : nsvc v 0 = none ∧ nsvc v 1 = none
  · rw [if_pos h4]; exact .inr (.inl ⟨rfl, .inr (.inr (.inr (.inr (.inl h4))))⟩)
  rw [if_neg h4]
  by_cases h5 : (!e.ns) = true
  · rw [if_pos h5]; exact .inr (.inl ⟨rfl, .inr (.inr (.inr (.inl (by simpa using h5))))⟩)
  rw [if_neg h5]
  cases h6 : (List.range 8).findSome? (trxStop v) with
  | none => exact .inl ⟨_, _, _, rfl, by simp⟩
  | some r =>
    dsimp only
    obtain ⟨i, hi, hs⟩ := List.exists_of_findSome?_eq_some h6
    rw [List.mem_range] at hi
    unfold trxStop at hs
    split at hs
    · rename_i hp
      obtain rfl := Option.some.inj hs
      exact .inr (.inl ⟨rfl, .inr (.inr (.inr (.inr (.inr hp.1))))⟩)
    · split at hs
      · rename_i hp
        obtain rfl := Option.some.inj hs
        refine .inr (.inr ⟨rfl, ?_⟩)
        simp only [List.any_eq_true, List.mem_range, Bool.and_eq_true, decide_eq_true_eq] at hp
        obtain ⟨ts, hts, ⟨g1, g2⟩, g3⟩ := hp
        exact ⟨i, ts, hi, hts, g1, g2, g3⟩
      · cases hs

/-- For all messages of any octets, in all states: memory outside the message and the arrays is used only for a block with a TRX or time slot
that does not exist or more octets than fit; the PCU stops by a failing assertion only for a block without a valid frame number or an
announcement with too long a mobile allocation, and ends itself only on an announcement. All other messages are handled or refused. -/
theorem C71_octets_partial (e : Env) (s : St) (m : List Nat) :
    (rx e s m = .outside → OddBlock m) ∧ (rx e s m = .abort → LateBlock m ∨ LongMa m) ∧ (rx e s m = .exit → IsInfo m) := by
  by_cases h1 : u8 m 0 = 0x02 ∧ 184 ≤ m.length
  · have hb : ∀ k, k < 180 → u8 (slice m 4 180) k = oct m (4 + k) := fun k hk => by rw [u8_slice hk, oct_u8]
    have hI : u8 (slice m 4 180) 0 = 5 → IsBlock m := fun h => ⟨by rw [oct_u8]; exact h1.1, h1.2, by rw [← h, hb 0 (by omega)]⟩
    rw [rx_block_eq h1.1 h1.2]
    rcases block_cases (s := s.ensure (u8 m 1)) (nr := u8 m 1) (b := s.bts' (u8 m 1)) (v := slice m 4 180) with ⟨s', o, acc, h, _⟩ | ⟨h, h2, h3⟩ | ⟨h, h2, h3⟩
    · rw [h]; exact ⟨nofun, nofun, nofun⟩
    · rw [h]
      refine ⟨fun _ => ⟨hI h2, ?_⟩, nofun, nofun⟩
      rw [hb 170 (by omega), hb 171 (by omega), hb 1 (by omega)] at h3
      exact h3
    · rw [h]
      refine ⟨nofun, fun _ => .inl ⟨hI h2, ?_⟩, nofun⟩
      unfold u32 u16 at h3
      rw [hb 164 (by omega), hb (164 + 1) (by omega), hb (164 + 2) (by omega), hb (164 + 2 + 1) (by omega)] at h3
      exact h3
  by_cases h2 : u8 m 0 = 0x32 ∧ 1007 ≤ m.length
  · have hb : ∀ k, k < 1003 → u8 (slice m 4 1003) k = oct m (4 + k) := fun k hk => by rw [u8_slice hk, oct_u8]
    have hI : IsInfo m := ⟨by rw [oct_u8]; exact h2.1, h2.2⟩
    rw [rx_info_eq h2.1 h2.2]
    rcases info_cases (e := e) (s := s.ensure (u8 m 1)) (nr := u8 m 1) (b := s.bts' (u8 m 1)) (v := slice m 4 1003) with ⟨s', o, acc, h, _⟩ | ⟨h, _⟩ | ⟨h, trx, ts, h3, h4, h5, h6, h7⟩
    · rw [h]; exact ⟨nofun, nofun, nofun⟩
    · rw [h]; exact ⟨nofun, nofun, fun _ => hI⟩
    · rw [h]
      refine ⟨nofun, fun _ => .inr ⟨hI, trx, ts, h3, h4, ?_, ?_, ?_⟩, nofun⟩
      · unfold trxMask at h5
        rw [hb _ (by omega)] at h5
        rw [show 14 + 112 * trx = 4 + (8 + 112 * trx + 2) by omega]; exact h5
      · have h6' : u8 (slice m 4 1003) (16 + 112 * trx + 13 * ts + 1) ≠ 0 := h6
        rw [hb _ (by omega)] at h6'
        rw [show 21 + 112 * trx + 13 * ts = 4 + (16 + 112 * trx + 13 * ts + 1) by omega]; exact h6'
      · have h7' : 64 < u8 (slice m 4 1003) (16 + 112 * trx + 13 * ts + 4) := h7
        rw [hb _ (by omega)] at h7'
        rw [show 24 + 112 * trx + 13 * ts = 4 + (16 + 112 * trx + 13 * ts + 4) by omega]; exact h7'
  · obtain ⟨s', o, acc, h, _⟩ := rx_other (e := e) (s := s) h1 h2
    rw [h]; exact ⟨nofun, nofun, nofun⟩

/-- An announcement ends the PCU only for these reasons: another version of the interface, a BTS that was active and no longer is, no
connection to the SGSN, direct access to the PHY. -/
theorem C71_exit (e : Env) (s : St) (m : List Nat) (h : rx e s m = .exit) :
    oct m 4 + 256 * oct m 5 + 65536 * (oct m 6 + 256 * oct m 7) ≠ 12 ∨
    ((oct m 8) % 2 = 0 ∧ (s.get (oct m 1)).isSome ∧ ∀ b, s.get (oct m 1) = some b → b.active = true) ∨
    e.bssgp = false ∨ e.ns = false ∨ (oct m 972 ∉ [4, 0x29] ∧ oct m 973 ∉ [4, 0x29]) ∨ (oct m 8) / 2 % 2 = 1 := by
  have hi := (C71_octets_partial e s m).2.2 h
  have h1 : u8 m 0 = 0x32 := by rw [← oct_u8]; exact hi.1
  have hb : ∀ k, k < 1003 → u8 (slice m 4 1003) k = oct m (4 + k) := fun k hk => by rw [u8_slice hk, oct_u8]
  rw [rx_info_eq h1 hi.2] at h
  rcases info_cases (e := e) (s := s.ensure (u8 m 1)) (nr := u8 m 1) (b := s.bts' (u8 m 1)) (v := slice m 4 1003) with ⟨s', o, acc, h', _⟩ | ⟨_, h'⟩ | ⟨h', _⟩
  · rw [h'] at h; cases h
  · have h32 : ∀ k, k + 3 < 1003 → u32 (slice m 4 1003) k = oct m (4 + k) + 256 * oct m (4 + k + 1) + 65536 * (oct m (4 + k + 2) + 256 * oct m (4 + k + 3)) := by
      intro k hk
      unfold u32 u16
      rw [hb k (by omega), hb (k + 1) (by omega), hb (k + 2) (by omega), hb (k + 2 + 1) (by omega)]
      rfl
    have nov : ∀ i, i < 2 → nsvc (slice m 4 1003) i = none → oct m (972 + i) ∉ [4, 0x29] := by
      intro i hi hn hm
      unfold nsvc at hn
      dsimp only at hn
      rw [hb (968 + i) (by omega), show 4 + (968 + i) = 972 + i by omega] at hn
      simp only [List.mem_cons, List.not_mem_nil, or_false] at hm
      rcases hm with hm | hm
      · rw [if_pos hm] at hn; cases hn
      · rw [if_neg (by omega), if_pos hm] at hn; cases hn
    rw [h32 0 (by omega), h32 4 (by omega)] at h'
    rcases h' with h' | ⟨h', h''⟩ | h' | h' | ⟨h', h''⟩ | h'
    · exact .inl h'
    · refine .inr (.inl ⟨?_, ?_⟩)
      · rw [Nat.testBit_zero] at h'
        simp only [decide_eq_false_iff_not] at h'
        show oct m 8 % 2 = 0
        simp only [show 4 + 4 = 8 from rfl] at h'
        omega
      · rw [oct_u8]
        unfold St.bts' at h''
        cases hg : s.get (u8 m 1) with
        | none => rw [hg] at h''; cases h''
        | some b =>
          rw [hg] at h''
          refine ⟨rfl, ?_⟩
          intro b' hb'
          obtain rfl := Option.some.inj hb'
          exact h''
    · exact .inr (.inr (.inl h'))
    · exact .inr (.inr (.inr (.inl h')))
    · exact .inr (.inr (.inr (.inr (.inl ⟨nov 0 (by omega) h', nov 1 (by omega) h''⟩))))
    · refine .inr (.inr (.inr (.inr (.inr ?_))))
      rw [Nat.testBit_eq_decide_div_mod_eq, decide_eq_true_eq] at h'
      simp only [show 4 + 4 = 8 from rfl] at h'
      omega
  · rw [h'] at h; cases h

/-- A message that is refused hands nothing on and changes nothing but that its BTS is now known, the frame number, and the system information
it withdraws. -/
theorem C71_refused (e : Env) (s s' : St) (m : List Nat) (o : List Out) (h : rx e s m = .ok s' o false) :
    o = [] ∧ ∀ nr, cfg (s'.bts' nr) = cfg (s.bts' nr) := by
  have ho : o = [] := by
    by_cases h1 : u8 m 0 = 0x02 ∧ 184 ≤ m.length
    · rw [rx_block_eq h1.1 h1.2] at h
      rcases block_cases (s := s.ensure (u8 m 1)) (nr := u8 m 1) (b := s.bts' (u8 m 1)) (v := slice m 4 180) with ⟨_, _, _, h', h''⟩ | ⟨h', _⟩ | ⟨h', _⟩
      · rw [h'] at h; cases h; exact h'' rfl
      · rw [h'] at h; cases h
      · rw [h'] at h; cases h
    by_cases h2 : u8 m 0 = 0x32 ∧ 1007 ≤ m.length
    · rw [rx_info_eq h2.1 h2.2] at h
      rcases info_cases (e := e) (s := s.ensure (u8 m 1)) (nr := u8 m 1) (b := s.bts' (u8 m 1)) (v := slice m 4 1003) with ⟨_, _, _, h', h''⟩ | ⟨h', _⟩ | ⟨h', _⟩
      · rw [h'] at h; cases h; exact h'' rfl
      · rw [h'] at h; cases h
      · rw [h'] at h; cases h
    · obtain ⟨_, _, _, h', h''⟩ := rx_other (e := e) (s := s) h1 h2
      rw [h'] at h; cases h; exact (h'' rfl).1
  refine ⟨ho, ?_⟩
  intro nr
  rcases rx_step h with h1 | ⟨_, _, h3⟩
  · by_cases hnr : nr = u8 m 1
    · rw [hnr]; exact h1.this
    · rw [h1.other nr hnr]
  · rcases rxInfo_ok h3 with ⟨rfl, _⟩ | ⟨_, _, ha⟩
    · exact congrArg cfg (ensure_bts' s _ _)
    · cases ha

/-! ### Messages that stop the PCU -/

/-- A block of a TRX that does not exist. -/
theorem C71_fails_trx : rx {} {} (msg 0x02 0 [0, 0] (5 :: 23 :: (List.replicate 162 0 ++ [0, 0, 0, 0, 0, 0, 8, 0, 0, 0, 0, 0, 0, 0, 0, 0]))) = .outside := by
  rw [rx_block_eq rfl (by decide +kernel)]
  rfl

/-- A block of 200 octets on a channel in use. -/
theorem C71_fails_length : rx {} inUse (msg 0x02 0 [0, 0] (5 :: 200 :: (List.replicate 162 0 ++ [0, 0, 0, 0, 0, 0, 0, 6, 0, 0, 0, 0, 0, 0, 0, 0]))) = .outside := by
  rw [rx_block_eq rfl (by decide +kernel)]
  rfl

/-- A block with a frame number beyond the last one. -/
theorem C71_fails_frame_number :
    rx {} {} (msg 0x02 0 [0, 0] (5 :: 23 :: (List.replicate 162 0 ++ [0, 0x70, 0x29, 0, 0, 0, 0, 6, 0, 0, 0, 0, 0, 0, 0, 0]))) = .abort := by
  rw [rx_block_eq rfl (by decide +kernel)]
  unfold rxDataInd
  dsimp only
  rw [if_pos (by decide +kernel), if_neg (by decide +kernel), if_pos (by decide +kernel)]

/-- An announcement with a mobile allocation of 65 bits. -/
theorem C71_fails_mobile_allocation : ∃ m : List Nat, rx {} {} m = .abort ∧ LongMa m := by
  let v : List Nat := le32 12 ++ le32 1 ++ ([0, 0, 1, 0, 0, 0, 0, 0] ++ [7, 1, 0, 0, 65]) ++ List.replicate 947 0 ++ [4] ++ List.replicate 34 0
  refine ⟨msg 0x32 0 [0, 0] v, ?_, ?_⟩
  · rw [rx_info_eq rfl (by decide +kernel)]
    have hs : slice (msg 0x32 0 [0, 0] v) 4 1003 = v := by decide +kernel
    rw [hs]
    unfold rxInfo
    dsimp only
    rw [if_neg (by decide +kernel), if_neg (by decide +kernel), if_neg (by decide), if_neg (by decide +kernel), if_neg (by decide)]
    have : (List.range 8).findSome? (trxStop v) = some .abort := by
      rw [show List.range 8 = 0 :: [1, 2, 3, 4, 5, 6, 7] from rfl, List.findSome?_cons]
      have : trxStop v 0 = some .abort := by
        unfold trxStop
        rw [if_neg (by decide +kernel), if_pos (by decide +kernel)]
      rw [this]
    rw [this]
  · exact ⟨⟨by decide +kernel, by decide +kernel⟩, 0, 0, by decide, by decide, by decide +kernel, by decide +kernel, by decide +kernel⟩

/-- Messages cut short, or of unknown type, are refused. -/
example : rx {} inUse [0x02, 0, 0, 0, 5, 23] = .ok inUse [] false ∧ rx {} inUse [] = .ok inUse [] false ∧
    rx {} inUse [0xff, 0, 0, 0] = .ok inUse [] false := ⟨rfl, rfl, rfl⟩

end Verif.PcuIf
