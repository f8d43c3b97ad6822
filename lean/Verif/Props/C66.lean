import Verif.Lemmas.Bssgp
/-!
C66: messages of the SGSN are understood, or refused as the standard says.

`Gb` (Spec/Bssgp): messages as TS 48.018 defines them. `rcv` (Model/Bssgp): a message arrives on a BVCI. The old TLLI of a DL-UNITDATA is
the subject of C42.
-/

namespace Verif.Bssgp

open Gb

/-- The BVC of a cell in service. -/
def Serves (c : Ctx) (b : Nat) : Prop := c.known b = true ∧ c.blocked b = false ∧ 2 ≤ b

/-- An IMSI element is absent, or present and an IMSI. -/
def ImsiIs (c : Ctx) (es : List (Nat × List Nat)) (im : Option (List Nat)) : Prop :=
  match value imsi es with
  | none => im = none
  | some v => ∃ d, c.mi v = some d ∧ im = some d

theorem rcv_unitdata {c : Ctx} {b t : Nat} {es : List (Nat × List Nat)} {msg : List Nat} (hs : Serves c b) (h : IsUnitdata t es msg) :
    ∃ l, rcv c b msg = rxDlUd c msg l ∧ 5 ≤ msg.length ∧ be ((msg.drop 1).take 4) = t ∧
      (l.map fun e => (e.tag, e.val)) = es ∧ ∀ e ∈ l, e.Whole := by
  obtain ⟨ht, q, o, hq, ho, rfl⟩ := h
  obtain ⟨hk, hb, h2⟩ := hs
  obtain ⟨l, h1, h3, h4⟩ := parse_elements ho (0 :: (octets32 t ++ q ++ o)).length (by simp only [List.length_cons, List.length_append]; omega)
  refine ⟨l, ?_, by simp [octets32], ?_, h3, h4⟩
  · unfold rcv
    dsimp only
    rw [if_neg (by decide), if_pos (by simp), show (octets32 t ++ q ++ o).drop 7 = o by
      rw [List.drop_left' (by simp [octets32, hq])], h1]
    dsimp only
    rw [if_neg (by decide), if_neg (by simp [hk]), if_neg (by omega), if_neg (by omega)]
    unfold rxPtp
    rw [if_neg (by simp [hb]), if_neg (by decide), if_pos rfl]
  · simp only [octets32, List.cons_append, List.drop_succ_cons, List.drop_zero, List.take_succ_cons, List.take_zero, List.nil_append]
    exact be_32 t ht

/-- A DL-UNITDATA is understood: the frame, whole and unchanged, goes to the mobile with its TLLI and IMSI, with its lifetime and the
radio access capability. -/
theorem C66_unitdata (c : Ctx) (b t life : Nat) (es : List (Nat × List Nat)) (msg data : List Nat) (im : Option (List Nat))
    (hs : Serves c b) (h : IsUnitdata t es msg) (hd : value llcPdu es = some data) (hl : data.length ≤ 1543) (hi : ImsiIs c es im)
    (hlt : value pduLifetime es = some (octets16 life)) (hlife : life < 2 ^ 16)
    (ho : ∀ v, value tlli es = some v → v.length = 4) :
    ∃ u, rcv c b msg = .unitdata u ∧ u.tlli = t ∧ u.data = data ∧ u.imsi = im ∧ u.csec = life ∧
      (value radioAccessCapability es = none → u.gprs = 0 ∧ u.egprs = 0) ∧
      (∀ v, value radioAccessCapability es = some v → v.length < 256 → (u.gprs, u.egprs) = c.ra v) := by
  obtain ⟨l, h1, h2, h3, h4, h5⟩ := rcv_unitdata hs h
  obtain ⟨e, g1, g2, g3, g4⟩ := get_some h4 h5 hd
  obtain ⟨e', k1, k2, k3, k4⟩ := get_some h4 h5 hlt
  have hcs : csec l = some life := by
    unfold csec
    rw [show get l 0x16 = some e' from k1]
    dsimp only
    have hlen : e'.len = 2 := k3
    have hr := read_whole k4
    rw [hlen] at hr ⊢
    rw [if_pos rfl, hr, k2]
    simp [be_16 life hlife]
  obtain ⟨o, hold⟩ : ∃ o, oldTlli l = some o := by
    unfold oldTlli
    cases hv : value tlli es with
    | none => rw [show get l 0x1f = none from get_none h4 hv]; exact ⟨_, rfl⟩
    | some v =>
      obtain ⟨e2, m1, m2, m3, m4⟩ := get_some h4 h5 hv
      rw [show get l 0x1f = some e2 from m1]
      dsimp only
      have : 2 ≤ e2.at_.length := by have := ho v hv; unfold Ie.Whole at m4; omega
      split
      · unfold Ie.read; rw [if_pos this]; exact ⟨_, rfl⟩
      · exact ⟨_, rfl⟩
  have hu : rcv c b msg = .unitdata ⟨t, o, im, (classes c l).1, (classes c l).2, life, data⟩ := by
    rw [h1]
    unfold rxDlUd
    rw [if_neg (by omega), h3]
    dsimp only
    rw [show get l 0x0e = some e from g1]
    dsimp only
    rw [if_neg (by omega), g2]
    unfold ImsiIs at hi
    cases hv : value imsi es with
    | none =>
      rw [hv] at hi
      rw [show get l 0x0d = none from get_none h4 hv, hi]
      simp only [accept, hcs, hold]
    | some v =>
      rw [hv] at hi
      obtain ⟨d, hd, rfl⟩ := hi
      obtain ⟨e2, m1, m2, m3, m4⟩ := get_some h4 h5 hv
      rw [show get l 0x0d = some e2 from m1]
      dsimp only
      rw [m2, hd]
      simp only [accept, hcs, hold]
  refine ⟨_, hu, rfl, rfl, rfl, rfl, ?_, ?_⟩
  · intro hv
    unfold classes
    rw [show get l 0x13 = none from get_none h4 hv]
    exact ⟨rfl, rfl⟩
  · intro v hv hlen
    obtain ⟨e2, m1, m2, m3, m4⟩ := get_some h4 h5 hv
    unfold classes
    rw [show get l 0x13 = some e2 from m1]
    dsimp only
    rw [m3, Nat.mod_eq_of_lt hlen, ← m3, show e2.at_.take e2.len = v from m2]

/-- Without frame, with a frame that is too long, or with something else as IMSI it is refused, with the cause that says so, and has
no effect. -/
theorem C66_unitdata_refused (c : Ctx) (b t : Nat) (es : List (Nat × List Nat)) (msg : List Nat) (hs : Serves c b)
    (h : IsUnitdata t es msg) :
    (value llcPdu es = none → rcv c b msg = .status .missingMandatory none) ∧
    (∀ d, value llcPdu es = some d → 1543 < d.length → rcv c b msg = .status .conditionalError none) ∧
    (∀ d v, value llcPdu es = some d → value imsi es = some v → c.mi v = none → rcv c b msg = .status .conditionalError none) := by
  obtain ⟨l, h1, h2, h3, h4, h5⟩ := rcv_unitdata hs h
  rw [h1]
  unfold rxDlUd
  rw [if_neg (by omega)]
  refine ⟨fun hv => ?_, fun d hd hl => ?_, fun d v hd hv hm => ?_⟩
  · rw [show get l 0x0e = none from get_none h4 hv]
  · obtain ⟨e, g1, g2, g3, g4⟩ := get_some h4 h5 hd
    rw [show get l 0x0e = some e from g1]
    dsimp only
    rw [if_pos (by omega)]
  · obtain ⟨e, g1, g2, g3, g4⟩ := get_some h4 h5 hd
    obtain ⟨e2, m1, m2, m3, m4⟩ := get_some h4 h5 hv
    rw [show get l 0x0e = some e from g1]
    dsimp only
    split
    · rfl
    · rw [show get l 0x0d = some e2 from m1]
      dsimp only
      rw [m2, hm]

theorem rxPagingCs_kind (c : Ctx) (l : List Ie) (u : Ud) : rxPagingCs c l ≠ .unitdata u ∧ rxPagingCs c l ≠ .assertion := by
  unfold rxPagingCs
  repeat' split
  all_goals exact ⟨by simp, by simp⟩

theorem rxPagingPs_kind (c : Ctx) (l : List Ie) (u : Ud) : rxPagingPs c l ≠ .unitdata u ∧ rxPagingPs c l ≠ .assertion := by
  unfold rxPagingPs
  repeat' split
  all_goals exact ⟨by simp, by simp⟩

theorem rxSign_kind (c : Ctx) (t : Nat) (l : List Ie) (u : Ud) (ht : t ≠ 0x41) : rxSign c t l ≠ .unitdata u ∧ rxSign c t l ≠ .assertion := by
  unfold rxSign
  rw [if_neg ht]
  split
  · exact ⟨by simp, by simp⟩
  split
  · exact rxPagingCs_kind c l u
  split
  · exact rxPagingPs_kind c l u
  repeat' split
  all_goals exact ⟨by simp, by simp⟩

theorem rxReset_kind (c : Ctx) (b : Nat) (l : List Ie) (u : Ud) : rxReset c b l ≠ .unitdata u ∧ rxReset c b l ≠ .assertion := by
  unfold rxReset
  repeat' split
  all_goals exact ⟨by simp, by simp⟩

theorem accept_ud {c : Ctx} {t : Nat} {im : Option (List Nat)} {l : List Ie} {d : List Nat} {u : Ud} (h : accept c t im l d = .unitdata u) :
    u.tlli = t ∧ u.data = d ∧ u.imsi = im := by
  unfold accept at h
  split at h
  · simp only [Act.unitdata.injEq] at h; subst h; exact ⟨rfl, rfl, rfl⟩
  · cases h

/-- Only what is sent as DL-UNITDATA on a known BVC in service is passed on as one: the frame is one the SGSN has sent, to that TLLI. -/
theorem C66_unitdata_sent (c : Ctx) (b : Nat) (msg : List Nat) (u : Ud) (ho : ∀ x ∈ msg, x < 256) (h : rcv c b msg = .unitdata u) :
    ∃ es, Serves c b ∧ IsUnitdata u.tlli es msg ∧ value llcPdu es = some u.data ∧ u.data.length ≤ 1543 ∧
      (∀ d, u.imsi = some d → ∃ v, value imsi es = some v ∧ c.mi v = some d) := by
  unfold rcv at h
  match msg, ho, h with
  | type :: r, ho, h =>
    dsimp only at h
    split at h
    · cases h
    rename_i hty
    split at h
    · cases h
    rename_i l hp
    split at h
    · exact absurd h (rxReset_kind c b l u).1
    split at h
    · cases h
    rename_i hk
    split at h
    · exact absurd h (rxSign_kind c type l u (by omega)).1
    rename_i hb0
    split at h
    · cases h
    rename_i hb1
    have hkn : c.known b = true := by
      cases hc : c.known b with
      | true => rfl
      | false => simp [hc, hb0] at hk
    unfold rxPtp at h
    split at h
    · cases h
    rename_i hbl
    have hnb : c.blocked b = false := by
      cases hc : c.blocked b with
      | false => rfl
      | true => rw [hc] at hbl; simp at hbl; omega
    split at h
    · cases h
    split at h
    · rename_i ht0
      subst ht0
      rw [if_pos (by simp)] at hp
      obtain ⟨p1, p2⟩ := parse_sound _ _ _ (fun x hx => ho x (List.mem_cons_of_mem _ (List.mem_of_mem_drop hx))) hp
      refine ⟨l.map fun e => (e.tag, e.val), ⟨hkn, hnb, by omega⟩, ?_⟩
      unfold rxDlUd at h
      split at h
      · cases h
      rename_i h5
      dsimp only at h
      split at h
      · cases h
      rename_i e he
      split at h
      · cases h
      rename_i hlen
      have hr7 : 7 < r.length := by
        rcases Nat.lt_or_ge 7 r.length with h7 | h7
        · exact h7
        · rw [List.drop_of_length_le h7] at p1
          cases hl : l with
          | nil => rw [hl] at he; cases he
          | cons x y => rw [hl] at p1; exact absurd p1 (by intro hx; generalize hz : ([] : List Nat) = z at hx; cases hx with
              | cons he' _ => cases he' <;> simp at hz)
      have hval : value llcPdu (l.map fun e => (e.tag, e.val)) = some e.val := by
        rw [← get_value]
        rw [show get l llcPdu = some e from he]; rfl
      have hwe := (p2 e (List.mem_of_find?_eq_some he)).1
      have hmsg : ∀ t, u.tlli = t → t = be (((0 :: r).drop 1).take 4) → IsUnitdata u.tlli (l.map fun e => (e.tag, e.val)) (0 :: r) := by
        intro t h1 h2
        match r, ho, hr7, p1, h2 with
        | a :: b :: c :: d :: x :: y :: z :: r, ho, _, p1, h2 =>
          have ha := ho a (by simp)
          have hb := ho b (by simp)
          have hc := ho c (by simp)
          have hd := ho d (by simp)
          simp only [be, List.drop_succ_cons, List.drop_zero, List.take_succ_cons, List.take_zero, List.foldl_cons, List.foldl_nil] at h2
          refine ⟨by omega, [x, y, z], r, rfl, p1, ?_⟩
          have : octets32 u.tlli = [a, b, c, d] := by
            unfold octets32
            rw [show u.tlli / 2 ^ 24 % 256 = a by omega, show u.tlli / 2 ^ 16 % 256 = b by omega,
              show u.tlli / 2 ^ 8 % 256 = c by omega, show u.tlli % 256 = d by omega]
          rw [this]; rfl
      split at h
      · obtain ⟨a1, a2, a3⟩ := accept_ud h
        refine ⟨hmsg _ a1 rfl, by rw [a2]; exact hval, by rw [a2, Ie.val_length hwe]; omega, ?_⟩
        intro d hd; rw [a3] at hd; cases hd
      · rename_i i hi
        split at h
        · cases h
        · rename_i d hd
          obtain ⟨a1, a2, a3⟩ := accept_ud h
          refine ⟨hmsg _ a1 rfl, by rw [a2]; exact hval, by rw [a2, Ie.val_length hwe]; omega, ?_⟩
          intro d' hd'
          rw [a3] at hd'
          simp only [Option.some.injEq] at hd'
          subst hd'
          refine ⟨i.val, ?_, hd⟩
          rw [← get_value, show get l imsi = some i from hi]; rfl
    split at h
    · cases h
    split at h
    · exact absurd h (rxPagingCs_kind c l u).1
    split at h
    · exact absurd h (rxPagingPs_kind c l u).1
    split at h <;> cases h

/-- A BVC on which pagings arrive: signalling, or that of a cell in service. -/
def Pages (c : Ctx) (b : Nat) : Prop := b = 0 ∨ Serves c b

theorem rcv_paging {c : Ctx} {b t : Nat} {es : List (Nat × List Nat)} {o : List Nat} (hs : Pages c b) (ht : t = 6 ∨ t = 7)
    (h : Elements es o) : ∃ l, rcv c b (t :: o) = (if t = 7 then rxPagingCs c l else rxPagingPs c l) ∧
      (l.map fun e => (e.tag, e.val)) = es ∧ ∀ e ∈ l, e.Whole := by
  obtain ⟨l, h1, h3, h4⟩ := parse_elements h (t :: o).length (by simp)
  refine ⟨l, ?_, h3, h4⟩
  unfold rcv
  dsimp only
  rw [if_neg (by omega), if_neg (by omega), h1]
  dsimp only
  rw [if_neg (by omega)]
  rcases hs with rfl | ⟨hk, hb, h2⟩
  · rw [if_neg (by simp), if_pos rfl]
    unfold rxSign
    rcases ht with rfl | rfl <;> rfl
  · rw [if_neg (by simp [hk]), if_neg (by omega), if_neg (by omega)]
    unfold rxPtp
    rw [if_neg (by simp [hb])]
    rcases ht with rfl | rfl <;> rfl

/-- A circuit switched paging is understood: the subscriber, by TMSI if there is one, the channel needed and the TLLI. -/
theorem C66_paging_cs (c : Ctx) (b : Nat) (es : List (Nat × List Nat)) (msg v d : List Nat) (tm tl : Option Nat) (hs : Pages c b)
    (h : IsPagingCs es msg) (hi : value imsi es = some v) (hd : c.mi v = some d)
    (htm : ∀ x, tm = some x → x < 2 ^ 32) (ht : value tmsi es = tm.map octets32)
    (htl : ∀ x, tl = some x → x < 2 ^ 32) (hl : value tlli es = tl.map octets32) :
    ∃ p, rcv c b msg = .pagingCs p ∧ p.imsi = d ∧ p.tmsi = tm ∧ p.tlli = tl.getD noTlli ∧
      (∀ x, value channelNeeded es = some [x] → p.chan = x) ∧ (value channelNeeded es = none → p.chan = 0) := by
  obtain ⟨o, ho, rfl⟩ := h
  obtain ⟨l, h1, h3, h4⟩ := rcv_paging hs (.inr rfl) ho
  obtain ⟨e, g1, g2, g3, g4⟩ := get_some h3 h4 hi
  have hpt : pagingTlli l = some (tl.getD noTlli) := by
    unfold pagingTlli
    cases tl with
    | none => rw [show get l 0x1f = none from get_none h3 hl]; rfl
    | some x =>
      obtain ⟨e2, m1, m2, m3, m4⟩ := get_some h3 h4 hl
      rw [show get l 0x1f = some e2 from m1]
      dsimp only
      have h4' : e2.len = 4 := m3
      have hr := read_whole m4
      rw [h4'] at hr
      rw [hr, m2]
      simp [be_32 x (htl x rfl)]
  have hch : ∃ ch, pagingChan l = ch ∧
      (∀ x, value channelNeeded es = some [x] → ch = x) ∧ (value channelNeeded es = none → ch = 0) := by
    refine ⟨_, rfl, fun x hx => ?_, fun hx => ?_⟩
    · obtain ⟨e2, m1, m2, m3, m4⟩ := get_some h3 h4 hx
      unfold pagingChan
      rw [show get l 0x09 = some e2 from m1]
      dsimp only
      rw [m2]; rfl
    · unfold pagingChan
      rw [show get l 0x09 = none from get_none h3 hx]
  obtain ⟨ch, c1, c2, c3⟩ := hch
  refine ⟨⟨ch, d, tm, tl.getD noTlli⟩, ?_, rfl, rfl, rfl, c2, c3⟩
  rw [h1, if_pos rfl]
  unfold rxPagingCs
  rw [c1, show get l 0x0d = some e from g1]
  dsimp only
  rw [g2, hd]
  dsimp only
  cases tm with
  | none =>
    rw [show get l 0x20 = none from get_none h3 ht, hpt]
  | some x =>
    obtain ⟨e2, m1, m2, m3, m4⟩ := get_some h3 h4 ht
    rw [show get l 0x20 = some e2 from m1, hpt]
    dsimp only
    rw [if_neg (by simp [show e2.len = 4 from m3]), m2, be_32 x (htm x rfl)]

/-- A packet paging is understood. -/
theorem C66_paging_ps (c : Ctx) (b : Nat) (es : List (Nat × List Nat)) (msg v d : List Nat) (tm : Option Nat) (hs : Pages c b)
    (h : IsPagingPs es msg) (hi : value imsi es = some v) (hd : c.mi v = some d)
    (htm : ∀ x, tm = some x → x < 2 ^ 32) (ht : value tmsi es = tm.map octets32) :
    rcv c b msg = .pagingPs ⟨tm, d⟩ := by
  obtain ⟨o, ho, rfl⟩ := h
  obtain ⟨l, h1, h3, h4⟩ := rcv_paging hs (.inl rfl) ho
  obtain ⟨e, g1, g2, g3, g4⟩ := get_some h3 h4 hi
  rw [h1, if_neg (by decide)]
  unfold rxPagingPs
  rw [show get l 0x0d = some e from g1]
  dsimp only
  rw [g2, hd]
  dsimp only
  cases tm with
  | none => rw [show get l 0x20 = none from get_none h3 ht]
  | some x =>
    obtain ⟨e2, m1, m2, m3, m4⟩ := get_some h3 h4 ht
    rw [show get l 0x20 = some e2 from m1]
    dsimp only
    rw [if_neg (by simp [show e2.len = 4 from m3]), m2, be_32 x (htm x rfl)]

/-- Pagings without IMSI, with something else as IMSI, or with a TMSI of wrong length are refused. -/
theorem C66_paging_refused (c : Ctx) (b : Nat) (es : List (Nat × List Nat)) (msg : List Nat) (hs : Pages c b)
    (h : IsPagingCs es msg ∨ IsPagingPs es msg) :
    (value imsi es = none → rcv c b msg = .status .missingMandatory none) ∧
    (∀ v, value imsi es = some v → c.mi v = none → rcv c b msg = .status .invalidMandatory none) ∧
    (∀ v d w, value imsi es = some v → c.mi v = some d → value tmsi es = some w → w.length ≠ 4 →
      rcv c b msg = .status .conditionalError none) := by
  obtain ⟨t, o, ht, ho, rfl⟩ : ∃ t o, (t = 6 ∨ t = 7) ∧ Elements es o ∧ msg = t :: o := by
    rcases h with ⟨o, ho, rfl⟩ | ⟨o, ho, rfl⟩
    · exact ⟨7, o, .inr rfl, ho, rfl⟩
    · exact ⟨6, o, .inl rfl, ho, rfl⟩
  obtain ⟨l, h1, h3, h4⟩ := rcv_paging hs ht ho
  rw [h1]
  unfold rxPagingCs rxPagingPs
  refine ⟨fun hv => ?_, fun v hv hm => ?_, fun v d w hv hm hw hl => ?_⟩
  · rw [show get l 0x0d = none from get_none h3 hv]
    split <;> rfl
  · obtain ⟨e, g1, g2, g3, g4⟩ := get_some h3 h4 hv
    rw [show get l 0x0d = some e from g1]
    dsimp only
    rw [g2, hm]
    split <;> rfl
  · obtain ⟨e, g1, g2, g3, g4⟩ := get_some h3 h4 hv
    obtain ⟨e2, m1, m2, m3, m4⟩ := get_some h3 h4 hw
    rw [show get l 0x0d = some e from g1, show get l 0x20 = some e2 from m1]
    dsimp only
    rw [g2, hm]
    dsimp only
    have hne : e2.len ≠ 4 := by omega
    rw [if_pos hne]
    split <;> rfl

/-- A reset is accepted on the signalling BVC only, for that or for the BVC of the cell, and refused otherwise. -/
theorem C66_reset (c : Ctx) (b : Nat) (es : List (Nat × List Nat)) (msg : List Nat) (h : IsReset es msg) :
    (b ≠ 0 ∨ value bvci es = none → rcv c b msg = .status .invalidMandatory none) ∧
    (∀ n, n < 65536 → b = 0 → value bvci es = some (octets16 n) →
      (n = 0 ∨ n = c.own → rcv c b msg = .generic) ∧
      (n ≠ 0 → n ≠ c.own → rcv c b msg = .status .unknownBvci (some n))) := by
  obtain ⟨o, ho, rfl⟩ := h
  obtain ⟨l, h1, h3, h4⟩ := parse_elements ho (0x22 :: o).length (by simp)
  have hr : rcv c b (0x22 :: o) = rxReset c b l := by
    unfold rcv
    dsimp only
    rw [if_neg (by omega), if_neg (by omega), h1]
    dsimp only
    rw [if_pos rfl]
  rw [hr]
  unfold rxReset
  constructor
  · intro hb
    split
    · rfl
    · rename_i e he
      rcases hb with hb | hb
      · rw [if_pos hb]
      · rw [show get l 0x04 = none from get_none h3 hb] at he
        cases he
  · intro n hn hb hv
    obtain ⟨e, g1, g2, g3, g4⟩ := get_some h3 h4 hv
    rw [show get l 0x04 = some e from g1]
    dsimp only
    have hread : e.read 2 = some (octets16 n) := by
      have := read_whole g4
      rw [g3, g2] at this
      exact this
    rw [if_neg (by omega), hread]
    have hbe : be (octets16 n) = n := by
      simp only [be, octets16, List.foldl_cons, List.foldl_nil]; omega
    dsimp only
    rw [hbe]
    exact ⟨fun h => if_neg (by omega), fun h1 h2 => if_pos ⟨h1, h2⟩⟩

/-- What the cell's BVC is sent while it is blocked has no effect and is refused, whatever it is (STATUS, RIM messages and resets are
not for the BVC). -/
theorem C66_blocked (c : Ctx) (b type : Nat) (r : List Nat) (hk : c.known b = true) (hb : c.blocked b = true) (h2 : 2 ≤ b)
    (h1 : type ≠ 0x41) (h3 : type ≠ 0x22) (h4 : type < 0x70 ∨ 0x74 < type) :
    rcv c b (type :: r) = .status .bvciBlocked (some b) ∨ rcv c b (type :: r) = .status .invalidMandatory none := by
  unfold rcv
  dsimp only
  rw [if_neg (by omega)]
  split
  · exact .inr rfl
  · left
    rw [if_neg h3, if_neg (by simp [hk]), if_neg (by omega), if_neg (by omega)]
    unfold rxPtp
    rw [if_pos (by simp [hb, h1])]

/-- No message ends the program. -/
theorem C66_no_assertion (c : Ctx) (b : Nat) (msg : List Nat) : rcv c b msg ≠ .assertion := by
  have u : Ud := ⟨0, 0, none, 0, 0, 0, []⟩
  unfold rcv
  match msg with
  | [] => simp
  | type :: r =>
    dsimp only
    split
    · simp
    rename_i hty
    split
    · simp
    rename_i l _
    split
    · exact (rxReset_kind c b l u).2
    split
    · simp
    split
    · exact (rxSign_kind c type l u (by omega)).2
    split
    · simp
    unfold rxPtp
    split
    · simp
    rw [if_neg (by omega)]
    split
    · unfold rxDlUd accept
      dsimp only
      repeat' split
      all_goals simp
    split
    · simp
    split
    · exact (rxPagingCs_kind c l u).2
    split
    · exact (rxPagingPs_kind c l u).2
    split <;> simp

/-! ### Octets beyond the message -/

theorem get_tag {l : List Ie} {t : Nat} {e : Ie} (h : get l t = some e) : e ∈ l ∧ e.tag = t :=
  ⟨List.mem_of_find?_eq_some h, by simpa using List.find?_some h⟩

theorem read_ok {e : Ie} {n : Nat} (h : e.Whole) (h2 : n ≤ e.len) : e.read n ≠ none := by
  unfold Ie.read; unfold Ie.Whole at h; rw [if_pos (by omega)]; simp

/-- Nothing beyond the message is read, provided that it is not shorter than its fixed part and that elements of fixed length are not
shorter than that. -/
theorem C66_inside_partial (c : Ctx) (b type : Nat) (r : List Nat) (ho : ∀ x ∈ type :: r, x < 256) (h0 : type = 0 → 4 ≤ r.length)
    (hlen : ∀ l, Elements l (if type = 0x01 ∨ type = 0x00 then r.drop 7 else r) →
      ∀ x ∈ l, (x.1 = tlli → 4 ≤ x.2.length) ∧ (x.1 = 0x04 → 2 ≤ x.2.length)) :
    rcv c b (type :: r) ≠ .overrun := by
  unfold rcv
  dsimp only
  split
  · simp
  rename_i hty
  split
  · simp
  rename_i l hp
  have hob : ∀ x ∈ (if type = 0x01 ∨ type = 0x00 then r.drop 7 else r), x < 256 := by
    intro x hx
    refine ho x (List.mem_cons_of_mem _ ?_)
    split at hx
    · exact List.mem_of_mem_drop hx
    · exact hx
  obtain ⟨p1, p2⟩ := parse_sound _ _ _ hob hp
  have hl := hlen _ p1
  have h1f : ∀ e, get l 0x1f = some e → e.Whole ∧ 4 ≤ e.len := by
    intro e he
    obtain ⟨m1, m2⟩ := get_tag he
    have hw := (p2 e m1).1
    refine ⟨hw, ?_⟩
    have := (hl (e.tag, e.val) (List.mem_map.2 ⟨e, m1, rfl⟩)).1 m2
    dsimp only at this
    rwa [Ie.val_length hw] at this
  have hcs : csec l ≠ none := by
    unfold csec
    split
    · simp
    · rename_i e he
      split
      · rename_i h2
        have hw := (p2 e (get_tag he).1).1
        have := read_ok (n := 2) hw (by omega)
        cases hx : e.read 2 with
        | none => exact absurd hx this
        | some v => simp
      · simp
  have hot : oldTlli l ≠ none := by
    unfold oldTlli
    split
    · simp
    · rename_i e he
      have := read_ok (n := 2) (h1f e he).1 (by have := (h1f e he).2; omega)
      split
      · cases hx : e.read 2 with
        | none => exact absurd hx this
        | some v => simp
      · simp
  have hpt : pagingTlli l ≠ none := by
    unfold pagingTlli
    split
    · simp
    · rename_i e he
      have := read_ok (n := 4) (h1f e he).1 (h1f e he).2
      cases hx : e.read 4 with
      | none => exact absurd hx this
      | some v => simp
  have hacc : ∀ t im d, accept c t im l d ≠ .overrun := by
    intro t im d
    unfold accept
    cases hx : csec l with
    | none => exact absurd hx hcs
    | some x =>
      cases hy : oldTlli l with
      | none => exact absurd hy hot
      | some y => simp
  have hcspg : rxPagingCs c l ≠ .overrun := by
    unfold rxPagingCs
    cases hx : pagingTlli l with
    | none => exact absurd hx hpt
    | some x =>
      repeat' split
      all_goals first | (intro hz; cases hz; done) | (rename_i hz; nomatch hz)
  have hpspg : rxPagingPs c l ≠ .overrun := by
    unfold rxPagingPs
    repeat' split
    all_goals simp
  split
  · unfold rxReset
    split
    · simp
    rename_i e he
    split
    · simp
    obtain ⟨m1, m2⟩ := get_tag he
    have hw := (p2 e m1).1
    have := (hl (e.tag, e.val) (List.mem_map.2 ⟨e, m1, rfl⟩)).2 m2
    dsimp only at this
    rw [Ie.val_length hw] at this
    have := read_ok (n := 2) hw this
    split
    · rename_i hx; exact absurd hx this
    · split <;> simp
  split
  · simp
  split
  · unfold rxSign
    split
    · simp
    split
    · simp
    split
    · exact hcspg
    split
    · exact hpspg
    repeat' split
    all_goals simp
  split
  · simp
  unfold rxPtp
  split
  · simp
  split
  · simp
  split
  · rename_i ht0
    unfold rxDlUd
    rw [if_neg (by have := h0 ht0; simp; omega)]
    dsimp only
    split
    · simp
    split
    · simp
    split
    · exact hacc _ _ _
    · split
      · simp
      · exact hacc _ _ _
  split
  · simp
  split
  · exact hcspg
  split
  · exact hpspg
  split <;> simp

/-- A context for examples: BVCI 2; an IMSI is any element with content. -/
def ctx0 : Ctx := ⟨(· = 2), fun _ => false, 2, fun v => if v.isEmpty then none else some v, fun _ => (0, 0)⟩

/-- A circuit switched paging whose last element is an empty TLLI: octets beyond the message are taken as TLLI. -/
theorem C66_reads_beyond : rcv ctx0 0 [0x07, 0x0d, 0x81, 0x11, 0x1f, 0x80] = .overrun := by decide

/-! ### STATUS -/

/-- The BVCI is given in a STATUS if it has to be, except for messages on a BVC unknown to the PCU. -/
theorem C66_status_partial (c : Ctx) (b : Nat) (msg : List Nat) (cause : Cause) (v : Option Nat) (h : rcv c b msg = .status cause v)
    (hx : c.known b = true ∨ b = 0) : StatusOk cause v := by
  have hcs : ∀ l, rxPagingCs c l = .status cause v → StatusOk cause v := by
    intro l h
    unfold rxPagingCs at h
    repeat' split at h
    all_goals first | cases h | skip
    all_goals rfl
  have hps : ∀ l, rxPagingPs c l = .status cause v → StatusOk cause v := by
    intro l h
    unfold rxPagingPs at h
    repeat' split at h
    all_goals first | cases h | skip
    all_goals rfl
  unfold rcv at h
  match msg, h with
  | type :: r, h =>
    dsimp only at h
    split at h
    · cases h
    split at h
    · cases h; rfl
    split at h
    · unfold rxReset at h
      repeat' split at h
      all_goals first | cases h | skip
      all_goals rfl
    split at h
    · rename_i h1
      rcases hx with hx | hx <;> simp [hx] at h1
    split at h
    · unfold rxSign at h
      split at h
      · cases h
      split at h
      · cases h
      split at h
      · exact hcs _ h
      split at h
      · exact hps _ h
      repeat' split at h
      all_goals first | cases h | skip
      all_goals rfl
    split at h
    · cases h; rfl
    unfold rxPtp at h
    split at h
    · cases h; rfl
    split at h
    · cases h
    split at h
    · unfold rxDlUd accept at h
      dsimp only at h
      repeat' split at h
      all_goals first | cases h | skip
      all_goals rfl
    split at h
    · cases h
    split at h
    · exact hcs _ h
    split at h
    · exact hps _ h
    split at h
    · cases h
    · cases h; rfl

/-- A message on an unknown BVC is answered with "BVCI unknown", without saying which. -/
theorem C66_status_without_bvci (c : Ctx) (b t : Nat) (es : List (Nat × List Nat)) (msg : List Nat) (h : IsUnitdata t es msg)
    (hb : c.known b = false) (h0 : b ≠ 0) : rcv c b msg = .status .unknownBvci none ∧ ¬ StatusOk .unknownBvci none := by
  refine ⟨?_, by simp [StatusOk]⟩
  obtain ⟨ht, q, o, hq, ho, rfl⟩ := h
  obtain ⟨l, h1, _, _⟩ := parse_elements ho (0 :: (octets32 t ++ q ++ o)).length (by simp only [List.length_cons, List.length_append]; omega)
  unfold rcv
  dsimp only
  rw [if_neg (by decide), if_pos (by simp), show (octets32 t ++ q ++ o).drop 7 = o by
    rw [List.drop_left' (by simp [octets32, hq])], h1]
  dsimp only
  rw [if_neg (by decide), if_pos (by simp [hb, h0])]

/-! ### Non-vacuity -/

/-- A DL-UNITDATA with lifetime, IMSI and a frame. -/
def ud0 : List Nat :=
  [0x00, 0xc0, 0x00, 0x12, 0x34, 0x00, 0x00, 0x20, 0x16, 0x82, 0x03, 0xe8, 0x0d, 0x81, 0x19, 0x00, 0x80, 0x0e, 0x00, 0x03, 0x41, 0x42, 0x43]

example : IsUnitdata 0xc0001234 [(0x16, [3, 0xe8]), (0x0d, [0x19]), (0, []), (0x0e, [0x41, 0x42, 0x43])] ud0 :=
  ⟨by decide, [0, 0, 0x20], _, rfl,
    .cons (.short 0x16 [3, 0xe8] (by decide)) (.cons (.short 0x0d [0x19] (by decide)) (.cons (.short 0 [] (by decide))
      (.cons (.long 0x0e [0x41, 0x42, 0x43] (by decide)) .nil))), by decide⟩

example : Serves ctx0 2 ∧ rcv ctx0 2 ud0 = .unitdata ⟨0xc0001234, 0xffffffff, some [0x19], 0, 0, 1000, [0x41, 0x42, 0x43]⟩ := by
  refine ⟨⟨rfl, rfl, by decide⟩, by decide⟩

example : rcv ctx0 0 [6, 0x0d, 0x81, 0x19, 0x20, 0x84, 1, 2, 3, 4] = .pagingPs ⟨some 0x01020304, [0x19]⟩ := by decide
example : rcv ctx0 0 [7, 0x09, 0x81, 2, 0x0d, 0x81, 0x19, 0x1f, 0x84, 1, 2, 3, 4] = .pagingCs ⟨2, [0x19], none, 0x01020304⟩ := by decide

example : IsReset [(0x04, octets16 2), (0x07, [8])] [0x22, 0x04, 0x82, 0, 2, 0x07, 0x81, 8] :=
  ⟨_, .cons (.short 0x04 (octets16 2) (by decide)) (.cons (.short 0x07 [8] (by decide)) .nil), by decide⟩

end Verif.Bssgp
