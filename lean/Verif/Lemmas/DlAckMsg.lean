import Verif.Lemmas.UlMsg
/-!
# Lemmas: acknowledgement messages
-/

namespace Verif.Csn1

open Verif.Bits (put length_put)
open Verif.UlMsg
open Verif.AckNack (GprsDesc EgprsDesc rcvGprs rcvEgprs)
open T

/-- Values of the members for a message. -/
def pdanData (m : DownlinkAck) : Data := dataOf <|
  [([Packet_Downlink_Ack_Nack_t.PayloadType], 1), ([Packet_Downlink_Ack_Nack_t.spare], m.spare),
   ([Packet_Downlink_Ack_Nack_t.R], m.retry.toNat), ([Packet_Downlink_Ack_Nack_t.MESSAGE_TYPE], 2),
   ([Packet_Downlink_Ack_Nack_t.DOWNLINK_TFI], m.tfi),
   ([Ack_Nack_Description_t.FINAL_ACK_INDICATION, Packet_Downlink_Ack_Nack_t.Ack_Nack_Description], m.final.toNat),
   ([Ack_Nack_Description_t.STARTING_SEQUENCE_NUMBER, Packet_Downlink_Ack_Nack_t.Ack_Nack_Description], m.ssn),
   ([0, Ack_Nack_Description_t.RECEIVED_BLOCK_BITMAP, Packet_Downlink_Ack_Nack_t.Ack_Nack_Description], octet m.rbb 0),
   ([1, Ack_Nack_Description_t.RECEIVED_BLOCK_BITMAP, Packet_Downlink_Ack_Nack_t.Ack_Nack_Description], octet m.rbb 1),
   ([2, Ack_Nack_Description_t.RECEIVED_BLOCK_BITMAP, Packet_Downlink_Ack_Nack_t.Ack_Nack_Description], octet m.rbb 2),
   ([3, Ack_Nack_Description_t.RECEIVED_BLOCK_BITMAP, Packet_Downlink_Ack_Nack_t.Ack_Nack_Description], octet m.rbb 3),
   ([4, Ack_Nack_Description_t.RECEIVED_BLOCK_BITMAP, Packet_Downlink_Ack_Nack_t.Ack_Nack_Description], octet m.rbb 4),
   ([5, Ack_Nack_Description_t.RECEIVED_BLOCK_BITMAP, Packet_Downlink_Ack_Nack_t.Ack_Nack_Description], octet m.rbb 5),
   ([6, Ack_Nack_Description_t.RECEIVED_BLOCK_BITMAP, Packet_Downlink_Ack_Nack_t.Ack_Nack_Description], octet m.rbb 6),
   ([7, Ack_Nack_Description_t.RECEIVED_BLOCK_BITMAP, Packet_Downlink_Ack_Nack_t.Ack_Nack_Description], octet m.rbb 7),
   ([Packet_Downlink_Ack_Nack_t.Exist_Channel_Request_Description], m.request.isSome.toNat),
   ([Channel_Request_Description_t.PEAK_THROUGHPUT_CLASS, Packet_Downlink_Ack_Nack_t.Channel_Request_Description], (m.request.map (·.peak)).getD 0),
   ([Channel_Request_Description_t.RADIO_PRIORITY, Packet_Downlink_Ack_Nack_t.Channel_Request_Description], (m.request.map (·.priority)).getD 0),
   ([Channel_Request_Description_t.RLC_MODE, Packet_Downlink_Ack_Nack_t.Channel_Request_Description], (m.request.map (·.rlcMode)).getD 0),
   ([Channel_Request_Description_t.LLC_PDU_TYPE, Packet_Downlink_Ack_Nack_t.Channel_Request_Description], (m.request.map (·.llcType)).getD 0),
   ([Channel_Request_Description_t.RLC_OCTET_COUNT, Packet_Downlink_Ack_Nack_t.Channel_Request_Description], (m.request.map (·.octets)).getD 0),
   ([Channel_Quality_Report_t.C_VALUE, Packet_Downlink_Ack_Nack_t.Channel_Quality_Report], m.cValue),
   ([Channel_Quality_Report_t.RXQUAL, Packet_Downlink_Ack_Nack_t.Channel_Quality_Report], m.rxqual),
   ([Channel_Quality_Report_t.SIGN_VAR, Packet_Downlink_Ack_Nack_t.Channel_Quality_Report], m.signVar),
   ([Packet_Downlink_Ack_Nack_t.Exist_AdditionsR99], m.pfi.isSome.toNat),
   ([PD_AckNack_AdditionsR99_t.Exist_PFI, Packet_Downlink_Ack_Nack_t.AdditionsR99], (m.pfi.getD none).isSome.toNat),
   ([PD_AckNack_AdditionsR99_t.PFI, Packet_Downlink_Ack_Nack_t.AdditionsR99], (m.pfi.getD none).getD 0)]
  ++ [0, 1, 2, 3, 4, 5, 6, 7].map (fun t => ([Channel_Quality_Report_t.Slot_Exist t, Packet_Downlink_Ack_Nack_t.Channel_Quality_Report], (m.iLevel t).isSome.toNat))
  ++ [0, 1, 2, 3, 4, 5, 6, 7].map (fun t => ([Channel_Quality_Report_t.Slot_I_LEVEL_TN t, Packet_Downlink_Ack_Nack_t.Channel_Quality_Report], (m.iLevel t).getD 0))

theorem toNat_lt (b : Bool) : b.toNat < 2 := by cases b <;> decide

theorem pdan_fits (m : DownlinkAck) (h : m.Valid) : fitsItems (pdanData m) Packet_Downlink_Ack_Nack_t [] := by
  obtain ⟨h1, h2, h3, h4, h5, h6, h7, h8, h9, h10⟩ := h
  have hi : ∀ t, (m.iLevel t).getD 0 < 16 := fun t => getD_lt (by decide) (h9 t)
  have hc : ∀ (f : ChannelRequest → Nat) (n : Nat), 0 < n → (∀ c : ChannelRequest, c.Valid → f c < n) → (m.request.map f).getD 0 < n :=
    fun f n hn hf => mapD_lt hn fun c e => hf c (h5 c e)
  refine ⟨(by decide : 1 < 4), h1, toNat_lt m.retry, (by decide : 2 < 64), h2, ⟨toNat_lt m.final, h3, ?_, trivial⟩,
    toNat_lt m.request.isSome, ⟨hc _ 16 (by decide) fun c v => v.1, hc _ 4 (by decide) fun c v => v.2.1, hc _ 2 (by decide) fun c v => v.2.2.1, hc _ 2 (by decide) fun c v => v.2.2.2.1, hc _ 65536 (by decide) fun c v => v.2.2.2.2, trivial⟩,
    ⟨h6, h7, h8, toNat_lt (m.iLevel 0).isSome, hi 0, toNat_lt (m.iLevel 1).isSome, hi 1, toNat_lt (m.iLevel 2).isSome, hi 2, toNat_lt (m.iLevel 3).isSome, hi 3,
      toNat_lt (m.iLevel 4).isSome, hi 4, toNat_lt (m.iLevel 5).isSome, hi 5, toNat_lt (m.iLevel 6).isSome, hi 6, toNat_lt (m.iLevel 7).isSome, hi 7, trivial⟩,
    toNat_lt m.pfi.isSome, ⟨toNat_lt (m.pfi.getD none).isSome, getD_lt (n := 128) (by decide) ?_, trivial⟩, trivial, trivial⟩
  · intro k hk
    have hk : k < 8 := hk
    match k, hk with
    | 0, _ => exact octet_lt _ _
    | 1, _ => exact octet_lt _ _
    | 2, _ => exact octet_lt _ _
    | 3, _ => exact octet_lt _ _
    | 4, _ => exact octet_lt _ _
    | 5, _ => exact octet_lt _ _
    | 6, _ => exact octet_lt _ _
    | 7, _ => exact octet_lt _ _
    | k + 8, hk => omega
  · intro v e
    cases hp : m.pfi with
    | none => rw [hp] at e; cases e
    | some o => rw [hp] at e; exact h10 v (by rw [hp]; exact congrArg some e)

theorem pdan_bits (m : DownlinkAck) (h : m.Valid) : bitsItems (pdanData m) Packet_Downlink_Ack_Nack_t 0 [] = m.bits := by
  obtain ⟨h1, h2, h3, h4, h5, h6, h7, h8, h9, h10⟩ := h
  have hr : elems (pdanData m) 8 [Ack_Nack_Description_t.RECEIVED_BLOCK_BITMAP, Packet_Downlink_Ack_Nack_t.Ack_Nack_Description] 8 = m.rbb := by
    refine elems_octets _ _ _ 8 (by omega) fun k hk => ?_
    match k, hk with
    | 0, _ => rfl
    | 1, _ => rfl
    | 2, _ => rfl
    | 3, _ => rfl
    | 4, _ => rfl
    | 5, _ => rfl
    | 6, _ => rfl
    | 7, _ => rfl
    | k + 8, hk => omega
  simp only [Packet_Downlink_Ack_Nack_t, Ack_Nack_Description_t, Channel_Request_Description_t, Channel_Quality_Report_t, PD_AckNack_AdditionsR99_t, bits_nil, bits_cons, bits_opt1, bitsItem, Nat.reduceDiv]
  rw [hr]
  show put 2 1 ++ (put 5 m.spare ++ (put 1 m.retry.toNat ++ (put 6 2 ++ (put 5 m.tfi ++ ((put 1 m.final.toNat ++ (put 7 m.ssn ++ (m.rbb ++ []))) ++ (put 1 m.request.isSome.toNat ++ ((if m.request.isSome.toNat = 0 then [] else put 4 ((m.request.map (·.peak)).getD 0) ++ (put 2 ((m.request.map (·.priority)).getD 0) ++ (put 1 ((m.request.map (·.rlcMode)).getD 0) ++ (put 1 ((m.request.map (·.llcType)).getD 0) ++ (put 16 ((m.request.map (·.octets)).getD 0) ++ []))))) ++ ((put 6 m.cValue ++ (put 3 m.rxqual ++ (put 6 m.signVar ++ (put 1 (m.iLevel 0).isSome.toNat ++ ((if (m.iLevel 0).isSome.toNat = 0 then [] else put 4 ((m.iLevel 0).getD 0)) ++ (put 1 (m.iLevel 1).isSome.toNat ++ ((if (m.iLevel 1).isSome.toNat = 0 then [] else put 4 ((m.iLevel 1).getD 0)) ++ (put 1 (m.iLevel 2).isSome.toNat ++ ((if (m.iLevel 2).isSome.toNat = 0 then [] else put 4 ((m.iLevel 2).getD 0)) ++ (put 1 (m.iLevel 3).isSome.toNat ++ ((if (m.iLevel 3).isSome.toNat = 0 then [] else put 4 ((m.iLevel 3).getD 0)) ++ (put 1 (m.iLevel 4).isSome.toNat ++ ((if (m.iLevel 4).isSome.toNat = 0 then [] else put 4 ((m.iLevel 4).getD 0)) ++ (put 1 (m.iLevel 5).isSome.toNat ++ ((if (m.iLevel 5).isSome.toNat = 0 then [] else put 4 ((m.iLevel 5).getD 0)) ++ (put 1 (m.iLevel 6).isSome.toNat ++ ((if (m.iLevel 6).isSome.toNat = 0 then [] else put 4 ((m.iLevel 6).getD 0)) ++ (put 1 (m.iLevel 7).isSome.toNat ++ ((if (m.iLevel 7).isSome.toNat = 0 then [] else put 4 ((m.iLevel 7).getD 0)) ++ []))))))))))))))))))) ++ (put 1 m.pfi.isSome.toNat ++ ((if m.pfi.isSome.toNat = 0 then [] else put 1 (m.pfi.getD none).isSome.toNat ++ ((if (m.pfi.getD none).isSome.toNat = 0 then [] else put 7 ((m.pfi.getD none).getD 0)) ++ [])) ++ ([] ++ []))))))))))) = _
  have hi : ∀ t r, put 1 (m.iLevel t).isSome.toNat ++ ((if (m.iLevel t).isSome.toNat = 0 then [] else put 4 ((m.iLevel t).getD 0)) ++ r)
      = opt ((m.iLevel t).map (put 4)) ++ r := fun t r => opt_eq' _ _ _ _ (fun x e => by rw [e]; rfl)
  simp only [hi]
  rw [opt_eq' m.request ChannelRequest.bits _ _ (fun x e => by rw [e]; simp only [ChannelRequest.bits, List.append_assoc, List.append_nil, Option.map_some, Option.getD_some]),
    opt_eq' m.pfi (fun p => opt (p.map (put 7))) _ _ (fun x e => by
      rw [e]; exact (opt_eq' x (put 7) _ [] (fun y e => by rw [e]; rfl)).trans (List.append_nil _))]
  unfold DownlinkAck.bits header
  simp only [put_bit, List.append_assoc, List.flatMap_cons, List.flatMap_nil, List.append_nil]

theorem length_opt_le {α} (o : Option α) (F : α → List Bool) (n : Nat) (h : ∀ x, o = some x → (F x).length ≤ n) :
    (opt (o.map F)).length ≤ n + 1 := by
  cases o with
  | none => simp [opt]
  | some x => simpa [opt] using h x rfl

theorem pdan_length (m : DownlinkAck) (h : m.Valid) : m.bits.length ≤ 184 := by
  obtain ⟨h1, h2, h3, h4, h5, h6, h7, h8, h9, h10⟩ := h
  have hr := length_opt_le m.request ChannelRequest.bits 24 (fun x _ => by simp [ChannelRequest.bits])
  have hi : ∀ t, (opt ((m.iLevel t).map (put 4))).length ≤ 4 + 1 := fun t => length_opt_le _ _ _ (fun x _ => by simp)
  have hp := length_opt_le m.pfi (fun p => opt (p.map (put 7))) 8 (fun x _ => length_opt_le x (put 7) 7 (fun y _ => by simp))
  have i0 := hi 0; have i1 := hi 1; have i2 := hi 2; have i3 := hi 3; have i4 := hi 4; have i5 := hi 5; have i6 := hi 6; have i7 := hi 7
  unfold DownlinkAck.bits header
  simp only [List.length_append, length_put, h4, List.flatMap_cons, List.flatMap_nil, List.length_nil, bit, List.length_cons]
  omega

/-- What the PCU reads. -/
theorem pdan_read (m : DownlinkAck) (h : m.Valid) (rest : List Bool) :
    ∃ s, ulDecode (m.bits ++ rest) = .ok s ∧ (readField (m.bits ++ rest) 8 6).1 = 2 ∧
      ∀ q, hasItems (pdanData m) Packet_Downlink_Ack_Nack_t 0 [] q → s.data q = pdanData m q := by
  have hb := pdan_bits m h
  have := ul_read (pdanData m) 2 Packet_Downlink_Ack_Nack_t rfl (by decide) (by decide) (pdan_fits m h) m.spare m.retry.toNat
    ((m.bits).drop 14) rest (by
      rw [hb, put_bit]; unfold DownlinkAck.bits header
      simp only [List.append_assoc]
      rfl) (by rw [hb]; exact pdan_length m h) (fun x => by cases open_items _ _ _ x)
  rw [hb] at this
  exact this

theorem pdan_members (m : DownlinkAck) (q : Path)
    (hq : q = [Packet_Downlink_Ack_Nack_t.DOWNLINK_TFI] ∨
      q = [Ack_Nack_Description_t.FINAL_ACK_INDICATION, Packet_Downlink_Ack_Nack_t.Ack_Nack_Description] ∨
      q = [Ack_Nack_Description_t.STARTING_SEQUENCE_NUMBER, Packet_Downlink_Ack_Nack_t.Ack_Nack_Description] ∨
      ∃ k, k < 8 ∧ q = [k, Ack_Nack_Description_t.RECEIVED_BLOCK_BITMAP, Packet_Downlink_Ack_Nack_t.Ack_Nack_Description]) :
    hasItems (pdanData m) Packet_Downlink_Ack_Nack_t 0 [] q := by
  simp only [Packet_Downlink_Ack_Nack_t, Ack_Nack_Description_t, has_nil, has_cons, has_opt1, hasItem, Nat.reduceDiv]
  rcases hq with h | h | h | h
  · simp only [h, true_or, or_true]
  · simp only [h, true_or, or_true]
  · simp only [h, true_or, or_true]
  · simp only [h, true_or, or_true]

theorem rcvGprs_congr (d d' : GprsDesc) (w : RlcDl.Win) (h1 : d.final = d'.final) (h2 : d.ssn = d'.ssn)
    (h3 : ∀ i, i < 64 → d.rbb i = d'.rbb i) : rcvGprs d w = rcvGprs d' w := by
  have : AckNack.decodeGprs d w { bits := [], cap := 64 } = AckNack.decodeGprs d' w { bits := [], cap := 64 } := by
    unfold AckNack.decodeGprs
    rw [h1, h2]
    by_cases hf : d'.final = true
    · rw [if_pos hf, if_pos hf]
    · rw [if_neg hf, if_neg hf]
      by_cases hn : w.modSns (d'.ssn + w.sns - w.va) > 64
      · dsimp only; rw [if_pos hn, if_pos hn]
      · dsimp only; rw [if_neg hn, if_neg hn]
        congr 2
        refine List.map_congr_left fun j hj => h3 _ ?_
        have := List.mem_range.1 hj
        omega
  unfold rcvGprs
  rw [this, h1]

/-- The window after a Packet Downlink Ack/Nack is what the description in it makes of it. -/
theorem pdan_window (m : DownlinkAck) (h : m.Valid) (rest : List Bool) (w : RlcDl.Win) :
    rcvDlAckBlock m.tfi (m.bits ++ rest) w = rcvGprs ⟨m.final, m.ssn, fun i => m.rbb.getD i false⟩ w := by
  obtain ⟨s, e1, e2, e3⟩ := pdan_read m h rest
  have g := fun q hq => e3 q (pdan_members m q hq)
  unfold rcvDlAckBlock
  rw [e1, e2]
  have hT : s.data [Packet_Downlink_Ack_Nack_t.DOWNLINK_TFI] = m.tfi := g _ (.inl rfl)
  show (if s.data [Packet_Downlink_Ack_Nack_t.DOWNLINK_TFI] = m.tfi then rcvGprs (gprsDesc s.data [Packet_Downlink_Ack_Nack_t.Ack_Nack_Description]) w else w) = _
  rw [if_pos hT]
  have hlen := h.2.2.2.1
  refine rcvGprs_congr _ _ w ?_ ?_ ?_
  · show (s.data _ != 0) = m.final
    rw [g _ (.inr (.inl rfl))]
    show (m.final.toNat != 0) = m.final
    cases m.final <;> rfl
  · exact g _ (.inr (.inr (.inl rfl)))
  · intro i hi
    show bitAt s.data _ i = m.rbb.getD i false
    unfold bitAt
    rw [g _ (.inr (.inr (.inr ⟨i / 8, by omega, rfl⟩)))]
    have : pdanData m [i / 8, Ack_Nack_Description_t.RECEIVED_BLOCK_BITMAP, Packet_Downlink_Ack_Nack_t.Ack_Nack_Description] = octet m.rbb (i / 8) := by
      have hk : i / 8 < 8 := by omega
      generalize i / 8 = k at hk
      match k, hk with
      | 0, _ => rfl
      | 1, _ => rfl
      | 2, _ => rfl
      | 3, _ => rfl
      | 4, _ => rfl
      | 5, _ => rfl
      | 6, _ => rfl
      | 7, _ => rfl
      | k + 8, hk => omega
    rw [this, octet_bit _ _ (by omega) (by omega), List.getD_eq_getElem?_getD, List.getElem?_eq_getElem (by omega), Option.getD_some]

/-! ### EGPRS -/

/-- Bits that are stored eight to an octet, the bits of an incomplete octet at its lower end, and looked at from the
upper end. -/
def asRead (l : List Bool) : List Bool :=
  (List.range l.length).map fun i =>
    let r := min 8 (l.length - i / 8 * 8)
    if i % 8 + r < 8 then false else l.getD (i + r - 8) false

theorem asRead_whole (l : List Bool) (h : l.length % 8 = 0) : asRead l = l := by
  apply List.ext_getElem
  · simp [asRead]
  · intro i h1 h2
    have h3 : i < l.length := h2
    have : min 8 (l.length - i / 8 * 8) = 8 := by omega
    simp only [asRead, List.getElem_map, List.getElem_range]
    rw [this, if_neg (by omega), List.getD_eq_getElem?_getD, show i + 8 - 8 = i by omega, List.getElem?_eq_getElem h3, Option.getD_some]

theorem octet_read (l : List Bool) (i : Nat) (hi : i < l.length) :
    (octet l (i / 8)).testBit (7 - i % 8) = (if i % 8 + min 8 (l.length - i / 8 * 8) < 8 then false else l.getD (i + min 8 (l.length - i / 8 * 8) - 8) false) := by
  unfold octet
  have hl : ((l.drop (8 * (i / 8))).take 8).length = min 8 (l.length - i / 8 * 8) := by
    rw [List.length_take, List.length_drop]; omega
  generalize hr : min 8 (l.length - i / 8 * 8) = r at hl
  by_cases hc : i % 8 + r < 8
  · rw [if_pos hc]
    apply Nat.testBit_lt_two_pow
    refine Nat.lt_of_lt_of_le (num_lt _) ?_
    rw [hl]
    exact Nat.pow_le_pow_right (by omega) (by omega)
  · rw [if_neg hc]
    have h := num_testBit ((l.drop (8 * (i / 8))).take 8) (i % 8 + r - 8) (by omega)
    rw [show ((l.drop (8 * (i / 8))).take 8).length - 1 - (i % 8 + r - 8) = 7 - i % 8 by omega] at h
    rw [h, List.getElem_take, List.getElem_drop, List.getD_eq_getElem?_getD, List.getElem?_eq_getElem (by omega), Option.getD_some]
    congr 1
    omega

theorem leftBits_octets (σ : Data) (q : Path) (l : List Bool) (hσ : ∀ k, k < (l.length + 7) / 8 → σ (k :: q) = octet l k) :
    leftBits σ l.length q = l := by
  unfold leftBits
  rw [elems_octets σ q (l.take (8 * (l.length / 8))) (l.length / 8) (by rw [List.length_take]; omega)
    (fun k hk => by
      rw [hσ k (by omega)]; unfold octet
      congr 1
      rw [List.drop_take, List.take_take]
      congr 1
      omega)]
  by_cases h0 : l.length % 8 = 0
  · rw [h0, put, List.append_nil, List.take_of_length_le (by omega)]
  · rw [hσ _ (by omega)]
    unfold octet
    have h := put_num ((l.drop (8 * (l.length / 8))).take 8)
    rw [show ((l.drop (8 * (l.length / 8))).take 8).length = l.length % 8 by rw [List.length_take, List.length_drop]; omega] at h
    rw [h]
    rw [List.take_of_length_le (l := l.drop (8 * (l.length / 8))) (by rw [List.length_drop]; omega)]
    exact List.take_append_drop _ _

theorem octet_last (l : List Bool) : l.length % 8 ≠ 0 → octet l (l.length / 8) < 2 ^ (l.length % 8) := by
  intro h
  unfold octet
  have h := num_lt ((l.drop (8 * (l.length / 8))).take 8)
  rw [show ((l.drop (8 * (l.length / 8))).take 8).length = l.length % 8 by rw [List.length_take, List.length_drop]; omega] at h
  exact h

/-- The compressed bitmap of a description, empty if there is none. -/
def codeOf (d : AckDesc) : List Bool := (d.crbb.map (·.2)).getD []

/-- The members hold a description. -/
structure Holds (σ : Data) (p : Path) (d : AckDesc) : Prop where
  final : σ (EGPRS_AckNack_Desc_t.FINAL_ACK_INDICATION :: p) = d.final.toNat
  bow : σ (EGPRS_AckNack_Desc_t.BEGINNING_OF_WINDOW :: p) = d.bow.toNat
  eow : σ (EGPRS_AckNack_Desc_t.END_OF_WINDOW :: p) = d.eow.toNat
  ssn : σ (EGPRS_AckNack_Desc_t.STARTING_SEQUENCE_NUMBER :: p) = d.ssn
  ex : σ (EGPRS_AckNack_Desc_t.Exist_CRBB :: p) = d.crbb.isSome.toNat
  clen : σ (EGPRS_AckNack_Desc_t.CRBB_LENGTH :: p) = (codeOf d).length
  colour : σ (EGPRS_AckNack_Desc_t.CRBB_STARTING_COLOR_CODE :: p) = (d.crbb.map (·.1.toNat)).getD 0
  code : ∀ k, k < ((codeOf d).length + 7) / 8 → σ (k :: EGPRS_AckNack_Desc_t.CRBB :: p) = octet (codeOf d) k
  ulen : σ (EGPRS_AckNack_Desc_t.URBB_LENGTH :: p) = d.urbb.length
  urbb : ∀ k, k < (d.urbb.length + 7) / 8 → σ (k :: EGPRS_AckNack_Desc_t.URBB :: p) = octet d.urbb k

theorem desc_bits {σ p d} (h : Holds σ p d) : bitsItems σ EGPRS_AckNack_Desc_t 0 p = d.bits := by
  simp only [EGPRS_AckNack_Desc_t, bits_nil, bits_cons, bits_opt3, bitsItem, h.final, h.bow, h.eow, h.ssn, h.ex, h.clen, h.colour, h.ulen]
  rw [leftBits_octets _ _ _ h.code, leftBits_octets _ _ _ h.urbb,
    opt_eq' d.crbb (fun c => put 7 c.2.length ++ bit c.1 ++ c.2) _ _ (fun x e => by unfold codeOf; rw [e]; show put 7 x.2.length ++ put 1 x.1.toNat ++ x.2 = _; rw [put_bit])]
  unfold AckDesc.bits
  simp only [put_bit, List.append_assoc, List.append_nil]

theorem desc_length (d : AckDesc) : d.bits.length = 15 + (if d.crbb.isSome then 8 else 0) + (codeOf d).length + d.urbb.length := by
  unfold AckDesc.bits codeOf
  cases d.crbb with
  | none => simp [opt, bit]; omega
  | some c => simp [opt, bit]; omega

theorem desc_fits {σ p d} (h : Holds σ p d) (hs : d.ssn < 2048) (hl : d.bits.length ≤ 184) (hc : (codeOf d).length < 128) :
    fitsItems σ EGPRS_AckNack_Desc_t p := by
  have hlen := desc_length d
  simp only [EGPRS_AckNack_Desc_t, fitsItems, fitsItem, h.final, h.bow, h.eow, h.ssn, h.ex, h.clen, h.colour, h.ulen]
  refine ⟨toNat_lt _, toNat_lt _, toNat_lt _, hs, toNat_lt _, hc, mapD_lt (by decide) (fun x _ => toNat_lt x.1), ⟨by omega, ?_, ?_⟩, ⟨by omega, by omega, ?_, ?_⟩, trivial⟩
  · intro k hk; rw [h.code k (by omega)]; exact octet_lt _ _
  · intro hn; rw [h.code _ (by omega)]; exact octet_last _ hn
  · intro k hk; rw [h.urbb k (by omega)]; exact octet_lt _ _
  · intro hn; rw [h.urbb _ (by omega)]; exact octet_last _ hn

/-- What the decoder of the bitmaps sees. -/
theorem desc_read {σ p d} (h : Holds σ p d) (D : Data) (hD : ∀ q, hasItems σ EGPRS_AckNack_Desc_t 0 p q → D q = σ q) :
    egprsDesc D p = ⟨d.final, d.bow, d.ssn, d.crbb.map (fun c => (c.1, asRead c.2)), asRead d.urbb⟩ := by
  simp only [EGPRS_AckNack_Desc_t, has_nil, has_cons, has_opt3, hasItem] at hD
  have e1 := hD (EGPRS_AckNack_Desc_t.FINAL_ACK_INDICATION :: p) (by simp only [true_or])
  have e2 := hD (EGPRS_AckNack_Desc_t.BEGINNING_OF_WINDOW :: p) (by simp only [true_or, or_true])
  have e3 := hD (EGPRS_AckNack_Desc_t.STARTING_SEQUENCE_NUMBER :: p) (by simp only [true_or, or_true])
  have e4 := hD (EGPRS_AckNack_Desc_t.Exist_CRBB :: p) (by simp only [true_or, or_true])
  have e5 := hD (EGPRS_AckNack_Desc_t.URBB_LENGTH :: p) (by simp only [true_or, or_true])
  have e6 : ∀ k, k < (d.urbb.length + 7) / 8 → D (k :: EGPRS_AckNack_Desc_t.URBB :: p) = octet d.urbb k := fun k hk =>
    (hD _ (by rw [h.ulen]; simp only [List.cons.injEq, and_true, exists_eq_right', hk, or_true, true_or])).trans (h.urbb k hk)
  unfold egprsDesc
  congr 1
  · rw [e1, h.final]; cases d.final <;> rfl
  · rw [e2, h.bow]; cases d.bow <;> rfl
  · rw [e3, h.ssn]
  · rw [e4, h.ex]
    cases hc : d.crbb with
    | none => rfl
    | some c =>
      have hne : σ (EGPRS_AckNack_Desc_t.Exist_CRBB :: p) ≠ 0 := by rw [h.ex, hc]; exact Nat.one_ne_zero
      have hcode : codeOf d = c.2 := by unfold codeOf; rw [hc]; rfl
      have f1 := hD (EGPRS_AckNack_Desc_t.CRBB_LENGTH :: p) (by simp only [ne_eq, hne, not_false_eq_true, true_and, true_or, or_true])
      have f2 := hD (EGPRS_AckNack_Desc_t.CRBB_STARTING_COLOR_CODE :: p) (by simp only [ne_eq, hne, not_false_eq_true, true_and, true_or, or_true])
      have f3 : ∀ k, k < (c.2.length + 7) / 8 → D (k :: EGPRS_AckNack_Desc_t.CRBB :: p) = octet c.2 k := fun k hk => by
        rw [← hcode] at hk ⊢
        exact (hD _ (by rw [h.clen]; simp only [List.cons.injEq, and_true, exists_eq_right', hk, ne_eq, hne, not_false_eq_true, true_and, or_true, true_or])).trans (h.code k hk)
      rw [if_neg (show ¬ (some c).isSome.toNat = 0 from Nat.one_ne_zero), f1, f2, h.clen, h.colour, hc, hcode]
      show some (_, _) = some (c.1, asRead c.2)
      congr 2
      · show (c.1.toNat != 0) = c.1
        cases c.1 <;> rfl
      · unfold asRead
        refine List.map_congr_left fun i hi => ?_
        have hi := List.mem_range.1 hi
        unfold bitAt
        rw [f3 _ (by omega), octet_read _ _ hi]
  · rw [e5, h.ulen]
    unfold asRead
    refine List.map_congr_left fun i hi => ?_
    have hi := List.mem_range.1 hi
    unfold bitAt
    rw [e6 _ (by omega), octet_read _ _ hi]

/-! ### The other parts of the message -/

/-- The members hold a channel request. -/
structure HoldsR (σ : Data) (p : Path) (c : ChannelRequest) : Prop where
  peak : σ (Channel_Request_Description_t.PEAK_THROUGHPUT_CLASS :: p) = c.peak
  priority : σ (Channel_Request_Description_t.RADIO_PRIORITY :: p) = c.priority
  rlcMode : σ (Channel_Request_Description_t.RLC_MODE :: p) = c.rlcMode
  llcType : σ (Channel_Request_Description_t.LLC_PDU_TYPE :: p) = c.llcType
  octets : σ (Channel_Request_Description_t.RLC_OCTET_COUNT :: p) = c.octets

theorem request_bits {σ p c} (h : HoldsR σ p c) : bitsItems σ Channel_Request_Description_t 0 p = c.bits := by
  simp only [Channel_Request_Description_t, bits_nil, bits_cons, bitsItem, h.peak, h.priority, h.rlcMode, h.llcType, h.octets, ChannelRequest.bits, List.append_assoc, List.append_nil]

theorem request_fits {σ p c} (h : HoldsR σ p c) (hv : c.Valid) : fitsItems σ Channel_Request_Description_t p := by
  simp only [Channel_Request_Description_t, fitsItems, fitsItem, h.peak, h.priority, h.rlcMode, h.llcType, h.octets]
  exact ⟨hv.1, hv.2.1, hv.2.2.1, hv.2.2.2.1, hv.2.2.2.2, trivial⟩

/-- Bit error probability reported for a time slot. -/
def bepAt (r : Quality) (t : Nat) : Option (Bool × Nat) := r.bep.bind (· t)

/-- Interference level reported for a time slot. -/
def levelAt (r : Quality) (t : Nat) : Option Nat := r.iLevel.bind (· t)

abbrev pLink (p : Path) : Path := EGPRS_ChannelQualityReport_t.EGPRS_BEP_LinkQualityMeasurements :: p
abbrev pSlots (p : Path) : Path := EGPRS_ChannelQualityReport_t.EGPRS_TimeslotLinkQualityMeasurements :: p
abbrev pBep (p : Path) (t : Nat) : Path := t :: EGPRS_TimeslotLinkQualityMeasurements_t.BEP_MEASUREMENTS :: pSlots p
abbrev pInt (p : Path) (t : Nat) : Path := t :: EGPRS_TimeslotLinkQualityMeasurements_t.INTERFERENCE_MEASUREMENTS :: pSlots p

/-- The members hold a quality report. -/
structure HoldsQ (σ : Data) (p : Path) (r : Quality) : Prop where
  gE : σ (EGPRS_BEP_LinkQualityMeasurements_t.Exist_MEAN_CV_BEP_GMSK :: pLink p) = r.gmsk.isSome.toNat
  gM : σ (EGPRS_BEP_LinkQualityMeasurements_t.MEAN_BEP_GMSK :: pLink p) = (r.gmsk.map (·.1)).getD 0
  gC : σ (EGPRS_BEP_LinkQualityMeasurements_t.CV_BEP_GMSK :: pLink p) = (r.gmsk.map (·.2)).getD 0
  pE : σ (EGPRS_BEP_LinkQualityMeasurements_t.Exist_MEAN_CV_BEP_8PSK :: pLink p) = r.psk.isSome.toNat
  pM : σ (EGPRS_BEP_LinkQualityMeasurements_t.MEAN_BEP_8PSK :: pLink p) = (r.psk.map (·.1)).getD 0
  pC : σ (EGPRS_BEP_LinkQualityMeasurements_t.CV_BEP_8PSK :: pLink p) = (r.psk.map (·.2)).getD 0
  cV : σ (EGPRS_ChannelQualityReport_t.C_VALUE :: p) = r.cValue
  bE : σ (EGPRS_TimeslotLinkQualityMeasurements_t.Exist_BEP_MEASUREMENTS :: pSlots p) = r.bep.isSome.toNat
  iE : σ (EGPRS_TimeslotLinkQualityMeasurements_t.Exist_INTERFERENCE_MEASUREMENTS :: pSlots p) = r.iLevel.isSome.toNat
  bX : ∀ t, σ (BEP_MeasurementReport_t.Exist :: pBep p t) = (bepAt r t).isSome.toNat
  bU : ∀ t, σ (BEP_MeasurementReport_t.UnionType :: pBep p t) = ((bepAt r t).map (·.1.toNat)).getD 0
  bG : ∀ t, σ (BEP_MeasurementReport_t.u_MEAN_BEP_GMSK :: pBep p t) = ((bepAt r t).map (·.2)).getD 0
  bP : ∀ t, σ (BEP_MeasurementReport_t.u_MEAN_BEP_8PSK :: pBep p t) = ((bepAt r t).map (·.2)).getD 0
  iX : ∀ t, σ (InterferenceMeasurementReport_t.Exist :: pInt p t) = (levelAt r t).isSome.toNat
  iL : ∀ t, σ (InterferenceMeasurementReport_t.I_LEVEL :: pInt p t) = (levelAt r t).getD 0

theorem bep_bits {σ p r} (h : HoldsQ σ p r) (t : Nat) :
    bitsItems σ BEP_MeasurementReport_t 0 (pBep p t) = opt ((bepAt r t).map fun x => bit x.1 ++ put 4 x.2) := by
  simp only [BEP_MeasurementReport_t, bits_nil, bits_opt1, h.bX]
  rw [opt_eq' (bepAt r t) (fun x => bit x.1 ++ put 4 x.2) _ _ (fun x e => ?_), List.append_nil]
  simp only [bitsItem, bitsUnion, h.bU, h.bG, h.bP, e, Option.map_some, Option.getD_some, put_bit]
  cases x.1 <;> rfl

theorem level_bits {σ p r} (h : HoldsQ σ p r) (t : Nat) :
    bitsItems σ InterferenceMeasurementReport_t 0 (pInt p t) = opt ((levelAt r t).map (put 4)) := by
  simp only [InterferenceMeasurementReport_t, bits_nil, bits_opt1, h.iX, bitsItem, h.iL]
  rw [opt_eq' (levelAt r t) (put 4) _ _ (fun x e => by rw [e]; rfl), List.append_nil]

theorem quality_bits {σ p r} (h : HoldsQ σ p r) : bitsItems σ EGPRS_ChannelQualityReport_t 0 p = r.bits := by
  have hb : (List.range 8).flatMap (fun t => bitsItems σ BEP_MeasurementReport_t 0 (pBep p t)) =
      [0, 1, 2, 3, 4, 5, 6, 7].flatMap fun t => opt ((bepAt r t).map fun x => bit x.1 ++ put 4 x.2) := by
    simp only [bep_bits h]; rfl
  have hi : (List.range 8).flatMap (fun t => bitsItems σ InterferenceMeasurementReport_t 0 (pInt p t)) =
      [0, 1, 2, 3, 4, 5, 6, 7].flatMap fun t => opt ((levelAt r t).map (put 4)) := by
    simp only [level_bits h]; rfl
  simp only [EGPRS_ChannelQualityReport_t, EGPRS_BEP_LinkQualityMeasurements_t, EGPRS_TimeslotLinkQualityMeasurements_t,
    bits_nil, bits_cons, bits_opt1, bits_opt2, bitsItem, h.gE, h.gM, h.gC, h.pE, h.pM, h.pC, h.cV, h.bE, h.iE, hb, hi]
  rw [opt_eq' r.gmsk (fun x => put 5 x.1 ++ put 3 x.2) _ _ (fun x e => by rw [e]; rfl),
    opt_eq' r.psk (fun x => put 5 x.1 ++ put 3 x.2) _ _ (fun x e => by rw [e]; rfl),
    opt_eq' r.bep (fun f => [0, 1, 2, 3, 4, 5, 6, 7].flatMap fun t => opt ((f t).map fun x => bit x.1 ++ put 4 x.2)) _ _
      (fun x e => by simp only [bepAt, e, Option.bind_some]),
    opt_eq' r.iLevel (fun f => [0, 1, 2, 3, 4, 5, 6, 7].flatMap fun t => opt ((f t).map (put 4))) _ _
      (fun x e => by simp only [levelAt, e, Option.bind_some])]
  unfold Quality.bits
  simp only [List.append_assoc, List.append_nil]

theorem quality_fits {σ p r} (h : HoldsQ σ p r) (hv : r.Valid) : fitsItems σ EGPRS_ChannelQualityReport_t p := by
  obtain ⟨v1, v2, v3, v4, v5⟩ := hv
  have hb : ∀ t x, bepAt r t = some x → x.2 < 16 := by
    intro t x e
    unfold bepAt at e
    cases hf : r.bep with
    | none => rw [hf] at e; cases e
    | some f => rw [hf] at e; exact v4 f hf t x e
  have hi : ∀ t x, levelAt r t = some x → x < 16 := by
    intro t x e
    unfold levelAt at e
    cases hf : r.iLevel with
    | none => rw [hf] at e; cases e
    | some f => rw [hf] at e; exact v5 f hf t x e
  simp only [EGPRS_ChannelQualityReport_t, EGPRS_BEP_LinkQualityMeasurements_t, EGPRS_TimeslotLinkQualityMeasurements_t,
    BEP_MeasurementReport_t, InterferenceMeasurementReport_t, fitsItems, fitsItem, fitsUnion, h.gE, h.gM, h.gC, h.pE, h.pM, h.pC, h.cV, h.bE, h.iE, h.bX, h.bU, h.bG, h.bP, h.iX, h.iL]
  refine ⟨⟨toNat_lt _, mapD_lt (by decide) (fun x e => (v1 x e).1), mapD_lt (by decide) (fun x e => (v1 x e).2), toNat_lt _, mapD_lt (by decide) (fun x e => (v2 x e).1), mapD_lt (by decide) (fun x e => (v2 x e).2), trivial⟩,
    v3, ⟨toNat_lt _, fun t _ => ⟨toNat_lt _, ⟨mapD_lt (by decide) (fun x _ => toNat_lt x.1), ?_⟩, trivial⟩, toNat_lt _, fun t _ => ⟨toNat_lt _, getD_lt (by decide) (hi t), trivial⟩, trivial⟩, trivial⟩
  have : ((bepAt r t).map (·.2)).getD 0 < 2 ^ 4 := mapD_lt (by decide) (fun x e => hb t x e)
  split
  · exact this
  · rw [if_pos (by simp [Items.isEnd])]; exact this

/-! ### The message -/

abbrev pDesc : Path := [EGPRS_AckNack_t.Desc, EGPRS_PD_AckNack_t.EGPRS_AckNack]

/-- The quality report, or an empty one. -/
def qualityOf (m : EgprsDownlinkAck) : Quality := m.quality.getD ⟨none, none, 0, none, none⟩

/-- The channel request, or an empty one. -/
def requestOf (m : EgprsDownlinkAck) : ChannelRequest := m.request.getD ⟨0, 0, 0, 0, 0⟩

/-- Values of the members for a message. -/
def egprsData (m : EgprsDownlinkAck) : Data := fun q =>
  match q with
  | [f, t, a, _, _] =>
    if a = EGPRS_TimeslotLinkQualityMeasurements_t.BEP_MEASUREMENTS then
      if f = BEP_MeasurementReport_t.Exist then (bepAt (qualityOf m) t).isSome.toNat
      else if f = BEP_MeasurementReport_t.UnionType then ((bepAt (qualityOf m) t).map (·.1.toNat)).getD 0
      else ((bepAt (qualityOf m) t).map (·.2)).getD 0
    else if f = InterferenceMeasurementReport_t.Exist then (levelAt (qualityOf m) t).isSome.toNat
    else (levelAt (qualityOf m) t).getD 0
  | [k, a, _, _] =>
    if a = EGPRS_AckNack_Desc_t.CRBB then octet (codeOf m.desc) k else octet m.desc.urbb k
  | _ => dataOf [
    ([EGPRS_PD_AckNack_t.PayloadType], 1), ([EGPRS_PD_AckNack_t.spare], m.spare), ([EGPRS_PD_AckNack_t.R], m.retry.toNat),
    ([EGPRS_PD_AckNack_t.MESSAGE_TYPE], 8), ([EGPRS_PD_AckNack_t.DOWNLINK_TFI], m.tfi),
    ([EGPRS_PD_AckNack_t.MS_OUT_OF_MEMORY], m.outOfMemory.toNat),
    ([EGPRS_PD_AckNack_t.Exist_EGPRS_ChannelQualityReport], m.quality.isSome.toNat),
    (EGPRS_BEP_LinkQualityMeasurements_t.Exist_MEAN_CV_BEP_GMSK :: pLink [EGPRS_PD_AckNack_t.EGPRS_ChannelQualityReport], (qualityOf m).gmsk.isSome.toNat),
    (EGPRS_BEP_LinkQualityMeasurements_t.MEAN_BEP_GMSK :: pLink [EGPRS_PD_AckNack_t.EGPRS_ChannelQualityReport], ((qualityOf m).gmsk.map (·.1)).getD 0),
    (EGPRS_BEP_LinkQualityMeasurements_t.CV_BEP_GMSK :: pLink [EGPRS_PD_AckNack_t.EGPRS_ChannelQualityReport], ((qualityOf m).gmsk.map (·.2)).getD 0),
    (EGPRS_BEP_LinkQualityMeasurements_t.Exist_MEAN_CV_BEP_8PSK :: pLink [EGPRS_PD_AckNack_t.EGPRS_ChannelQualityReport], (qualityOf m).psk.isSome.toNat),
    (EGPRS_BEP_LinkQualityMeasurements_t.MEAN_BEP_8PSK :: pLink [EGPRS_PD_AckNack_t.EGPRS_ChannelQualityReport], ((qualityOf m).psk.map (·.1)).getD 0),
    (EGPRS_BEP_LinkQualityMeasurements_t.CV_BEP_8PSK :: pLink [EGPRS_PD_AckNack_t.EGPRS_ChannelQualityReport], ((qualityOf m).psk.map (·.2)).getD 0),
    ([EGPRS_ChannelQualityReport_t.C_VALUE, EGPRS_PD_AckNack_t.EGPRS_ChannelQualityReport], (qualityOf m).cValue),
    (EGPRS_TimeslotLinkQualityMeasurements_t.Exist_BEP_MEASUREMENTS :: pSlots [EGPRS_PD_AckNack_t.EGPRS_ChannelQualityReport], (qualityOf m).bep.isSome.toNat),
    (EGPRS_TimeslotLinkQualityMeasurements_t.Exist_INTERFERENCE_MEASUREMENTS :: pSlots [EGPRS_PD_AckNack_t.EGPRS_ChannelQualityReport], (qualityOf m).iLevel.isSome.toNat),
    ([EGPRS_PD_AckNack_t.Exist_ChannelRequestDescription], m.request.isSome.toNat),
    ([Channel_Request_Description_t.PEAK_THROUGHPUT_CLASS, EGPRS_PD_AckNack_t.ChannelRequestDescription], (requestOf m).peak),
    ([Channel_Request_Description_t.RADIO_PRIORITY, EGPRS_PD_AckNack_t.ChannelRequestDescription], (requestOf m).priority),
    ([Channel_Request_Description_t.RLC_MODE, EGPRS_PD_AckNack_t.ChannelRequestDescription], (requestOf m).rlcMode),
    ([Channel_Request_Description_t.LLC_PDU_TYPE, EGPRS_PD_AckNack_t.ChannelRequestDescription], (requestOf m).llcType),
    ([Channel_Request_Description_t.RLC_OCTET_COUNT, EGPRS_PD_AckNack_t.ChannelRequestDescription], (requestOf m).octets),
    ([EGPRS_PD_AckNack_t.Exist_PFI], m.pfi.isSome.toNat), ([EGPRS_PD_AckNack_t.PFI], m.pfi.getD 0),
    ([EGPRS_PD_AckNack_t.Exist_ExtensionBits], 0), ([Extension_Bits_t.extension_length, EGPRS_PD_AckNack_t.ExtensionBits], 1),
    ([EGPRS_AckNack_t.UnionType, EGPRS_PD_AckNack_t.EGPRS_AckNack], m.withLength.toNat),
    (EGPRS_AckNack_Desc_t.FINAL_ACK_INDICATION :: pDesc, m.desc.final.toNat),
    (EGPRS_AckNack_Desc_t.BEGINNING_OF_WINDOW :: pDesc, m.desc.bow.toNat),
    (EGPRS_AckNack_Desc_t.END_OF_WINDOW :: pDesc, m.desc.eow.toNat),
    (EGPRS_AckNack_Desc_t.STARTING_SEQUENCE_NUMBER :: pDesc, m.desc.ssn),
    (EGPRS_AckNack_Desc_t.Exist_CRBB :: pDesc, m.desc.crbb.isSome.toNat),
    (EGPRS_AckNack_Desc_t.CRBB_LENGTH :: pDesc, (codeOf m.desc).length),
    (EGPRS_AckNack_Desc_t.CRBB_STARTING_COLOR_CODE :: pDesc, (m.desc.crbb.map (·.1.toNat)).getD 0),
    (EGPRS_AckNack_Desc_t.URBB_LENGTH :: pDesc, m.desc.urbb.length)] q

theorem egprs_desc (m : EgprsDownlinkAck) : Holds (egprsData m) pDesc m.desc :=
  ⟨rfl, rfl, rfl, rfl, rfl, rfl, rfl, fun _ _ => rfl, rfl, fun _ _ => rfl⟩

theorem egprs_request (m : EgprsDownlinkAck) : HoldsR (egprsData m) [EGPRS_PD_AckNack_t.ChannelRequestDescription] (requestOf m) :=
  ⟨rfl, rfl, rfl, rfl, rfl⟩

theorem egprs_quality (m : EgprsDownlinkAck) : HoldsQ (egprsData m) [EGPRS_PD_AckNack_t.EGPRS_ChannelQualityReport] (qualityOf m) :=
  ⟨rfl, rfl, rfl, rfl, rfl, rfl, rfl, rfl, rfl, fun _ => rfl, fun _ => rfl, fun _ => rfl, fun _ => rfl, fun _ => rfl, fun _ => rfl⟩

theorem egprs_bits (m : EgprsDownlinkAck) : bitsItems (egprsData m) EGPRS_PD_AckNack_t 0 [] = m.bits := by
  have hd := desc_bits (egprs_desc m)
  have hr := request_bits (egprs_request m)
  have hq := quality_bits (egprs_quality m)
  have ha : bitsItems (egprsData m) EGPRS_AckNack_t 0 [EGPRS_PD_AckNack_t.EGPRS_AckNack] =
      bit m.withLength ++ (if m.withLength then put 8 m.desc.bits.length else []) ++ m.desc.bits := by
    simp only [EGPRS_AckNack_t, bits_cons, bits_nil, bitsItem, List.append_nil]
    show put 1 m.withLength.toNat ++ bitsUnion (egprsData m) _ m.withLength.toNat _ = _
    rw [put_bit, List.append_assoc]
    cases m.withLength with
    | false => exact congrArg _ hd
    | true =>
      show bit true ++ bitsItems (egprsData m) EGPRS_AckNack_w_len_t 0 pDesc = _
      simp only [EGPRS_AckNack_w_len_t, bits_cons, bits_nil, bitsItem, List.append_nil, List.nil_append, if_true]
      rw [hd]
  simp only [EGPRS_PD_AckNack_t, bits_nil, bits_cons, bits_opt1, bitsItem]
  rw [if_pos (show egprsData m [EGPRS_PD_AckNack_t.Exist_ExtensionBits] = 0 from rfl)]
  show put 2 1 ++ (put 5 m.spare ++ (put 1 m.retry.toNat ++ (put 6 8 ++ (put 5 m.tfi ++ (put 1 m.outOfMemory.toNat ++ (put 1 m.quality.isSome.toNat ++ ((if m.quality.isSome.toNat = 0 then [] else bitsItems (egprsData m) EGPRS_ChannelQualityReport_t 0 [EGPRS_PD_AckNack_t.EGPRS_ChannelQualityReport]) ++ (put 1 m.request.isSome.toNat ++ ((if m.request.isSome.toNat = 0 then [] else bitsItems (egprsData m) Channel_Request_Description_t 0 [EGPRS_PD_AckNack_t.ChannelRequestDescription]) ++ (put 1 m.pfi.isSome.toNat ++ ((if m.pfi.isSome.toNat = 0 then [] else put 7 (m.pfi.getD 0)) ++ (put 1 0 ++ ([] ++ (bitsItems (egprsData m) EGPRS_AckNack_t 0 [EGPRS_PD_AckNack_t.EGPRS_AckNack] ++ ([] ++ []))))))))))))))) = _
  rw [hr, hq, ha,
    opt_eq' m.quality Quality.bits _ _ (fun x e => by unfold qualityOf; rw [e]; rfl),
    opt_eq' m.request ChannelRequest.bits _ _ (fun x e => by unfold requestOf; rw [e]; rfl),
    opt_eq' m.pfi (put 7) _ _ (fun x e => by rw [e]; rfl)]
  unfold EgprsDownlinkAck.bits header
  simp only [put_bit, List.append_assoc, List.append_nil, List.nil_append, show put 1 0 = bit false from rfl]

theorem code_lt (d : AckDesc) (h : ∀ c, d.crbb = some c → c.2.length < 128) : (codeOf d).length < 128 := by
  unfold codeOf
  cases hc : d.crbb with
  | none => exact (by decide : 0 < 128)
  | some c => exact h c hc

theorem egprs_desc_length (m : EgprsDownlinkAck) : m.desc.bits.length + 24 ≤ m.bits.length := by
  have ho : ∀ o : Option (List Bool), 1 ≤ (opt o).length := fun o => by cases o <;> simp [opt]
  have h1 := ho (m.quality.map Quality.bits)
  have h2 := ho (m.request.map ChannelRequest.bits)
  have h3 := ho (m.pfi.map (put 7))
  unfold EgprsDownlinkAck.bits header
  simp only [List.length_append, length_put, bit, List.length_cons, List.length_nil]
  omega

theorem egprs_fits (m : EgprsDownlinkAck) (h : m.Valid) : fitsItems (egprsData m) EGPRS_PD_AckNack_t [] := by
  obtain ⟨h1, h2, h3, h4, h5, h6, h7, h8, h9⟩ := h
  have hlen := egprs_desc_length m
  have hl := desc_length m.desc
  have hd := desc_fits (egprs_desc m) h6 (by omega) (code_lt _ h7)
  have hr := request_fits (egprs_request m) (by
    unfold requestOf
    cases hc : m.request with
    | none => exact ⟨by decide, by decide, by decide, by decide, by decide⟩
    | some c => exact h4 c hc)
  have hq := quality_fits (egprs_quality m) (by
    unfold qualityOf
    cases hc : m.quality with
    | none => exact ⟨fun _ e => (by cases e), fun _ e => (by cases e), by decide, fun _ e => (by cases e), fun _ e => (by cases e)⟩
    | some c => exact h3 c hc)
  refine ⟨(by decide : 1 < 4), h1, toNat_lt m.retry, (by decide : 8 < 64), h2, toNat_lt m.outOfMemory, toNat_lt m.quality.isSome, hq,
    toNat_lt m.request.isSome, hr, toNat_lt m.pfi.isSome, getD_lt (n := 128) (by decide) h5, (by decide : 0 < 2),
    ⟨⟨(by decide : 1 ≤ 1), (by decide : 1 < 2 ^ 6 + 1), (by decide : 1 < 256)⟩, ⟨(by decide : (1 + 7) / 8 ≤ 8), ?_, fun _ => ?_⟩, trivial⟩, ?_, trivial, trivial⟩
  · intro k hk
    exact absurd hk (by show ¬ k < 1 / 8; omega)
  · show egprsData m [1 / 8, Extension_Bits_t.Extension_Info, EGPRS_PD_AckNack_t.ExtensionBits] < 2 ^ (1 % 8)
    exact (by decide : 0 < 2)
  · refine ⟨⟨toNat_lt m.withLength, ?_⟩, trivial⟩
    show fitsUnion (egprsData m) _ m.withLength.toNat _
    cases m.withLength with
    | false => exact hd
    | true =>
      have hb := desc_bits (egprs_desc m)
      refine ⟨⟨hd, ?_, ?_, by decide⟩, trivial⟩
      · show 0 < (bitsItems (egprsData m) EGPRS_AckNack_Desc_t 0 pDesc).length
        rw [hb]; omega
      · show (bitsItems (egprsData m) EGPRS_AckNack_Desc_t 0 pDesc).length < 256
        rw [hb]; omega

theorem egprs_open (m : EgprsDownlinkAck) (h : opensItems (egprsData m) EGPRS_PD_AckNack_t [] = true) : m.withLength = false := by
  have : opensItems (egprsData m) EGPRS_PD_AckNack_t [] = opensUnion (egprsData m) (.cons (.type EGPRS_AckNack_Desc_t EGPRS_AckNack_t.Desc false) (.cons (.type EGPRS_AckNack_w_len_t EGPRS_AckNack_t.Desc false) .nil)) m.withLength.toNat [EGPRS_PD_AckNack_t.EGPRS_AckNack] := by
    simp only [EGPRS_PD_AckNack_t, EGPRS_ChannelQualityReport_t, EGPRS_BEP_LinkQualityMeasurements_t, EGPRS_TimeslotLinkQualityMeasurements_t,
      Channel_Request_Description_t, Extension_Bits_t, EGPRS_AckNack_t, opensItems, opensItem, Bool.false_or, Bool.or_false]
    rfl
  cases hw : m.withLength with
  | false => rfl
  | true => rw [this, hw] at h; cases h

theorem egprs_read (m : EgprsDownlinkAck) (h : m.Valid) (rest : List Bool) :
    ∃ s, ulDecode (m.bits ++ rest) = .ok s ∧ (readField (m.bits ++ rest) 8 6).1 = 8 ∧
      ∀ q, hasItems (egprsData m) EGPRS_PD_AckNack_t 0 [] q → s.data q = egprsData m q := by
  have hb := egprs_bits m
  have := ul_read (egprsData m) 8 EGPRS_PD_AckNack_t rfl (by decide) (by decide) (egprs_fits m h) m.spare m.retry.toNat
    ((m.bits).drop 14) rest (by
      rw [hb, put_bit]; unfold EgprsDownlinkAck.bits header
      simp only [List.append_assoc]
      rfl) (by rw [hb]; exact h.2.2.2.2.2.2.2.1) (fun x => by rw [hb]; exact h.2.2.2.2.2.2.2.2 (egprs_open m x))
  rw [hb] at this
  exact this

theorem egprs_members (m : EgprsDownlinkAck) (q : Path)
    (hq : q = [EGPRS_PD_AckNack_t.DOWNLINK_TFI] ∨ hasItems (egprsData m) EGPRS_AckNack_Desc_t 0 pDesc q) :
    hasItems (egprsData m) EGPRS_PD_AckNack_t 0 [] q := by
  have ha : hasItems (egprsData m) EGPRS_AckNack_Desc_t 0 pDesc q → hasItems (egprsData m) EGPRS_AckNack_t 0 [EGPRS_PD_AckNack_t.EGPRS_AckNack] q := by
    intro h
    simp only [EGPRS_AckNack_t, has_cons, has_nil, hasItem]
    refine .inl (.inr ?_)
    show hasUnion (egprsData m) _ m.withLength.toNat _ _
    cases m.withLength with
    | false => exact h
    | true => exact .inl h
  simp only [EGPRS_PD_AckNack_t, has_nil, has_cons, has_opt1, hasItem]
  rcases hq with h | h
  · simp only [h, true_or, or_true]
  · simp only [ha h, true_or, or_true]

/-- The window after an EGPRS Packet Downlink Ack/Nack. -/
theorem egprs_window (m : EgprsDownlinkAck) (h : m.Valid) (rest : List Bool) (w : RlcDl.Win) :
    rcvDlAckBlock m.tfi (m.bits ++ rest) w =
      rcvEgprs ⟨m.desc.final, m.desc.bow, m.desc.ssn, m.desc.crbb.map (fun c => (c.1, asRead c.2)), asRead m.desc.urbb⟩ w := by
  obtain ⟨s, e1, e2, e3⟩ := egprs_read m h rest
  have g := fun q hq => e3 q (egprs_members m q hq)
  unfold rcvDlAckBlock
  rw [e1, e2]
  have hT : s.data [EGPRS_PD_AckNack_t.DOWNLINK_TFI] = m.tfi := g _ (.inl rfl)
  show (if s.data [EGPRS_PD_AckNack_t.DOWNLINK_TFI] = m.tfi then rcvEgprs (egprsDesc s.data pDesc) w else w) = _
  rw [if_pos hT, desc_read (egprs_desc m) s.data (fun q hq => g q (.inr hq))]

end Verif.Csn1
