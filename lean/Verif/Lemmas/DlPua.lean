import Verif.Lemmas.DlMsg
/-!
# Lemmas: the Packet Uplink Assignment
-/

namespace Verif.Csn1

open Verif.Bits (put length_put)
open Verif.UlMsg (opt bit)
open Verif.DlMsg
open Verif.DlCtrl
open T

/-! ## A part at the end that is left out when the block is full -/

/-- Everything is written, and a zero for the absent additions if there is room. -/
def WritesEnd (r : Option E) (e : E) (l : List Bool) : Prop :=
  ((l.length : Int) < e.rem → r = some (e.add (l ++ [false]))) ∧ ((l.length : Int) = e.rem → r = some (e.add l))
    ∧ (e.rem < l.length → ∀ e', r = some e' → e'.rem < 0)

theorem wend_base (σ : Data) (a : Items) (f : Nat) (nu : Bool) (i : Item) (p : Path) (e : E) (ha : a.closed = true) (hs : a.strict = true)
    (ho : okItems σ a 0 p) (hf : σ (f :: p) = 0) :
    WritesEnd (encItems σ (a.app (.opt f true nu 1 (.cons i .nil))) 0 p e) e (bitsItems σ a 0 p) := by
  have w := enc_items σ a 0 p e ho
  rw [enc_app σ _ p a 0 _ ha (Nat.zero_le _)]
  generalize bitsItems σ a 0 p = l at w
  have hadd : (e.add l).rem = e.rem - l.length := rfl
  refine ⟨fun h => ?_, fun h => ?_, fun h e' he => ?_⟩
  · rw [w.1 (by omega), Option.bind_some, encItems, if_neg (by simp; omega), emit_add, hf]
    dsimp only
    have h1 : ((e.add l).add (put 1 0)).rem = (e.add l).rem - ((1 : Nat) : Int) := rfl
    rw [if_neg (by omega), if_pos rfl, encItems, encItems, E.add_add]
    rfl
  · rw [w.1 (by omega), Option.bind_some, encItems, if_pos (by simp; omega), encItems, encItems]
  · cases hr : encItems σ a 0 p e with
    | none => rw [hr] at he; cases he
    | some e1 =>
      have hn := w.2 hs h e1 hr
      rw [hr, Option.bind_some, encItems, if_neg (by simp; omega)] at he
      dsimp only at he
      rw [if_pos (by show e1.rem - ((1 : Nat) : Int) < 0; omega)] at he
      cases he

theorem wend_neg {r : Option E} {e : E} {l : List Bool} (h : WritesEnd r e l) : WritesEnd (if e.rem < 0 then none else r) e l := by
  by_cases hc : e.rem < 0
  · rw [if_pos hc]
    exact ⟨fun hl => by omega, fun hl => by omega, fun _ e' he => by cases he⟩
  · rw [if_neg hc]; exact h

theorem wend_next {s : Prop} {r : Option E} {e : E} {a b : List Bool} {k : E → Option E} (hs : s)
    (h : Writes s r e a) (hk : ∀ e', WritesEnd (k e') e' b) : WritesEnd (r.bind fun e' => if e'.rem < 0 then none else k e') e (a ++ b) := by
  have hadd : (e.add a).rem = e.rem - a.length := rfl
  refine ⟨fun hl => ?_, fun hl => ?_, fun hl e' he => ?_⟩
  · rw [List.length_append] at hl
    rw [h.1 (by omega), Option.bind_some, if_neg (by omega), (hk _).1 (by omega), E.add_add, List.append_assoc]
  · rw [List.length_append] at hl
    rw [h.1 (by omega), Option.bind_some, if_neg (by omega), (hk _).2.1 (by omega), E.add_add]
  · rw [List.length_append] at hl
    by_cases hx : (a.length : Int) ≤ e.rem
    · rw [h.1 hx, Option.bind_some, if_neg (by omega)] at he
      exact (hk _).2.2 (by omega) e' he
    · cases hr : r with
      | none => rw [hr] at he; cases he
      | some e1 =>
        rw [hr, Option.bind_some, if_pos (h.2 hs (by omega) e1 hr)] at he
        cases he

theorem wend_one {e : E} {l a : List Bool} {k : E → Option E} (hk : ∀ e', WritesEnd (k e') e' l) : WritesEnd (k (e.add a)) e (a ++ l) := by
  have hadd : (e.add a).rem = e.rem - a.length := rfl
  refine ⟨fun hl => ?_, fun hl => ?_, fun hl e' he => ?_⟩
  · rw [List.length_append] at hl
    rw [(hk _).1 (by omega), E.add_add, List.append_assoc]
  · rw [List.length_append] at hl
    rw [(hk _).2.1 (by omega), E.add_add]
  · rw [List.length_append] at hl
    exact (hk _).2.2 (by omega) e' he

/-- The message with the padding. -/
theorem wend_pad (σ : Data) (r : Option E) (l : List Bool) (h : WritesEnd r ⟨176, []⟩ l) :
    (r.bind fun e => if e.rem < 0 then none else encItems σ pad 0 [] e)
      = if (l ++ later (176 - l.length) none).length ≤ 176 then some ⟨0, fill (l ++ later (176 - l.length) none)⟩ else none := by
  unfold WritesEnd at h
  obtain ⟨h1, h2, h3⟩ := h
  dsimp only at h1 h2 h3
  have hlen : (l ++ [false]).length = l.length + 1 := by simp
  by_cases hl : l.length < 176
  · have hla : later (176 - l.length) none = [false] := by show (if 176 - l.length = 0 then [] else [false]) = _; rw [if_neg (by omega)]
    have hr : (E.add ⟨176, []⟩ (l ++ [false])).rem = ((175 - l.length : Nat) : Int) := by
      show (176 : Int) - ((l ++ [false]).length : Int) = _; omega
    rw [h1 (by omega), Option.bind_some, if_neg (by omega), enc_pad, if_neg (by omega), hla, if_pos (by omega), hr, Int.toNat_natCast, padding_eq _ (by omega)]
    unfold fill
    rw [hlen, show 176 - (l.length + 1) = 175 - l.length by omega]
    rfl
  · by_cases hl2 : l.length = 176
    · have hla : later (176 - l.length) none = [] := by show (if 176 - l.length = 0 then [] else [false]) = _; rw [if_pos (by omega)]
      have hr : (E.add ⟨176, []⟩ l).rem = ((0 : Nat) : Int) := by
        show (176 : Int) - (l.length : Int) = _; omega
      rw [h2 (by omega), Option.bind_some, if_neg (by omega), enc_pad, if_neg (by omega), hla, List.append_nil, if_pos (by omega), hr]
      unfold fill
      rw [hl2]
      rfl
    · rw [if_neg (by rw [List.length_append]; omega)]
      cases hr : r with
      | none => rfl
      | some e => rw [Option.bind_some, if_pos (h3 (by omega) e hr)]

/-! ## Dynamic Allocation -/

/-- Values of a Dynamic Allocation. -/
structure DynAt (σ : Data) (p : Path) (t : UlTbf) (alpha gamma : Nat) : Prop where
  ext : σ (Dynamic_Allocation_t.Extended_Dynamic_Allocation :: p) = 0
  p0 : σ (Dynamic_Allocation_t.Exist_P0 :: p) = 0
  gran : σ (Dynamic_Allocation_t.USF_GRANULARITY :: p) = 0
  exTfi : σ (Dynamic_Allocation_t.Exist_UPLINK_TFI_ASSIGNMENT :: p) = 1
  tfi : σ (Dynamic_Allocation_t.UPLINK_TFI_ASSIGNMENT :: p) = t.tfi
  granted : σ (Dynamic_Allocation_t.Exist_RLC_DATA_BLOCKS_GRANTED :: p) = 0
  start : σ (Dynamic_Allocation_t.Exist_TBF_Starting_Time :: p) = 0
  kind : σ (Dynamic_Allocation_t.UnionType :: p) = if alpha ≠ 0 ∨ gamma ≠ 0 then 1 else 0
  alph : σ (Timeslot_Allocation_Power_Ctrl_Param_t.ALPHA :: Dynamic_Allocation_t.u_Timeslot_Allocation_Power_Ctrl_Param :: p) = if alpha ≠ 0 ∨ gamma ≠ 0 then alpha else 0
  ex1 : ∀ tn, tn < 8 → σ (Timeslot_Allocation_Power_Ctrl_Param_t.Slot_Exist tn :: Dynamic_Allocation_t.u_Timeslot_Allocation_Power_Ctrl_Param :: p) = if alpha ≠ 0 ∨ gamma ≠ 0 then (t.usf tn).isSome.toNat else 0
  usf1 : ∀ tn, tn < 8 → σ (Timeslot_Allocation_Power_Ctrl_Param_t.Slot_USF_TN tn :: Dynamic_Allocation_t.u_Timeslot_Allocation_Power_Ctrl_Param :: p) = if alpha ≠ 0 ∨ gamma ≠ 0 then (t.usf tn).getD 0 else 0
  gam1 : ∀ tn, tn < 8 → σ (Timeslot_Allocation_Power_Ctrl_Param_t.Slot_GAMMA_TN tn :: Dynamic_Allocation_t.u_Timeslot_Allocation_Power_Ctrl_Param :: p) = if alpha ≠ 0 ∨ gamma ≠ 0 then ((t.usf tn).map fun _ => gamma).getD 0 else 0
  ex0 : ∀ tn, tn < 8 → σ (Timeslot_Allocation_t.Exist :: tn :: Dynamic_Allocation_t.u_Timeslot_Allocation :: p) = if alpha ≠ 0 ∨ gamma ≠ 0 then 0 else (t.usf tn).isSome.toNat
  usf0 : ∀ tn, tn < 8 → σ (Timeslot_Allocation_t.USF_TN :: tn :: Dynamic_Allocation_t.u_Timeslot_Allocation :: p) = if alpha ≠ 0 ∨ gamma ≠ 0 then 0 else (t.usf tn).getD 0

theorem slot_ok (σ : Data) (p : Path) : okAll σ Timeslot_Allocation_t p := by
  unfold Timeslot_Allocation_t
  refine ⟨?_, trivial⟩
  unfold okItem; trivial

theorem powerslots_ok (σ : Data) (p : Path) : okAll σ Timeslot_Allocation_Power_Ctrl_Param_t p := by
  unfold Timeslot_Allocation_Power_Ctrl_Param_t
  refine ⟨?_, ?_, ?_, ?_, ?_, ?_, ?_, ?_, ?_, ?_, ?_, ?_, ?_, ?_, ?_, ?_, ?_, trivial⟩ <;> (unfold okItem; trivial)

section
variable (σ : Data) (p : Path) (t : UlTbf) (alpha gamma : Nat)

theorem dyn_ok (h : DynAt σ p t alpha gamma) : okItems σ Dynamic_Allocation_t 0 p := by
  have hk := h.kind
  have hp := ok_of_all _ _ 0 _ (powerslots_ok σ (Dynamic_Allocation_t.u_Timeslot_Allocation_Power_Ctrl_Param :: p))
  simp only [Dynamic_Allocation_t, okItems, okItem, h.p0, h.exTfi, h.granted, h.start, if_true, if_false, Nat.one_ne_zero, and_true, true_and]
  by_cases hc : alpha ≠ 0 ∨ gamma ≠ 0
  · rw [if_pos hc] at hk
    rw [hk]
    refine ⟨by decide, ?_⟩
    simp only [okUnion, Items.isEnd, Nat.reduceSub, Nat.reduceEqDiff, decide_false, Bool.or_self, Bool.false_eq_true, if_false, decide_true, if_true, okItem]
    exact hp
  · rw [if_neg hc] at hk
    rw [hk]
    refine ⟨by decide, ?_⟩
    unfold okUnion
    rw [if_pos (by decide)]
    unfold okItem
    exact fun k _ => ok_of_all _ _ _ _ (slot_ok σ _)

theorem slots_bits (h : DynAt σ p t alpha gamma) (hc : ¬ (alpha ≠ 0 ∨ gamma ≠ 0)) :
    bitsItem σ (.typeArray Timeslot_Allocation_t Dynamic_Allocation_t.u_Timeslot_Allocation 8 8) p
      = tns.flatMap fun tn => opt ((t.usf tn).map (put 3)) := by
  have hs : ∀ tn, tn < 8 → bitsItems σ Timeslot_Allocation_t 0 (tn :: Dynamic_Allocation_t.u_Timeslot_Allocation :: p) = opt ((t.usf tn).map (put 3)) := by
    intro tn ht
    simp only [Timeslot_Allocation_t, bits_opt1, bits_nil, bitsItem, h.ex0 tn ht, h.usf0 tn ht, if_neg hc, List.append_nil]
    exact opt_eq (t.usf tn) (put 3) _ (fun x hx => by rw [hx]; rfl)
  simp only [bitsItem, show List.range 8 = [0, 1, 2, 3, 4, 5, 6, 7] from rfl, tns, List.flatMap_cons, List.flatMap_nil,
    hs 0 (by decide), hs 1 (by decide), hs 2 (by decide), hs 3 (by decide), hs 4 (by decide), hs 5 (by decide), hs 6 (by decide), hs 7 (by decide)]

theorem powerslots_bits (h : DynAt σ p t alpha gamma) (hc : alpha ≠ 0 ∨ gamma ≠ 0) :
    bitsItems σ Timeslot_Allocation_Power_Ctrl_Param_t 0 (Dynamic_Allocation_t.u_Timeslot_Allocation_Power_Ctrl_Param :: p)
      = put 4 alpha ++ tns.flatMap fun tn => opt (((t.usf tn).map fun u => (u, gamma)).map fun x => put 3 x.1 ++ put 5 x.2) := by
  have hs : ∀ tn, ∀ r, put 1 (t.usf tn).isSome.toNat ++ ((if (t.usf tn).isSome.toNat = 0 then [] else put 3 ((t.usf tn).getD 0) ++ put 5 (((t.usf tn).map fun _ => gamma).getD 0)) ++ r)
      = opt (((t.usf tn).map fun u => (u, gamma)).map fun x => put 3 x.1 ++ put 5 x.2) ++ r := by
    intro tn r
    rw [Option.map_map]
    exact opt_eq' (t.usf tn) (fun u => put 3 u ++ put 5 gamma) _ r (fun x hx => by rw [hx]; rfl)
  have a0 := h.ex1; have a1 := h.usf1; have a2 := h.gam1
  simp only [if_pos hc] at a0 a1 a2
  simp only [Timeslot_Allocation_Power_Ctrl_Param_t, bits_nil, bits_cons, bits_opt2, bitsItem, h.alph, if_pos hc,
    a0 0 (by decide), a0 1 (by decide), a0 2 (by decide), a0 3 (by decide), a0 4 (by decide), a0 5 (by decide), a0 6 (by decide), a0 7 (by decide),
    a1 0 (by decide), a1 1 (by decide), a1 2 (by decide), a1 3 (by decide), a1 4 (by decide), a1 5 (by decide), a1 6 (by decide), a1 7 (by decide),
    a2 0 (by decide), a2 1 (by decide), a2 2 (by decide), a2 3 (by decide), a2 4 (by decide), a2 5 (by decide), a2 6 (by decide), a2 7 (by decide)]
  rw [hs 0, hs 1, hs 2, hs 3, hs 4, hs 5, hs 6, hs 7]
  simp only [tns, List.flatMap_cons, List.flatMap_nil, List.append_nil]

/-- The allocation as a message of the standard. -/
def dynOf : DlMsg.Dynamic where
  extended := false
  granularity := false
  tfi := some t.tfi
  slots := if alpha = 0 ∧ gamma = 0 then .plain t.usf else .power alpha fun tn => (t.usf tn).map fun u => (u, gamma)

theorem dyn_bits (h : DynAt σ p t alpha gamma) : bitsItems σ Dynamic_Allocation_t 0 p = (dynOf t alpha gamma).bits := by
  have hk := h.kind
  unfold DlMsg.Dynamic.bits dynOf
  by_cases hc : alpha ≠ 0 ∨ gamma ≠ 0
  · rw [if_pos hc] at hk
    rw [if_neg (by omega)]
    simp only [Dynamic_Allocation_t, bitsItems, bitsItem, h.ext, h.p0, h.gran, h.exTfi, h.tfi, h.granted, h.start, hk, if_true, if_false, Nat.one_ne_zero,
      bitsUnion, Items.isEnd, Nat.reduceSub, decide_false, Bool.or_self, Bool.false_eq_true, decide_true, powerslots_bits σ p t alpha gamma h hc]
    simp only [opt, Option.map_some, Slots.bits, List.append_assoc, List.append_nil, List.cons_append, List.nil_append]
    rfl
  · rw [if_neg hc] at hk
    rw [if_pos (by omega)]
    have hsb := slots_bits σ p t alpha gamma h hc
    unfold Dynamic_Allocation_t
    rw [bits_cons, bitsItem, h.ext, bitsItems, h.p0, if_pos rfl, bitsItems, bitsItems, bitsItems, bitsItem, h.gran, bitsItems, h.exTfi, if_neg (by decide), bitsItems, bitsItem, h.tfi,
      bitsItems, h.granted, if_pos rfl, bitsItems, bitsItems, h.start, if_pos rfl, bitsItems, bitsItems, bitsItem, hk, bitsUnion, if_pos (by decide), bits_nil, hsb]
    simp only [opt, Option.map_some, Slots.bits, List.append_assoc, List.append_nil, List.cons_append, List.nil_append]
    rfl
end

/-! ## The message -/

theorem wend_then {s : Prop} {r : Option E} {e : E} {a b : List Bool} {k : E → Option E} (hs : s)
    (h : Writes s r e a) (hk : ∀ e', WritesEnd (k e') e' b) : WritesEnd (r.bind k) e (a ++ b) := by
  have hadd : (e.add a).rem = e.rem - a.length := rfl
  refine ⟨fun hl => ?_, fun hl => ?_, fun hl e' he => ?_⟩
  · rw [List.length_append] at hl
    rw [h.1 (by omega), Option.bind_some, (hk _).1 (by omega), E.add_add, List.append_assoc]
  · rw [List.length_append] at hl
    rw [h.1 (by omega), Option.bind_some, (hk _).2.1 (by omega), E.add_add]
  · rw [List.length_append] at hl
    by_cases hx : (a.length : Int) ≤ e.rem
    · rw [h.1 hx, Option.bind_some] at he
      exact (hk _).2.2 (by omega) e' he
    · cases hr : r with
      | none => rw [hr] at he; cases he
      | some e1 =>
        have := h.2 hs (by omega) e1 hr
        rw [hr, Option.bind_some] at he
        exact (hk _).2.2 (by omega) e' he

/-- The table up to GPRS or EGPRS. -/
def puaHead : Items :=
  .cons (.uint 6 Packet_Uplink_Assignment_t.MESSAGE_TYPE false) <|
  .cons (.uint 2 Packet_Uplink_Assignment_t.PAGE_MODE false) <|
  .opt Packet_Uplink_Assignment_t.Exist_PERSISTENCE_LEVEL false false 1 <|
  .cons (.uintArray 4 Packet_Uplink_Assignment_t.PERSISTENCE_LEVEL 4 4) <|
  .cons (.type PacketUplinkID_t Packet_Uplink_Assignment_t.ID false) <|
  .nil

/-- GPRS or EGPRS. -/
def puaUnion : Item := (.union 1 Packet_Uplink_Assignment_t.UnionType (.cons (.type PUA_GPRS_t Packet_Uplink_Assignment_t.u_PUA_GPRS_Struct false) (.cons (.type PUA_EGPRS_t Packet_Uplink_Assignment_t.u_PUA_EGPRS_Struct false) .nil)))

/-- The GPRS part up to the additions of release 99. -/
def gprsPre : Items :=
  .cons (.uint 2 PUA_GPRS_t.CHANNEL_CODING_COMMAND false) <|
  .cons (.uint 1 PUA_GPRS_t.TLLI_BLOCK_CHANNEL_CODING false) <|
  .cons (.type Packet_Timing_Advance_t PUA_GPRS_t.Packet_Timing_Advance false) <|
  .opt PUA_GPRS_t.Exist_Frequency_Parameters false false 1 <|
  .cons (.type Frequency_Parameters_t PUA_GPRS_t.Frequency_Parameters false) <|
  .cons (.union 2 PUA_GPRS_t.UnionType (.cons (.trap) (.cons (.type Dynamic_Allocation_t PUA_GPRS_t.u_Dynamic_Allocation false) (.cons (.type Single_Block_Allocation_t PUA_GPRS_t.u_Single_Block_Allocation false) (.cons (.trap) .nil))))) <|
  .nil

theorem pua_split : Packet_Uplink_Assignment_t = puaHead.app (.cons puaUnion pad) := rfl

theorem pua_all : Packet_Uplink_Assignment_t = (puaHead.app (.cons puaUnion .nil)).app pad := rfl

theorem gprs_split : PUA_GPRS_t = gprsPre.app (.opt PUA_GPRS_t.Exist_AdditionsR99 true false 1
    (.cons (.type PUA_GPRS_AdditionsR99_t PUA_GPRS_t.AdditionsR99 false) .nil)) := rfl

/-- The addressed mobile. -/
def idOf (id : Nat ⊕ (Nat × Bool)) : Id := match id with | .inl n => .tlli n | .inr (n, d) => .tfi d n

/-- Values of the first part. -/
structure HeadAt (σ : Data) (id : Nat ⊕ (Nat × Bool)) : Prop where
  mt : σ [Packet_Uplink_Assignment_t.MESSAGE_TYPE] = 10
  page : σ [Packet_Uplink_Assignment_t.PAGE_MODE] = 0
  pers : σ [Packet_Uplink_Assignment_t.Exist_PERSISTENCE_LEVEL] = 0
  kind : σ [PacketUplinkID_t.UnionType, Packet_Uplink_Assignment_t.ID] = id.isLeft.toNat
  tlli : σ [PacketUplinkID_t.u_TLLI, Packet_Uplink_Assignment_t.ID] = id.getLeft?.getD 0
  dir : σ [Global_TFI_t.UnionType, PacketUplinkID_t.u_Global_TFI, Packet_Uplink_Assignment_t.ID] = ((id.getRight?.map (·.2)).getD false).toNat
  up : σ [Global_TFI_t.u_UPLINK_TFI, PacketUplinkID_t.u_Global_TFI, Packet_Uplink_Assignment_t.ID] = (id.getRight?.map (·.1)).getD 0
  down : σ [Global_TFI_t.u_DOWNLINK_TFI, PacketUplinkID_t.u_Global_TFI, Packet_Uplink_Assignment_t.ID] = (id.getRight?.map (·.1)).getD 0

theorem head_ok (σ : Data) (id : Nat ⊕ (Nat × Bool)) (h : HeadAt σ id) : okItems σ puaHead 0 [] := by
  have hid : okItems σ PacketUplinkID_t 0 [Packet_Uplink_Assignment_t.ID] := by
    simp only [PacketUplinkID_t, okItems, okItem, h.kind, and_true]
    cases id with
    | inl n =>
      show okAlts σ PacketUplinkID 1 _
      simp only [PacketUplinkID, okAlts, okItem]
    | inr x =>
      show okAlts σ PacketUplinkID 0 _
      simp only [PacketUplinkID, okAlts, okItem]
      exact ok_of_all _ _ _ _ (global_ok σ _ _ h.dir)
  simp only [puaHead, okItems, okItem, h.pers, if_true, hid, and_true]

theorem head_bits (σ : Data) (id : Nat ⊕ (Nat × Bool)) (h : HeadAt σ id) :
    bitsItems σ puaHead 0 [] = put 6 10 ++ put 2 0 ++ [false] ++ (idOf id).bits := by
  have hid : bitsItems σ PacketUplinkID_t 0 [Packet_Uplink_Assignment_t.ID] = (idOf id).bits := by
    simp only [PacketUplinkID_t, bits_cons, bits_nil, bitsItem, h.kind, List.append_nil]
    cases id with
    | inl n =>
      show bitsAlts σ PacketUplinkID 1 _ = _
      simp only [PacketUplinkID, bitsAlts, bitsItem, h.tlli]
      rfl
    | inr x =>
      show bitsAlts σ PacketUplinkID 0 _ = _
      simp only [PacketUplinkID, bitsAlts, bitsItem, global_bits σ _ _ _ h.dir h.up h.down]
      rfl
  simp only [puaHead, bitsItems, bitsItem, h.mt, h.page, h.pers, if_true, hid, List.append_assoc, List.append_nil, List.cons_append, List.nil_append]
  rfl

section
variable (id : Nat ⊕ (Nat × Bool)) (t : UlTbf) (alpha gamma : Nat) (taIdx : Int)

theorem pua_head (egprs : Bool) : HeadAt (writePua id t alpha gamma taIdx egprs) id := by
  cases egprs <;> exact ⟨rfl, rfl, rfl, rfl, rfl, rfl, rfl, rfl⟩

theorem pua_freq_g : FreqAt (writePua id t alpha gamma taIdx false) [PUA_GPRS_t.Frequency_Parameters, Packet_Uplink_Assignment_t.u_PUA_GPRS_Struct] t.chan :=
  ⟨rfl, rfl, rfl, rfl, rfl, rfl, rfl, rfl, fun _ => arr_at _ _ _ _⟩

theorem pua_freq_e : FreqAt (writePua id t alpha gamma taIdx true) [PUA_EGPRS_00_t.Frequency_Parameters, PUA_EGPRS_t.u_PUA_EGPRS_00, Packet_Uplink_Assignment_t.u_PUA_EGPRS_Struct] t.chan :=
  ⟨rfl, rfl, rfl, rfl, rfl, rfl, rfl, rfl, fun _ => arr_at _ _ _ _⟩

theorem pua_dyn_g : DynAt (writePua id t alpha gamma taIdx false) [PUA_GPRS_t.u_Dynamic_Allocation, Packet_Uplink_Assignment_t.u_PUA_GPRS_Struct] t alpha gamma where
  ext := rfl
  p0 := rfl
  gran := rfl
  exTfi := rfl
  tfi := rfl
  granted := rfl
  start := rfl
  kind := rfl
  alph := rfl
  ex1 := fun k hk => match k, hk with | 0, _ => rfl | 1, _ => rfl | 2, _ => rfl | 3, _ => rfl | 4, _ => rfl | 5, _ => rfl | 6, _ => rfl | 7, _ => rfl
  usf1 := fun k hk => match k, hk with | 0, _ => rfl | 1, _ => rfl | 2, _ => rfl | 3, _ => rfl | 4, _ => rfl | 5, _ => rfl | 6, _ => rfl | 7, _ => rfl
  gam1 := fun k hk => match k, hk with | 0, _ => rfl | 1, _ => rfl | 2, _ => rfl | 3, _ => rfl | 4, _ => rfl | 5, _ => rfl | 6, _ => rfl | 7, _ => rfl
  ex0 := fun k hk => match k, hk with | 0, _ => rfl | 1, _ => rfl | 2, _ => rfl | 3, _ => rfl | 4, _ => rfl | 5, _ => rfl | 6, _ => rfl | 7, _ => rfl
  usf0 := fun k hk => match k, hk with | 0, _ => rfl | 1, _ => rfl | 2, _ => rfl | 3, _ => rfl | 4, _ => rfl | 5, _ => rfl | 6, _ => rfl | 7, _ => rfl

theorem pua_dyn_e : DynAt (writePua id t alpha gamma taIdx true) [PUA_EGPRS_00_t.u_Dynamic_Allocation, PUA_EGPRS_t.u_PUA_EGPRS_00, Packet_Uplink_Assignment_t.u_PUA_EGPRS_Struct] t alpha gamma where
  ext := rfl
  p0 := rfl
  gran := rfl
  exTfi := rfl
  tfi := rfl
  granted := rfl
  start := rfl
  kind := rfl
  alph := rfl
  ex1 := fun k hk => match k, hk with | 0, _ => rfl | 1, _ => rfl | 2, _ => rfl | 3, _ => rfl | 4, _ => rfl | 5, _ => rfl | 6, _ => rfl | 7, _ => rfl
  usf1 := fun k hk => match k, hk with | 0, _ => rfl | 1, _ => rfl | 2, _ => rfl | 3, _ => rfl | 4, _ => rfl | 5, _ => rfl | 6, _ => rfl | 7, _ => rfl
  gam1 := fun k hk => match k, hk with | 0, _ => rfl | 1, _ => rfl | 2, _ => rfl | 3, _ => rfl | 4, _ => rfl | 5, _ => rfl | 6, _ => rfl | 7, _ => rfl
  ex0 := fun k hk => match k, hk with | 0, _ => rfl | 1, _ => rfl | 2, _ => rfl | 3, _ => rfl | 4, _ => rfl | 5, _ => rfl | 6, _ => rfl | 7, _ => rfl
  usf0 := fun k hk => match k, hk with | 0, _ => rfl | 1, _ => rfl | 2, _ => rfl | 3, _ => rfl | 4, _ => rfl | 5, _ => rfl | 6, _ => rfl | 7, _ => rfl

/-- Index and time slot as the message has them. -/
def taOf : Option (Nat × Nat) := if 0 ≤ taIdx ∧ taIdx < 16 then some (taIdx.toNat, 0) else none

theorem pua_timing_g : bitsItems (writePua id t alpha gamma taIdx false) Packet_Timing_Advance_t 0 [PUA_GPRS_t.Packet_Timing_Advance, Packet_Uplink_Assignment_t.u_PUA_GPRS_Struct]
    = (timingOf t.ta (taOf taIdx)).bits := by
  have := timing_bits (writePua id t alpha gamma taIdx false) [PUA_GPRS_t.Packet_Timing_Advance, Packet_Uplink_Assignment_t.u_PUA_GPRS_Struct] (t.ta < 64) (0 ≤ taIdx ∧ taIdx < 16) t.ta taIdx.toNat 0
    rfl (fun h => show (if t.ta < 64 then t.ta else 0) = _ by rw [if_pos h]) rfl
    (fun h => show (if 0 ≤ taIdx ∧ taIdx < 16 then taIdx.toNat else 0) = _ by rw [if_pos h]) (fun _ => rfl)
  rw [this]
  unfold timingOf taOf
  congr 2
  by_cases h : t.ta < 64
  · rw [if_pos h, if_pos (by omega)]
  · rw [if_neg h, if_neg (by omega)]

theorem pua_timing_e : bitsItems (writePua id t alpha gamma taIdx true) Packet_Timing_Advance_t 0 [PUA_EGPRS_00_t.Packet_Timing_Advance, PUA_EGPRS_t.u_PUA_EGPRS_00, Packet_Uplink_Assignment_t.u_PUA_EGPRS_Struct]
    = (timingOf t.ta (taOf taIdx)).bits := by
  have := timing_bits (writePua id t alpha gamma taIdx true) [PUA_EGPRS_00_t.Packet_Timing_Advance, PUA_EGPRS_t.u_PUA_EGPRS_00, Packet_Uplink_Assignment_t.u_PUA_EGPRS_Struct] (t.ta < 64) (0 ≤ taIdx ∧ taIdx < 16) t.ta taIdx.toNat 0
    rfl (fun h => show (if t.ta < 64 then t.ta else 0) = _ by rw [if_pos h]) rfl
    (fun h => show (if 0 ≤ taIdx ∧ taIdx < 16 then taIdx.toNat else 0) = _ by rw [if_pos h]) (fun _ => rfl)
  rw [this]
  unfold timingOf taOf
  congr 2
  by_cases h : t.ta < 64
  · rw [if_pos h, if_pos (by omega)]
  · rw [if_neg h, if_neg (by omega)]

/-- The GPRS part of the message. -/
def gprsBits : List Bool :=
  put 2 t.code ++ bit true ++ (timingOf t.ta (taOf taIdx)).bits ++ opt (some (freqOf t.chan).bits) ++ put 2 1 ++ (dynOf t alpha gamma).bits

theorem gprs_ok (hc : ChanOk t.chan) : okItems (writePua id t alpha gamma taIdx false) gprsPre 0 [Packet_Uplink_Assignment_t.u_PUA_GPRS_Struct] := by
  have hf := ok_of_all _ _ 0 _ (freq_ok _ _ _ (pua_freq_g id t alpha gamma taIdx) hc)
  have ht := ok_of_all _ _ 0 _ (timing_ok (writePua id t alpha gamma taIdx false) [PUA_GPRS_t.Packet_Timing_Advance, Packet_Uplink_Assignment_t.u_PUA_GPRS_Struct])
  have hd := dyn_ok _ _ _ _ _ (pua_dyn_g id t alpha gamma taIdx)
  generalize hσ : writePua id t alpha gamma taIdx false = σ at *
  have h1 : σ [PUA_GPRS_t.Exist_Frequency_Parameters, Packet_Uplink_Assignment_t.u_PUA_GPRS_Struct] = 1 := by rw [← hσ]; rfl
  have h2 : σ [PUA_GPRS_t.UnionType, Packet_Uplink_Assignment_t.u_PUA_GPRS_Struct] = 1 := by rw [← hσ]; rfl
  simp only [gprsPre, okItems, okItem, h1, h2, if_false, Nat.one_ne_zero, hf, ht, and_true, okUnion, Items.isEnd, Nat.reduceSub, decide_false, Bool.or_self, Bool.false_eq_true, decide_true, Bool.true_or, if_true, hd]
  decide

theorem gprs_bits (hc : ChanOk t.chan) : bitsItems (writePua id t alpha gamma taIdx false) gprsPre 0 [Packet_Uplink_Assignment_t.u_PUA_GPRS_Struct] = gprsBits t alpha gamma taIdx := by
  have hf := freq_bits _ _ _ (pua_freq_g id t alpha gamma taIdx) hc
  have ht := pua_timing_g id t alpha gamma taIdx
  have hd := dyn_bits _ _ _ _ _ (pua_dyn_g id t alpha gamma taIdx)
  generalize hσ : writePua id t alpha gamma taIdx false = σ at *
  have h1 : σ [PUA_GPRS_t.Exist_Frequency_Parameters, Packet_Uplink_Assignment_t.u_PUA_GPRS_Struct] = 1 := by rw [← hσ]; rfl
  have h2 : σ [PUA_GPRS_t.UnionType, Packet_Uplink_Assignment_t.u_PUA_GPRS_Struct] = 1 := by rw [← hσ]; rfl
  have h3 : σ [PUA_GPRS_t.CHANNEL_CODING_COMMAND, Packet_Uplink_Assignment_t.u_PUA_GPRS_Struct] = t.code := by rw [← hσ]; rfl
  have h4 : σ [PUA_GPRS_t.TLLI_BLOCK_CHANNEL_CODING, Packet_Uplink_Assignment_t.u_PUA_GPRS_Struct] = 1 := by rw [← hσ]; rfl
  simp only [gprsPre, bitsItems, bitsItem, h1, h2, h3, h4, if_false, Nat.one_ne_zero, hf, ht, bitsUnion, Items.isEnd, Nat.reduceSub, decide_false, Bool.or_self, Bool.false_eq_true, decide_true, Bool.true_or, if_true, hd]
  simp only [gprsBits, opt, List.append_assoc, List.append_nil, List.cons_append]
  rfl

/-- The GPRS message, for any room. -/
theorem pua_gprs (hc : ChanOk t.chan) (e : E) :
    WritesEnd ((encItems (writePua id t alpha gamma taIdx false) puaHead 0 [] e).bind (encItem (writePua id t alpha gamma taIdx false) puaUnion [])) e
      (put 6 10 ++ put 2 0 ++ [false] ++ (idOf id).bits ++ ([false] ++ gprsBits t alpha gamma taIdx)) := by
  have hh := pua_head id t alpha gamma taIdx false
  have w := enc_items _ puaHead 0 [] e (head_ok _ _ hh)
  rw [head_bits _ _ hh] at w
  refine wend_then rfl w fun e1 => ?_
  unfold puaUnion
  rw [encItem]
  rw [show (writePua id t alpha gamma taIdx false) [Packet_Uplink_Assignment_t.UnionType] = 0 from rfl, emit_add, show put 1 0 = [false] from rfl]
  refine wend_one (k := fun e => encUnion (writePua id t alpha gamma taIdx false) _ (0 % 2 ^ 1) [] e) fun e2 => ?_
  rw [encUnion, if_pos (by decide), encItem]
  refine wend_neg ?_
  rw [← gprs_bits id t alpha gamma taIdx hc, gprs_split]
  exact wend_base _ _ _ _ _ _ _ rfl rfl (gprs_ok id t alpha gamma taIdx hc) rfl

/-- The EGPRS part of the message. The window size is the low bits of the number. -/
def egprsBits : List Bool :=
  put 2 0 ++ [false] ++ [false] ++ put 4 t.code ++ bit true ++ put 5 (t.ws % 256) ++ [false] ++ bit false ++ bit true ++ [false]
    ++ (timingOf t.ta (taOf taIdx)).bits ++ [false] ++ opt (some (freqOf t.chan).bits) ++ put 2 1 ++ (dynOf t alpha gamma).bits

theorem egprs00_ok (hc : ChanOk t.chan) : okItems (writePua id t alpha gamma taIdx true) PUA_EGPRS_00_t 0 [PUA_EGPRS_t.u_PUA_EGPRS_00, Packet_Uplink_Assignment_t.u_PUA_EGPRS_Struct] := by
  have hf := ok_of_all _ _ 0 _ (freq_ok _ _ _ (pua_freq_e id t alpha gamma taIdx) hc)
  have ht := ok_of_all _ _ 0 _ (timing_ok (writePua id t alpha gamma taIdx true) [PUA_EGPRS_00_t.Packet_Timing_Advance, PUA_EGPRS_t.u_PUA_EGPRS_00, Packet_Uplink_Assignment_t.u_PUA_EGPRS_Struct])
  have hd := dyn_ok _ _ _ _ _ (pua_dyn_e id t alpha gamma taIdx)
  generalize hσ : writePua id t alpha gamma taIdx true = σ at *
  have h1 : σ [PUA_EGPRS_00_t.Exist_Frequency_Parameters, PUA_EGPRS_t.u_PUA_EGPRS_00, Packet_Uplink_Assignment_t.u_PUA_EGPRS_Struct] = 1 := by rw [← hσ]; rfl
  have h2 : σ [PUA_EGPRS_00_t.UnionType, PUA_EGPRS_t.u_PUA_EGPRS_00, Packet_Uplink_Assignment_t.u_PUA_EGPRS_Struct] = 1 := by rw [← hσ]; rfl
  have h3 : σ [PUA_EGPRS_00_t.Exist_CONTENTION_RESOLUTION_TLLI, PUA_EGPRS_t.u_PUA_EGPRS_00, Packet_Uplink_Assignment_t.u_PUA_EGPRS_Struct] = 0 := by rw [← hσ]; rfl
  have h4 : σ [PUA_EGPRS_00_t.Exist_COMPACT_ReducedMA, PUA_EGPRS_t.u_PUA_EGPRS_00, Packet_Uplink_Assignment_t.u_PUA_EGPRS_Struct] = 0 := by rw [← hσ]; rfl
  have h5 : σ [PUA_EGPRS_00_t.Exist_BEP_PERIOD2, PUA_EGPRS_t.u_PUA_EGPRS_00, Packet_Uplink_Assignment_t.u_PUA_EGPRS_Struct] = 0 := by rw [← hσ]; rfl
  have h6 : σ [PUA_EGPRS_00_t.Exist_Packet_Extended_Timing_Advance, PUA_EGPRS_t.u_PUA_EGPRS_00, Packet_Uplink_Assignment_t.u_PUA_EGPRS_Struct] = 0 := by rw [← hσ]; rfl
  simp only [PUA_EGPRS_00_t, okItems, okItem, h1, h2, h3, h4, h5, h6, if_false, Nat.one_ne_zero, hf, ht, and_true, okUnion, Items.isEnd, Nat.reduceSub, decide_false, Bool.or_self, Bool.false_eq_true, decide_true, Bool.true_or, if_true, hd]
  decide

theorem egprs00_bits (hc : ChanOk t.chan) : put 2 0 ++ bitsItems (writePua id t alpha gamma taIdx true) PUA_EGPRS_00_t 0 [PUA_EGPRS_t.u_PUA_EGPRS_00, Packet_Uplink_Assignment_t.u_PUA_EGPRS_Struct]
    = egprsBits t alpha gamma taIdx := by
  have hf := freq_bits _ _ _ (pua_freq_e id t alpha gamma taIdx) hc
  have ht := pua_timing_e id t alpha gamma taIdx
  have hd := dyn_bits _ _ _ _ _ (pua_dyn_e id t alpha gamma taIdx)
  generalize hσ : writePua id t alpha gamma taIdx true = σ at *
  have h1 : σ [PUA_EGPRS_00_t.Exist_Frequency_Parameters, PUA_EGPRS_t.u_PUA_EGPRS_00, Packet_Uplink_Assignment_t.u_PUA_EGPRS_Struct] = 1 := by rw [← hσ]; rfl
  have h2 : σ [PUA_EGPRS_00_t.UnionType, PUA_EGPRS_t.u_PUA_EGPRS_00, Packet_Uplink_Assignment_t.u_PUA_EGPRS_Struct] = 1 := by rw [← hσ]; rfl
  have h3 : σ [PUA_EGPRS_00_t.Exist_CONTENTION_RESOLUTION_TLLI, PUA_EGPRS_t.u_PUA_EGPRS_00, Packet_Uplink_Assignment_t.u_PUA_EGPRS_Struct] = 0 := by rw [← hσ]; rfl
  have h4 : σ [PUA_EGPRS_00_t.Exist_COMPACT_ReducedMA, PUA_EGPRS_t.u_PUA_EGPRS_00, Packet_Uplink_Assignment_t.u_PUA_EGPRS_Struct] = 0 := by rw [← hσ]; rfl
  have h5 : σ [PUA_EGPRS_00_t.Exist_BEP_PERIOD2, PUA_EGPRS_t.u_PUA_EGPRS_00, Packet_Uplink_Assignment_t.u_PUA_EGPRS_Struct] = 0 := by rw [← hσ]; rfl
  have h6 : σ [PUA_EGPRS_00_t.Exist_Packet_Extended_Timing_Advance, PUA_EGPRS_t.u_PUA_EGPRS_00, Packet_Uplink_Assignment_t.u_PUA_EGPRS_Struct] = 0 := by rw [← hσ]; rfl
  have g1 : σ [PUA_EGPRS_00_t.EGPRS_CHANNEL_CODING_COMMAND, PUA_EGPRS_t.u_PUA_EGPRS_00, Packet_Uplink_Assignment_t.u_PUA_EGPRS_Struct] = t.code := by rw [← hσ]; rfl
  have g2 : σ [PUA_EGPRS_00_t.RESEGMENT, PUA_EGPRS_t.u_PUA_EGPRS_00, Packet_Uplink_Assignment_t.u_PUA_EGPRS_Struct] = 1 := by rw [← hσ]; rfl
  have g3 : σ [PUA_EGPRS_00_t.EGPRS_WindowSize, PUA_EGPRS_t.u_PUA_EGPRS_00, Packet_Uplink_Assignment_t.u_PUA_EGPRS_Struct] = t.ws % 256 := by rw [← hσ]; rfl
  have g4 : σ [PUA_EGPRS_00_t.NrOfAccessTechnologies, PUA_EGPRS_t.u_PUA_EGPRS_00, Packet_Uplink_Assignment_t.u_PUA_EGPRS_Struct] = 0 := by rw [← hσ]; rfl
  have g5 : σ [PUA_EGPRS_00_t.ARAC_RETRANSMISSION_REQUEST, PUA_EGPRS_t.u_PUA_EGPRS_00, Packet_Uplink_Assignment_t.u_PUA_EGPRS_Struct] = 0 := by rw [← hσ]; rfl
  have g6 : σ [PUA_EGPRS_00_t.TLLI_BLOCK_CHANNEL_CODING, PUA_EGPRS_t.u_PUA_EGPRS_00, Packet_Uplink_Assignment_t.u_PUA_EGPRS_Struct] = 1 := by rw [← hσ]; rfl
  simp only [PUA_EGPRS_00_t, bitsItems, bitsItem, h1, h2, h3, h4, h5, h6, g1, g2, g3, g4, g5, g6, if_false, Nat.one_ne_zero, hf, ht, bitsUnion, Items.isEnd, Nat.reduceSub, decide_false, Bool.or_self, Bool.false_eq_true, decide_true, Bool.true_or, if_true, hd,
    List.range_zero, List.flatMap_nil]
  simp only [egprsBits, opt, List.append_assoc, List.append_nil, List.cons_append, List.nil_append]
  rfl

theorem egprs_ok (hc : ChanOk t.chan) : okItems (writePua id t alpha gamma taIdx true) PUA_EGPRS_t 0 [Packet_Uplink_Assignment_t.u_PUA_EGPRS_Struct] := by
  have h := egprs00_ok id t alpha gamma taIdx hc
  generalize hσ : writePua id t alpha gamma taIdx true = σ at *
  have h1 : σ [PUA_EGPRS_t.UnionType, Packet_Uplink_Assignment_t.u_PUA_EGPRS_Struct] = 0 := by rw [← hσ]; rfl
  simp only [PUA_EGPRS_t, okItems, okItem, h1, okUnion, decide_true, Bool.true_or, if_true, h, and_true]
  decide

theorem pua_egprs_bits (hc : ChanOk t.chan) : bitsItems (writePua id t alpha gamma taIdx true) PUA_EGPRS_t 0 [Packet_Uplink_Assignment_t.u_PUA_EGPRS_Struct]
    = egprsBits t alpha gamma taIdx := by
  rw [← egprs00_bits id t alpha gamma taIdx hc]
  generalize hσ : writePua id t alpha gamma taIdx true = σ
  have h1 : σ [PUA_EGPRS_t.UnionType, Packet_Uplink_Assignment_t.u_PUA_EGPRS_Struct] = 0 := by rw [← hσ]; rfl
  simp only [PUA_EGPRS_t, bits_cons, bits_nil, bitsItem, h1, bitsUnion, decide_true, Bool.true_or, if_true, List.append_nil]

/-- The EGPRS message, for any room. -/
theorem pua_egprs (hc : ChanOk t.chan) (e : E) :
    Writes True ((encItems (writePua id t alpha gamma taIdx true) puaHead 0 [] e).bind (encItem (writePua id t alpha gamma taIdx true) puaUnion [])) e
      (put 6 10 ++ put 2 0 ++ [false] ++ (idOf id).bits ++ ([true] ++ egprsBits t alpha gamma taIdx)) := by
  have hh := pua_head id t alpha gamma taIdx true
  have w := enc_items _ puaHead 0 [] e (head_ok _ _ hh)
  rw [head_bits _ _ hh] at w
  refine Writes.then (w.imp fun _ => rfl) fun e1 => ?_
  unfold puaUnion
  rw [encItem]
  rw [show (writePua id t alpha gamma taIdx true) [Packet_Uplink_Assignment_t.UnionType] = 1 from rfl, emit_add, show put 1 1 = [true] from rfl]
  refine writes_one (k := fun e => encUnion (writePua id t alpha gamma taIdx true) _ (1 % 2 ^ 1) [] e) fun e2 => ?_
  rw [encUnion, if_neg (by decide), encUnion, if_pos (by decide), encItem]
  refine writes_neg ?_
  rw [← pua_egprs_bits id t alpha gamma taIdx hc]
  exact (enc_items _ PUA_EGPRS_t 0 _ _ (egprs_ok id t alpha gamma taIdx hc)).imp fun _ => rfl

end

/-- The message with the padding. -/
theorem writes_pad (σ : Data) (r : Option E) (l : List Bool) (h : Writes True r ⟨176, []⟩ l) :
    (r.bind fun e => if e.rem < 0 then none else encItems σ pad 0 [] e)
      = if l.length ≤ 176 then some ⟨0, fill l⟩ else none := by
  by_cases hl : l.length ≤ 176
  · have hr : (E.add ⟨176, []⟩ l).rem = ((176 - l.length : Nat) : Int) := by
      show (176 : Int) - (l.length : Int) = _; omega
    rw [h.1 (by show (l.length : Int) ≤ 176; omega), Option.bind_some, if_neg (by omega), enc_pad, if_neg (by omega), if_pos hl, hr, Int.toNat_natCast, padding_eq _ (by omega)]
    rfl
  · rw [if_neg hl]
    cases hr : r with
    | none => rfl
    | some e => rw [Option.bind_some, if_pos (h.2 trivial (by show (176 : Int) < l.length; omega) e hr)]

theorem enc_pua (σ : Data) (e : E) : encItems σ Packet_Uplink_Assignment_t 0 [] e
    = ((encItems σ puaHead 0 [] e).bind (encItem σ puaUnion [])).bind fun e => if e.rem < 0 then none else encItems σ pad 0 [] e := by
  rw [pua_split, enc_app σ _ [] puaHead 0 e rfl (Nat.zero_le _), Option.bind_assoc]
  congr 1

end Verif.Csn1
