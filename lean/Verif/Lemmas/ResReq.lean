import Verif.Spec.ResReq
import Verif.Lemmas.RaCap
import Verif.Model.UlCtrl
/-!
# Lemmas: reading a Packet Resource Request
-/

namespace Verif.Csn1

open Verif.Bits (put length_put)
open Verif.UlMsg (opt bit ChannelRequest)
open Verif.ResReq (slots)
open T

/-! ## Arrays -/

/-- What is read for one element is about the members below it. -/
def Local (p : Path) (Q : Data → Prop) : Prop := ∀ d d' : Data, (∀ q, d' (q ++ p) = d (q ++ p)) → Q d → Q d'

theorem loop_at {blk : List Bool} {r : Path} {size : Nat} {d : Items} {g : Nat → List Bool} {Q : Nat → Data → Prop}
    (hloc : ∀ k, Local (k :: r) (Q k))
    (h : ∀ (k : Nat) (s : S) (b : List Bool), At blk s.pos (g k ++ b) → ((g k).length : Int) ≤ s.rem →
      ∃ d', decItems blk d 0 (k :: r) s = .ok ⟨s.rem - (g k).length, s.pos + (g k).length, d'⟩ ∧ Q k d' ∧
        ∀ q, Keep (k :: r) [] q → d' q = s.data q) :
    ∀ (n k : Nat) (s : S) (b : List Bool), k + n ≤ size → At blk s.pos ((List.range' k n).flatMap g ++ b) →
      (((List.range' k n).flatMap g).length : Int) ≤ s.rem →
      ∃ d', loop size (fun k s => if s.rem < 0 then .err else decItems blk d 0 (k :: r) s) n k s =
          .ok ⟨s.rem - ((List.range' k n).flatMap g).length, s.pos + ((List.range' k n).flatMap g).length, d'⟩ ∧
        (∀ i, k ≤ i → i < k + n → Q i d') ∧ ∀ q, (∀ i, k ≤ i → Keep (i :: r) [] q) → d' q = s.data q
  | 0, k, s, b, _, _, _ => ⟨s.data, by simp [loop], fun i h1 h2 => by omega, fun _ _ => rfl⟩
  | n + 1, k, s, b, hk, hat, hl => by
    rw [List.range'_succ, List.flatMap_cons] at hat hl ⊢
    rw [List.append_assoc] at hat
    rw [List.length_append] at hl ⊢
    obtain ⟨d1, e1, q1, k1⟩ := h k s _ hat (by omega)
    obtain ⟨d2, e2, q2, k2⟩ := loop_at (size := size) hloc h n (k + 1) ⟨s.rem - (g k).length, s.pos + (g k).length, d1⟩ b (by omega) hat.step
      (by show _ ≤ s.rem - _; omega)
    refine ⟨d2, ?_, ?_, fun q hq => (k2 q fun i hi => hq i (by omega)).trans (k1 q (hq k (Nat.le_refl _)))⟩
    · rw [loop, if_neg (by omega), if_neg (by omega), e1]
      show loop _ _ n (k + 1) _ = _
      rw [e2]
      dsimp only
      congr 2 <;> omega
    · intro i h1 h2
      by_cases hi : i = k
      · subst hi
        exact hloc i d1 d2 (fun q => k2 _ fun j hj => RaCap.keep_index q (by omega)) q1
      · exact q2 i (by omega) (by omega)

/-- An array of eight. -/
theorem slots_at {blk : List Bool} {p : Path} {f : Nat} {d is : Items} {g : Nat → List Bool} {Q : Nat → Data → Prop} {s : S} {b : List Bool}
    (hloc : ∀ k, Local (k :: f :: p) (Q k))
    (h : ∀ (k : Nat) (s : S) (b : List Bool), At blk s.pos (g k ++ b) → ((g k).length : Int) ≤ s.rem →
      ∃ d', decItems blk d 0 (k :: f :: p) s = .ok ⟨s.rem - (g k).length, s.pos + (g k).length, d'⟩ ∧ Q k d' ∧
        ∀ q, Keep (k :: f :: p) [] q → d' q = s.data q)
    (hat : At blk s.pos (slots g ++ b)) (hl : ((slots g).length : Int) ≤ s.rem) :
    ∃ d', decItems blk (.cons (.typeArray d f 8 8) is) 0 p s =
        decItems blk is 0 p ⟨s.rem - (slots g).length, s.pos + (slots g).length, d'⟩ ∧
      (∀ i, i < 8 → Q i d') ∧ ∀ q, Keep (f :: p) [] q → d' q = s.data q := by
  obtain ⟨d', e, q1, k1⟩ := loop_at hloc h 8 0 s b (Nat.le_refl _) hat hl
  refine ⟨d', ?_, fun i hi => q1 i (Nat.zero_le _) (by omega), fun q hq => k1 q fun i _ => RaCap.keep_up hq⟩
  rw [decItems, decItem, e]
  show (if s.rem - ((slots g).length : Int) < 0 then _ else decItems blk is 0 p ⟨s.rem - (slots g).length, s.pos + (slots g).length, d'⟩) = _
  rw [if_neg (by omega)]

theorem Step.slots {blk : List Bool} {p : Path} {M : List Nat} {f : Nat} {d is : Items} {g : Nat → List Bool} (hf : f ∉ M)
    (h : ∀ k, Step blk (k :: f :: p) [] (g k) d .nil) : Step blk p M (slots g) (.cons (.typeArray d f 8 8) is) is := by
  intro s b hat hl
  obtain ⟨d', e, _, k⟩ := slots_at (Q := fun _ _ => True) (is := is) (fun _ _ _ _ _ => trivial)
    (fun k s b hat hl => by
      obtain ⟨d', e, kp⟩ := h k s b hat hl
      exact ⟨d', by rw [e, decItems], trivial, kp⟩) hat hl
  exact ⟨d', e, fun q hq => k q (hq.sub hf)⟩

/-! ## Values -/

/-- What an optional member holds. -/
def OptAt (d : Data) (e v : Path) (o : Option Nat) : Prop :=
  match o with
  | none => d e = 0
  | some x => d e = 1 ∧ d v = x

theorem optv_at {blk p f g o n o2 w is b} {x : Option Nat} {s : S} (hx : ∀ v, x = some v → v < 2 ^ w) (hfg : f ≠ g) (hw : w ≠ 0)
    (hat : At blk s.pos (opt (x.map (put w)) ++ b)) (hl : ((opt (x.map (put w))).length : Int) ≤ s.rem) :
    ∃ d', decItems blk (.opt f o n 1 <| .cons (.uint w g o2) is) 0 p s =
        decItems blk is 0 p ⟨s.rem - (opt (x.map (put w))).length, s.pos + (opt (x.map (put w))).length, d'⟩ ∧
      OptAt d' (f :: p) (g :: p) x ∧ ∀ q, q ≠ f :: p → q ≠ g :: p → d' q = s.data q := by
  cases x with
  | none =>
    refine ⟨_, opt_absent hat hl, ?_, ?_⟩
    · show upd _ _ _ _ = _
      unfold upd; rw [if_pos rfl]
    · intro q h1 _
      unfold upd; rw [if_neg h1]
  | some v =>
    rw [Option.map_some, UlMsg.opt] at hat hl ⊢
    rw [List.length_cons, length_put] at hl ⊢
    have hat' : At blk s.pos (true :: (put w v ++ b)) := hat
    refine ⟨upd (upd s.data (f :: p) 1) (g :: p) v, ?_, ?_, ?_⟩
    · rw [opt_present hat' (by omega), uint_at hat'.next (hx v rfl) (by show _ ≤ s.rem - 1; omega)]
      dsimp only
      congr 2 <;> omega
    · refine ⟨?_, ?_⟩
      · unfold upd; rw [if_neg (by simp [hfg]), if_pos rfl]
      · unfold upd; rw [if_pos rfl]
    · intro q h1 h2
      unfold upd; rw [if_neg h2, if_neg h1]

/-- One level of interference. -/
theorem level_at {blk p b} {x : Option Nat} {s : S} (hx : ∀ v, x = some v → v < 16)
    (hat : At blk s.pos (opt (x.map (put 4)) ++ b)) (hl : ((opt (x.map (put 4))).length : Int) ≤ s.rem) :
    ∃ d', decItems blk InterferenceMeasurementReport_t 0 p s = .ok ⟨s.rem - (opt (x.map (put 4))).length, s.pos + (opt (x.map (put 4))).length, d'⟩ ∧
      OptAt d' (InterferenceMeasurementReport_t.Exist :: p) (InterferenceMeasurementReport_t.I_LEVEL :: p) x ∧
      ∀ q, Keep p [] q → d' q = s.data q := by
  obtain ⟨d', e, h, k⟩ := optv_at (f := InterferenceMeasurementReport_t.Exist) (g := InterferenceMeasurementReport_t.I_LEVEL)
    (o := false) (n := false) (o2 := false) (p := p) (is := .nil) hx (by decide) (by decide) hat hl
  refine ⟨d', ?_, h, fun q hq => k q (hq.ne List.not_mem_nil) (hq.ne List.not_mem_nil)⟩
  rw [InterferenceMeasurementReport_t, e, decItems]

theorem holds_local {p : Path} {a v : Nat} {o : Option Nat} : Local p (fun d => OptAt d (a :: p) (v :: p) o) := by
  intro d d' hd h
  have h1 : d' (a :: p) = d (a :: p) := hd [a]
  have h2 : d' (v :: p) = d (v :: p) := hd [v]
  cases o with
  | none => exact h1.trans h
  | some x => exact ⟨h1.trans h.1, h2.trans h.2⟩

/-! ## The name -/

theorem tfi_at {blk p b} {s : S} (dl : Bool) (t : Nat) (ht : t < 32) (hat : At blk s.pos (dl :: (put 5 t ++ b))) (hl : 6 ≤ s.rem) :
    decItems blk Global_TFI_t 0 p s = .ok ⟨s.rem - 6, s.pos + 6, upd (upd s.data (Global_TFI_t.UnionType :: p) dl.toNat)
      ((if dl then Global_TFI_t.u_DOWNLINK_TFI else Global_TFI_t.u_UPLINK_TFI) :: p) t⟩ := by
  rw [Global_TFI_t, decItems, decItem, getBit hat]
  have h5 := hat.next.read (n := 5) ht
  cases dl
  · show R.bind (decUnion blk _ 0 p _) _ = _
    rw [decUnion, if_pos (by decide), decItem, if_pos (show ((5 : Nat) : Int) ≤ s.rem - ((1 : Nat) : Int) by omega), store]
    dsimp only [R.bind]
    rw [h5, if_neg (show ¬ s.rem - ((1 : Nat) : Int) - ((5 : Nat) : Int) < 0 by omega), decItems]
    dsimp only
    congr 2
    omega
  · show R.bind (decUnion blk _ 1 p _) _ = _
    rw [decUnion, if_neg (by decide), decUnion, if_pos (by decide), decItem, if_pos (show ((5 : Nat) : Int) ≤ s.rem - ((1 : Nat) : Int) by omega), store]
    dsimp only [R.bind]
    rw [h5, if_neg (show ¬ s.rem - ((1 : Nat) : Int) - ((5 : Nat) : Int) < 0 by omega), decItems]
    dsimp only
    congr 2
    omega

/-- Who the PCU takes a name for. -/
def whoOf : ResReq.Name → Who
  | .uplink t => .ulTfi t
  | .downlink t => .dlTfi t
  | .tlli v => .tlli v

def whoAt (d : Data) (p : Path) : Who :=
  if d (PacketResourceRequestID_t.UnionType :: p) ≠ 0 then .tlli (d (PacketResourceRequestID_t.u_TLLI :: p))
  else if d (Global_TFI_t.UnionType :: PacketResourceRequestID_t.u_Global_TFI :: p) ≠ 0 then
    .dlTfi (d (Global_TFI_t.u_DOWNLINK_TFI :: PacketResourceRequestID_t.u_Global_TFI :: p))
  else .ulTfi (d (Global_TFI_t.u_UPLINK_TFI :: PacketResourceRequestID_t.u_Global_TFI :: p))

theorem whoAt_local {p : Path} {w : Who} : Local p (fun d => whoAt d p = w) := by
  intro d d' hd h
  rw [← h]
  unfold whoAt
  have h1 := hd [PacketResourceRequestID_t.UnionType]
  have h2 := hd [PacketResourceRequestID_t.u_TLLI]
  have h3 := hd [Global_TFI_t.UnionType, PacketResourceRequestID_t.u_Global_TFI]
  have h4 := hd [Global_TFI_t.u_DOWNLINK_TFI, PacketResourceRequestID_t.u_Global_TFI]
  have h5 := hd [Global_TFI_t.u_UPLINK_TFI, PacketResourceRequestID_t.u_Global_TFI]
  simp only [List.cons_append, List.nil_append] at h1 h2 h3 h4 h5
  rw [h1, h2, h3, h4, h5]

theorem name_at {blk p b} {s : S} (m : ResReq.Name) (hm : m.Valid) (hat : At blk s.pos (m.bits ++ b)) (hl : (m.bits.length : Int) ≤ s.rem) :
    ∃ d', decItems blk PacketResourceRequestID_t 0 p s = .ok ⟨s.rem - m.bits.length, s.pos + m.bits.length, d'⟩ ∧ whoAt d' p = whoOf m ∧
      ∀ q, Keep p [] q → d' q = s.data q := by
  have tfi : ∀ (dl : Bool) (t : Nat), t < 32 → At blk s.pos (false :: dl :: (put 5 t ++ b)) → 7 ≤ s.rem →
      ∃ d', decItems blk PacketResourceRequestID_t 0 p s = .ok ⟨s.rem - 7, s.pos + 7, d'⟩ ∧
        whoAt d' p = (if dl then .dlTfi t else .ulTfi t) ∧ ∀ q, Keep p [] q → d' q = s.data q := by
    intro dl t ht hat hl
    refine ⟨upd (upd (upd s.data (PacketResourceRequestID_t.UnionType :: p) 0)
      (Global_TFI_t.UnionType :: PacketResourceRequestID_t.u_Global_TFI :: p) dl.toNat)
      ((if dl then Global_TFI_t.u_DOWNLINK_TFI else Global_TFI_t.u_UPLINK_TFI) :: PacketResourceRequestID_t.u_Global_TFI :: p) t, ?_, ?_, ?_⟩
    · rw [PacketResourceRequestID_t, decItems, decItem, PacketResourceRequestID, decAlts, getBit hat]
      dsimp only
      rw [if_pos (by rfl), if_neg (by omega), decItem, if_neg (by simp), if_neg (show ¬ s.rem - ((1 : Nat) : Int) < 0 by omega),
        tfi_at dl t ht hat.next (show (6 : Int) ≤ s.rem - ((1 : Nat) : Int) by omega)]
      dsimp only [R.bind]
      rw [if_neg (by omega)]
      dsimp only
      rw [if_neg (by omega), decItems]
      congr 2
      omega
    · unfold whoAt upd
      cases dl <;> simp [Global_TFI_t.UnionType, Global_TFI_t.u_DOWNLINK_TFI, Global_TFI_t.u_UPLINK_TFI, PacketResourceRequestID_t.UnionType,
        PacketResourceRequestID_t.u_Global_TFI]
    · intro q hq
      have h1 := hq.ne (f := PacketResourceRequestID_t.UnionType) List.not_mem_nil
      have h2 := (hq.sub (f := PacketResourceRequestID_t.u_Global_TFI) List.not_mem_nil)
      unfold upd
      rw [if_neg (h2.ne List.not_mem_nil), if_neg (h2.ne List.not_mem_nil), if_neg h1]
  cases m with
  | uplink t =>
    have : (ResReq.Name.uplink t).bits.length = 7 := by unfold ResReq.Name.bits; simp
    rw [this] at hl ⊢
    exact tfi false t hm hat hl
  | downlink t =>
    have : (ResReq.Name.downlink t).bits.length = 7 := by unfold ResReq.Name.bits; simp
    rw [this] at hl ⊢
    exact tfi true t hm hat hl
  | tlli v =>
    have : (ResReq.Name.tlli v).bits.length = 33 := by unfold ResReq.Name.bits; simp
    rw [this] at hl ⊢
    have hat' : At blk s.pos (true :: (put 32 v ++ b)) := hat
    have h32 := hat'.next.read (n := 32) hm
    refine ⟨upd (upd s.data (PacketResourceRequestID_t.UnionType :: p) 1) (PacketResourceRequestID_t.u_TLLI :: p) v, ?_, ?_, ?_⟩
    · rw [PacketResourceRequestID_t, decItems, decItem, PacketResourceRequestID, decAlts, getBit hat']
      dsimp only
      rw [if_neg (by decide), decAlts]
      dsimp only
      rw [Nat.add_sub_cancel, getBit hat']
      dsimp only
      rw [if_pos (by rfl), if_neg (by omega), decItem, if_pos (show ((32 : Nat) : Int) ≤ s.rem - ((1 : Nat) : Int) by omega), store]
      dsimp only [R.bind]
      rw [h32, if_neg (by omega)]
      dsimp only
      rw [if_neg (by omega), decItems]
      congr 2
      omega
    · unfold whoAt upd
      simp [PacketResourceRequestID_t.UnionType, PacketResourceRequestID_t.u_TLLI, whoOf]
    · intro q hq
      unfold upd
      rw [if_neg (hq.ne List.not_mem_nil), if_neg (hq.ne List.not_mem_nil)]

/-! ## Additions -/

open Verif.ResReq (Bep SlotQuality R12 R10 R7 R6 R5 R99 Request)

theorem bep_step {blk p} (r : Bep) (h : r.Valid) : Step blk p [] r.bits EGPRS_BEP_LinkQualityMeasurements_t .nil := by
  refine .trans (.opt (by decide) (fun _ _ => by simp [put]) fun y hy => ?_) (.opt (by decide) (fun _ _ => by simp [put]) fun y hy => ?_)
  · exact .trans (.uint (h.1 y hy).1 (by decide)) (.uint (h.1 y hy).2 (by decide))
  · exact .trans (.uint (h.2 y hy).1 (by decide)) (.uint (h.2 y hy).2 (by decide))

theorem mean_step {blk p is} (x : Bool × Nat) (h : x.2 < 16) :
    Step blk p [] (bit x.1 ++ put 4 x.2) (.cons (.union 1 BEP_MeasurementReport_t.UnionType (.cons (.uint 4 BEP_MeasurementReport_t.u_MEAN_BEP_GMSK false) (.cons (.uint 4 BEP_MeasurementReport_t.u_MEAN_BEP_8PSK false) .nil))) is) is := by
  obtain ⟨k, v⟩ := x
  intro s b hat hl
  have hat' : At blk s.pos (k :: (put 4 v ++ b)) := by simpa [bit] using hat
  have hlen : (bit k ++ put 4 v).length = 5 := by simp [bit]
  dsimp only at hl ⊢
  rw [hlen] at hl ⊢
  have h4 := hat'.next.read (n := 4) h
  refine ⟨upd (upd s.data (BEP_MeasurementReport_t.UnionType :: p) k.toNat)
      ((if k then BEP_MeasurementReport_t.u_MEAN_BEP_8PSK else BEP_MeasurementReport_t.u_MEAN_BEP_GMSK) :: p) v, ?_, ?_⟩
  · rw [decItems, decItem, getBit hat']
    cases k
    · show R.bind (decUnion blk _ 0 p _) _ = _
      rw [decUnion, if_pos (by decide), decItem, if_pos (show ((4 : Nat) : Int) ≤ s.rem - ((1 : Nat) : Int) by omega), store]
      dsimp only [R.bind]
      rw [h4, if_neg (show ¬ s.rem - ((1 : Nat) : Int) - ((4 : Nat) : Int) < 0 by omega)]
      dsimp only
      congr 2
      omega
    · show R.bind (decUnion blk _ 1 p _) _ = _
      rw [decUnion, if_neg (by decide), decUnion, if_pos (by decide), decItem, if_pos (show ((4 : Nat) : Int) ≤ s.rem - ((1 : Nat) : Int) by omega), store]
      dsimp only [R.bind]
      rw [h4, if_neg (show ¬ s.rem - ((1 : Nat) : Int) - ((4 : Nat) : Int) < 0 by omega)]
      dsimp only
      congr 2
      omega
  · intro q hq
    unfold upd
    rw [if_neg (hq.ne List.not_mem_nil), if_neg (hq.ne List.not_mem_nil)]

theorem slots_ne {g : Nat → List Bool} (h : g 0 ≠ []) : slots g ≠ [] := by
  unfold slots
  rw [List.flatMap_cons]
  intro e
  exact h (List.append_eq_nil_iff.1 e).1

theorem quality_step {blk p} (r : SlotQuality) (h : r.Valid) : Step blk p [] r.bits EGPRS_TimeslotLinkQualityMeasurements_t .nil := by
  refine .trans (.opt (by decide) (fun _ _ => slots_ne (opt_ne _ _)) fun f hf => ?_) (.opt (by decide) (fun _ _ => slots_ne (opt_ne _ _)) fun f hf => ?_)
  · refine Step.slots (by decide) fun k => .opt (by decide) (fun _ _ => by simp [put]) fun y hy => ?_
    exact mean_step y (h.1 f hf k y hy)
  · exact Step.slots (by decide) fun k => .opt (by decide) (fun _ _ => put_ne (by decide)) fun y hy => .uint (h.2 f hf k y hy) (by decide)

theorem p12_step {blk p} (r : R12) (h : r.Valid) : Step blk p [] r.bits PRR_AdditionsR12_t .nil :=
  .opt (by decide) (fun _ _ => put_ne (by decide)) fun y hy => .uint (h y hy) (by decide)

theorem p10_step {blk p} (r : R10) (h : r.Valid) : Step blk p [] r.bits PRR_AdditionsR10_t .nil :=
  .trans (.flag (by decide)) <| .opt (by decide) (fun _ _ => opt_ne _ _) fun y hy => .type (by decide) (opt_ne _ _) (p12_step y (h y hy))

theorem absent_step {blk p M f o n is} {k} (hf : f ∉ M) : Step blk p M (bit false) (.opt f o n k is) (is.dropI k) := by
  intro s b hat hl
  exact ⟨_, opt_absent hat hl, fun q hq => upd_keep hq hf⟩

theorem p7_step {blk p} (r : R7) (h : r.Valid) (h2 : r.bep2 = none ∧ r.slots2 = none) : Step blk p [] r.bits PRR_AdditionsR7_t .nil := by
  unfold R7.bits
  rw [h2.1, h2.2]
  refine .trans (.flag (by decide)) <| .trans (absent_step (by decide)) <| .trans (absent_step (by decide)) <|
    .opt (by decide) (fun _ _ => ?_) fun y hy => .type (by decide) ?_ (p10_step y (h.2.2 y hy)) <;> simp [R10.bits, bit]

theorem p6_step {blk p} (r : R6) (h : r.Valid) (h2 : ∀ n, r.next = some n → n.bep2 = none ∧ n.slots2 = none) :
    Step blk p [] r.bits PRR_AdditionsR6_t .nil := by
  refine .trans (absent_step (by decide)) <|
    .opt (by decide) (fun _ _ => ?_) fun y hy => .type (by decide) ?_ (p7_step y (h y hy) (h2 y hy)) <;> simp [R7.bits, bit]

theorem p5_step {blk p} (r : R5) (h : r.Valid) (h2 : ∀ r6, r.next = some r6 → ∀ n, r6.next = some n → n.bep2 = none ∧ n.slots2 = none) :
    Step blk p [] r.bits PRR_AdditionsR5_t .nil := by
  refine .trans (absent_step (by decide)) <| .trans (.opt (by decide) (fun _ _ => put_ne (by decide)) fun y hy => .uint (h.1 y hy) (by decide)) <|
    .opt (by decide) (fun _ _ => ?_) fun y hy => .type (by decide) ?_ (p6_step y (h.2 y hy) (h2 y hy)) <;> simp [R6.bits, bit]

theorem p99_step {blk p} (r : R99) (h : r.Valid)
    (h2 : ∀ r5, r.next = some r5 → ∀ r6, r5.next = some r6 → ∀ n, r6.next = some n → n.bep2 = none ∧ n.slots2 = none) :
    Step blk p [] r.bits PRR_AdditionsR99_t .nil := by
  refine .trans (.opt (by decide) (fun _ _ => ?_) fun y hy => .type (by decide) ?_ (bep_step y (h.1 y hy))) <|
    .trans (.opt (by decide) (fun _ _ => ?_) fun y hy => .type (by decide) ?_ (quality_step y (h.2.1 y hy))) <|
    .trans (.opt (by decide) (fun _ _ => put_ne (by decide)) fun y hy => .uint (h.2.2.1 y hy) (by decide)) <|
    .trans (.flag (by decide)) <| .trans (.flag (by decide)) <|
    .opt (by decide) (fun _ _ => ?_) fun y hy => .type (by decide) ?_ (p5_step y (h.2.2.2 y hy) (h2 y hy))
  · exact fun e => opt_ne _ _ (List.append_eq_nil_iff.1 e).1
  · exact fun e => opt_ne _ _ (List.append_eq_nil_iff.1 e).1
  · exact fun e => opt_ne _ _ (List.append_eq_nil_iff.1 e).1
  · exact fun e => opt_ne _ _ (List.append_eq_nil_iff.1 e).1
  · simp [R5.bits, bit]
  · simp [R5.bits, bit]

theorem r99_ne (r : R99) : r.bits ≠ [] := fun e => opt_ne _ _ (List.append_eq_nil_iff.1 e).1

theorem request_step {blk p} (c : ChannelRequest) (h : c.Valid) : Step blk p [] c.bits Channel_Request_Description_t .nil :=
  .trans (.trans (.trans (.trans (.uint h.1 (by decide)) (.uint h.2.1 (by decide))) (.uint h.2.2.1 (by decide))) (.uint h.2.2.2.1 (by decide)))
    (.uint h.2.2.2.2 (by decide))

/-! ## The message -/

/-- The members that are looked at. -/
abbrev Looked : List Nat :=
  [Packet_Resource_Request_t.ID, Packet_Resource_Request_t.Exist_MS_Radio_Access_capability2, Packet_Resource_Request_t.MS_Radio_Access_capability2,
   Packet_Resource_Request_t.C_VALUE, Packet_Resource_Request_t.Exist_SIGN_VAR, Packet_Resource_Request_t.SIGN_VAR,
   Packet_Resource_Request_t.I_LEVEL_TN]

abbrev prt (k : Nat) : Items := Items.dropI k Packet_Resource_Request_t

theorem keep_last {f : Nat} {M : List Nat} (q : Path) (h : f ∈ M) : Keep [] M (q ++ [f]) := by
  intro g q' e
  have := congrArg List.getLast? e
  simp at this
  rw [← this]; exact h

theorem head_step {blk} (m : Request) (h : m.Valid) :
    Step blk [] Looked (UlMsg.header m.spare m.retry 5 ++ opt (m.access.map (put 2))) Packet_Resource_Request_t (prt 6) := by
  refine .trans (.trans (.trans (.trans (.uint (by decide) (by decide)) (.uint h.1 (by decide))) (.flag (by decide))) (.uint (by decide) (by decide))) ?_
  exact .opt (by decide) (fun _ _ => put_ne (by decide)) fun y hy => .uint (h.2.1 y hy) (by decide)

theorem mid_step {blk} (m : Request) (h : m.Valid) :
    Step blk [] Looked (m.request.bits ++ opt (m.changeMark.map (put 2))) (prt 9) (prt 12) := by
  refine .trans (.type (by decide) (by simp [ChannelRequest.bits, put]) (request_step _ h.2.2.2.2.1)) ?_
  exact .opt (by decide) (fun _ _ => put_ne (by decide)) fun y hy => .uint (h.2.2.2.2.2.1 y hy) (by decide)

theorem tail_step {blk} (m : Request) (h : m.Valid) (h2 : m.noType2) :
    Step blk [] Looked (opt (m.additions.map R99.bits)) (prt 16) (.cons .padding .nil) :=
  .opt (by decide) (fun _ _ => r99_ne _) fun y hy => .type (by decide) (r99_ne _) (p99_step y (h.2.2.2.2.2.2.2.2.2 y hy) (h2 y hy))

/-- The classes when there is a capability or none. -/
def ClassesAt (d : Data) (x : Option (RaCap.Entry × List RaCap.Entry)) : Prop :=
  match x with
  | none => d [Packet_Resource_Request_t.Exist_MS_Radio_Access_capability2] = 0
  | some e => d [Packet_Resource_Request_t.Exist_MS_Radio_Access_capability2] = 1 ∧
    gprsClass d [Packet_Resource_Request_t.MS_Radio_Access_capability2] = RaCap.gprs (e.1 :: e.2) ∧
    egprsClass d [Packet_Resource_Request_t.MS_Radio_Access_capability2] = RaCap.egprs (e.1 :: e.2)

theorem octet_local {d d' : Data} {q : Path} (h : ∀ r, d' (r ++ q) = d (r ++ q)) (off : Nat) (m : Path) : contentOctet d' q off m = contentOctet d q off m := by
  unfold contentOctet
  have h1 := h [MS_RA_capability_value_t.IndexOfAccTech]
  have h2 := h (m ++ [MS_RA_capability_value_t.u_Content])
  rw [List.append_assoc] at h2
  simp only [List.cons_append, List.nil_append] at h1 h2
  rw [h1, h2]
  congr 1
  unfold additionalOctet
  have h0 := h [Additional_access_technologies_t.Count_additional_access_technologies, MS_RA_capability_value_t.u_Additional_access_technologies]
  have h3 : ∀ f k, d' (f :: k :: Additional_access_technologies_t.Additional_access_technologies ::
      MS_RA_capability_value_t.u_Additional_access_technologies :: q) = d (f :: k :: Additional_access_technologies_t.Additional_access_technologies ::
      MS_RA_capability_value_t.u_Additional_access_technologies :: q) := fun f k =>
    h [f, k, Additional_access_technologies_t.Additional_access_technologies, MS_RA_capability_value_t.u_Additional_access_technologies]
  simp only [List.cons_append, List.nil_append] at h0
  simp only [h0, h3]

theorem classLoop_local {d d' : Data} {p : Path} (h : ∀ r, d' (r ++ p) = d (r ++ p)) (offE e off m : Nat) :
    ∀ n i, classLoop d' p offE e off m n i = classLoop d p offE e off m n i
  | 0, _ => rfl
  | n + 1, i => by
    have hq : ∀ r, d' (r ++ i :: MS_Radio_Access_capability_t.MS_RA_capability_value :: p) =
        d (r ++ i :: MS_Radio_Access_capability_t.MS_RA_capability_value :: p) := by
      intro r
      have := h (r ++ [i, MS_Radio_Access_capability_t.MS_RA_capability_value])
      rw [List.append_assoc] at this
      exact this
    rw [classLoop, classLoop]
    rw [octet_local hq, octet_local hq, octet_local hq, classLoop_local h offE e off m n]

theorem classes_keep {d d' : Data} {x} (h1 : d' [Packet_Resource_Request_t.Exist_MS_Radio_Access_capability2] =
      d [Packet_Resource_Request_t.Exist_MS_Radio_Access_capability2])
    (h2 : ∀ r, d' (r ++ [Packet_Resource_Request_t.MS_Radio_Access_capability2]) = d (r ++ [Packet_Resource_Request_t.MS_Radio_Access_capability2]))
    (h : ClassesAt d x) : ClassesAt d' x := by
  cases x with
  | none => exact h1.trans h
  | some e =>
    refine ⟨h1.trans h.1, ?_, ?_⟩
    · rw [← h.2.1]
      have hc := h2 [MS_Radio_Access_capability_t.Count_MS_RA_capability_value]
      simp only [List.cons_append, List.nil_append] at hc
      unfold gprsClass
      rw [hc, classLoop_local h2]
    · rw [← h.2.2]
      have hc := h2 [MS_Radio_Access_capability_t.Count_MS_RA_capability_value]
      simp only [List.cons_append, List.nil_append] at hc
      unfold egprsClass
      rw [hc, classLoop_local h2]

theorem capability_at {blk b} {s : S} (x : Option (RaCap.Entry × List RaCap.Entry))
    (hv : ∀ e, x = some e → (∀ y ∈ e.1 :: e.2, y.Valid) ∧ (e.1 :: e.2).length ≤ 11) (hf : ∀ e, x = some e → ∀ y ∈ e.1 :: e.2, y.further ≤ 3)
    (hz : ∀ q, s.data (q ++ [Packet_Resource_Request_t.MS_Radio_Access_capability2]) = 0)
    (hat : At blk s.pos (opt (x.map fun x => RaCap.bits x.1 x.2) ++ b)) (hl : ((opt (x.map fun x => RaCap.bits x.1 x.2)).length : Int) ≤ s.rem) :
    ∃ d', decItems blk (prt 7) 0 [] s = decItems blk (prt 9) 0 [] ⟨s.rem - (opt (x.map fun x => RaCap.bits x.1 x.2)).length,
        s.pos + (opt (x.map fun x => RaCap.bits x.1 x.2)).length, d'⟩ ∧ ClassesAt d' x ∧
      ∀ q f, f ≠ Packet_Resource_Request_t.MS_Radio_Access_capability2 → f ≠ Packet_Resource_Request_t.Exist_MS_Radio_Access_capability2 →
        d' (q ++ [f]) = s.data (q ++ [f]) := by
  cases x with
  | none =>
    refine ⟨_, opt_absent hat hl, ?_, ?_⟩
    · show upd _ _ _ _ = _
      unfold upd; rw [if_pos rfl]
    · intro q f _ h2
      unfold upd
      rw [if_neg]
      intro e
      have := congrArg List.getLast? e
      simp at this
      exact h2 this
  | some e =>
    rw [Option.map_some, UlMsg.opt] at hat hl ⊢
    rw [List.length_cons] at hl ⊢
    have hat' : At blk s.pos (true :: (RaCap.bits e.1 e.2 ++ b)) := hat
    have hpos : 1 ≤ (RaCap.bits e.1 e.2).length := by
      unfold RaCap.bits
      rw [List.length_append, List.length_singleton]; omega
    obtain ⟨d', e1, g1, g2, k1⟩ := RaCap.raItem_at (blk := blk) (b := b) (p := [Packet_Resource_Request_t.MS_Radio_Access_capability2])
      (s := ⟨s.rem - 1, s.pos + 1, upd s.data [Packet_Resource_Request_t.Exist_MS_Radio_Access_capability2] 1⟩) e.1 e.2
      (fun y hy => ⟨(hv e rfl).1 y hy, hf e rfl y hy⟩) (by have := (hv e rfl).2; rw [List.length_cons] at this; omega)
      (by
        intro q1
        show upd _ _ _ _ = _
        unfold upd
        rw [if_neg]
        · have := hz (q1 ++ [MS_Radio_Access_capability_t.MS_RA_capability_value])
          rw [List.append_assoc] at this
          exact this
        · intro h
          have := congrArg List.length h
          simp at this) hat'.next (by show _ ≤ s.rem - 1; omega)
    refine ⟨d', ?_, ⟨?_, g1, g2⟩, ?_⟩
    · have hp : decItems blk (prt 7) 0 [] s = decItems blk (prt 8) 0 [] ⟨s.rem - 1, s.pos + 1, upd s.data [Packet_Resource_Request_t.Exist_MS_Radio_Access_capability2] 1⟩ :=
        opt_present hat' (by omega)
      rw [hp]
      show decItems blk (.cons (.type (.cons raItem .nil) Packet_Resource_Request_t.MS_Radio_Access_capability2 false) (prt 9)) 0 [] _ = _
      rw [decItems, decItem, if_neg (by simp), if_neg (by show ¬ s.rem - 1 < 0; omega), decItems, e1]
      dsimp only [R.bind]
      rw [if_neg (by omega), decItems]
      dsimp only
      rw [if_neg (by omega)]
      congr 2 <;> omega
    · refine (k1 _ (fun i => ?_) (by decide)).trans ?_
      · intro g q' h
        have := congrArg List.length h
        simp at this
      · dsimp only
        unfold upd; rw [if_pos rfl]
    · intro q f h1 h2
      refine (k1 _ (fun i => ?_) ?_).trans ?_
      · intro g q' h
        have := congrArg List.getLast? h
        simp at this
        exact absurd this h1
      · intro h
        have := congrArg List.getLast? h
        simp at this
        exact h1 this
      · dsimp only
        unfold upd; rw [if_neg]
        intro h
        have := congrArg List.getLast? h
        simp at this
        exact h2 this

/-- The whole message. -/
theorem prr_at {blk b} (m : Request) (h : m.Valid) (hf : ∀ e, m.capability = some e → ∀ y ∈ e.1 :: e.2, y.further ≤ 3) (h2 : m.noType2)
    (hat : blk = m.bits ++ b) (hl : m.bits.length ≤ 184) :
    ∃ r d', decItems blk Packet_Resource_Request_t 0 [] ⟨184, 0, fun _ => 0⟩ = .ok ⟨0, r, d'⟩ ∧
      whoAt d' [Packet_Resource_Request_t.ID] = whoOf m.name ∧ ClassesAt d' m.capability ∧ d' [Packet_Resource_Request_t.C_VALUE] = m.cValue ∧
      OptAt d' [Packet_Resource_Request_t.Exist_SIGN_VAR] [Packet_Resource_Request_t.SIGN_VAR] m.signVar ∧
      ∀ i, i < 8 → OptAt d' [InterferenceMeasurementReport_t.Exist, i, Packet_Resource_Request_t.I_LEVEL_TN]
        [InterferenceMeasurementReport_t.I_LEVEL, i, Packet_Resource_Request_t.I_LEVEL_TN] (m.iLevel i) := by
  have hat0 : At blk 0 (m.bits ++ b) := hat
  clear hat
  have hbits : m.bits = (UlMsg.header m.spare m.retry 5 ++ opt (m.access.map (put 2))) ++ (m.name.bits ++ (opt (m.capability.map fun x => RaCap.bits x.1 x.2)
    ++ ((m.request.bits ++ opt (m.changeMark.map (put 2))) ++ (put 6 m.cValue ++ (opt (m.signVar.map (put 6))
    ++ (slots (fun t => opt ((m.iLevel t).map (put 4))) ++ opt (m.additions.map R99.bits))))))) := by
    unfold Request.bits; simp only [List.append_assoc]
  rw [hbits] at hat0 hl
  simp only [List.append_assoc _ _ b] at hat0
  have st1 := head_step (blk := blk) m h
  have st2 := fun s b => name_at (blk := blk) (p := [Packet_Resource_Request_t.ID]) (b := b) (s := s) m.name h.2.2.1
  have st3 := fun s b => capability_at (blk := blk) (b := b) (s := s) m.capability h.2.2.2.1 hf
  have st4 := mid_step (blk := blk) m h
  have st6 := fun s b => optv_at (blk := blk) (p := []) (f := Packet_Resource_Request_t.Exist_SIGN_VAR) (g := Packet_Resource_Request_t.SIGN_VAR)
    (o := false) (n := false) (o2 := false) (is := prt 15) (b := b) (s := s) (w := 6) (x := m.signVar) h.2.2.2.2.2.2.2.1 (by decide) (by decide)
  have st7 := fun s b => slots_at (blk := blk) (p := []) (f := Packet_Resource_Request_t.I_LEVEL_TN) (d := InterferenceMeasurementReport_t)
    (is := prt 16) (g := fun t => opt ((m.iLevel t).map (put 4))) (s := s) (b := b)
    (Q := fun i d => OptAt d (InterferenceMeasurementReport_t.Exist :: i :: [Packet_Resource_Request_t.I_LEVEL_TN])
      (InterferenceMeasurementReport_t.I_LEVEL :: i :: [Packet_Resource_Request_t.I_LEVEL_TN]) (m.iLevel i))
    (fun _ => holds_local) (fun k s b hat hl => level_at (h.2.2.2.2.2.2.2.2.1 k) hat hl)
  have st8 := tail_step (blk := blk) m h h2
  generalize UlMsg.header m.spare m.retry 5 ++ opt (m.access.map (put 2)) = A at st1 hat0 hl
  generalize m.name.bits = B at st2 hat0 hl
  generalize (opt (m.capability.map fun x => RaCap.bits x.1 x.2)) = C at st3 hat0 hl
  generalize m.request.bits ++ opt (m.changeMark.map (put 2)) = D at st4 hat0 hl
  generalize opt (m.signVar.map (put 6)) = E at st6 hat0 hl
  generalize slots (fun t => opt ((m.iLevel t).map (put 4))) = F at st7 hat0 hl
  generalize opt (m.additions.map R99.bits) = G at st8 hat0 hl
  simp only [List.length_append, length_put] at hl
  obtain ⟨d1, e1, k1⟩ := st1 ⟨184, 0, fun _ => 0⟩ _ hat0 (by show (A.length : Int) ≤ 184; omega)
  have hat1 := hat0.step
  rw [Nat.zero_add] at hat1
  obtain ⟨d2, e2, w2, k2⟩ := st2 ⟨184 - A.length, A.length, d1⟩ _ hat1 (by show (B.length : Int) ≤ 184 - A.length; omega)
  have hat2 := hat1.step
  have z2 : ∀ q, d2 (q ++ [Packet_Resource_Request_t.MS_Radio_Access_capability2]) = 0 := by
    intro q
    rw [k2 _ ?_]
    · exact k1 _ (keep_last q (by decide))
    · intro g q' e
      have := congrArg List.getLast? e
      simp at this
      exact absurd this (by decide)
  obtain ⟨d3, e3, c3, k3⟩ := st3 ⟨184 - A.length - B.length, A.length + B.length, d2⟩ _ z2 hat2
    (by show (C.length : Int) ≤ 184 - A.length - B.length; omega)
  have hat3 := hat2.step
  obtain ⟨d4, e4, k4⟩ := st4 ⟨184 - A.length - B.length - C.length, A.length + B.length + C.length, d3⟩ _ hat3
    (by show (D.length : Int) ≤ 184 - A.length - B.length - C.length; omega)
  have hat4 := hat3.step
  have e5 := uint_at (blk := blk) (n := 6) (f := Packet_Resource_Request_t.C_VALUE) (o := false) (is := prt 13) (p := [])
    (s := ⟨184 - A.length - B.length - C.length - D.length, A.length + B.length + C.length + D.length, d4⟩) hat4 h.2.2.2.2.2.2.1
    (by show ((6 : Nat) : Int) ≤ 184 - A.length - B.length - C.length - D.length; omega)
  have hat5 := hat4.step
  rw [length_put] at hat5
  obtain ⟨d6, e6, c6, k6⟩ := st6 ⟨184 - A.length - B.length - C.length - D.length - (6 : Nat), A.length + B.length + C.length + D.length + 6,
    upd d4 [Packet_Resource_Request_t.C_VALUE] m.cValue⟩ _ hat5
    (by show (E.length : Int) ≤ 184 - A.length - B.length - C.length - D.length - (6 : Nat); omega)
  have hat6 := hat5.step
  obtain ⟨d7, e7, c7, k7⟩ := st7 ⟨184 - A.length - B.length - C.length - D.length - (6 : Nat) - E.length,
    A.length + B.length + C.length + D.length + 6 + E.length, d6⟩ _ hat6
    (by show (F.length : Int) ≤ 184 - A.length - B.length - C.length - D.length - (6 : Nat) - E.length; omega)
  have hat7 := hat6.step
  obtain ⟨d8, e8, k8⟩ := st8 ⟨184 - A.length - B.length - C.length - D.length - (6 : Nat) - E.length - F.length,
    A.length + B.length + C.length + D.length + 6 + E.length + F.length, d7⟩ _ hat7
    (by show (G.length : Int) ≤ 184 - A.length - B.length - C.length - D.length - (6 : Nat) - E.length - F.length; omega)
  -- what later parts leave alone
  have k78 : ∀ q f, f ∈ Looked → f ≠ Packet_Resource_Request_t.I_LEVEL_TN → d8 (q ++ [f]) = d6 (q ++ [f]) := by
    intro q f hf hne
    refine (k8 _ (keep_last q hf)).trans (k7 _ ?_)
    intro g q' e
    have := congrArg List.getLast? e
    simp at this
    exact absurd this hne
  have k58 : ∀ q f, f ∈ Looked → f ≠ Packet_Resource_Request_t.I_LEVEL_TN → f ≠ Packet_Resource_Request_t.C_VALUE →
      f ≠ Packet_Resource_Request_t.Exist_SIGN_VAR → f ≠ Packet_Resource_Request_t.SIGN_VAR → d8 (q ++ [f]) = d4 (q ++ [f]) := by
    intro q f hf h1 h2 h3 h4
    have nn : ∀ g, f ≠ g → q ++ [f] ≠ [g] := by
      intro g hg e
      have := congrArg List.getLast? e
      simp at this
      exact hg this
    rw [k78 q f hf h1, k6 _ (nn _ h3) (nn _ h4)]
    dsimp only
    unfold upd
    rw [if_neg (nn _ h2)]
  have k48 : ∀ q f, f ∈ Looked → f ≠ Packet_Resource_Request_t.I_LEVEL_TN → f ≠ Packet_Resource_Request_t.C_VALUE →
      f ≠ Packet_Resource_Request_t.Exist_SIGN_VAR → f ≠ Packet_Resource_Request_t.SIGN_VAR → d8 (q ++ [f]) = d3 (q ++ [f]) := by
    intro q f hf h1 h2 h3 h4
    rw [k58 q f hf h1 h2 h3 h4, k4 _ (keep_last q hf)]
  refine ⟨A.length + B.length + C.length + D.length + 6 + E.length + F.length + G.length, d8, ?_, ?_, ?_, ?_, ?_, ?_⟩
  · rw [e1]
    show decItems blk (.cons (.type PacketResourceRequestID_t Packet_Resource_Request_t.ID false) (prt 7)) 0 [] ⟨184 - A.length, 0 + A.length, d1⟩ = _
    rw [Nat.zero_add, decItems, decItem, if_neg (by simp), if_neg (show ¬ (184 : Int) - A.length < 0 by omega), e2]
    dsimp only [R.bind]
    rw [if_neg (by omega), e3, e4]
    refine e5.trans ?_
    refine e6.trans ?_
    refine e7.trans ?_
    rw [e8, decItems, decItem]
    dsimp only [R.bind]
    rw [if_neg (by decide), decItems]
  · refine whoAt_local d2 d8 (fun q => ?_) w2
    rw [k48 q _ (by decide) (by decide) (by decide) (by decide) (by decide), k3 q _ (by decide) (by decide)]
  · exact classes_keep (k48 [] _ (by decide) (by decide) (by decide) (by decide) (by decide))
      (fun r => k48 r _ (by decide) (by decide) (by decide) (by decide) (by decide)) c3
  · refine (k78 [] _ (by decide) (by decide)).trans ((k6 _ (by decide) (by decide)).trans ?_)
    dsimp only
    unfold upd; exact if_pos rfl
  · have a1 := k78 [] Packet_Resource_Request_t.Exist_SIGN_VAR (by decide) (by decide)
    have a2 := k78 [] Packet_Resource_Request_t.SIGN_VAR (by decide) (by decide)
    revert c6
    cases m.signVar with
    | none => exact fun c6 => a1.trans c6
    | some v => exact fun c6 => ⟨a1.trans c6.1, a2.trans c6.2⟩
  · intro i hi
    have := c7 i hi
    have a1 := k8 ([InterferenceMeasurementReport_t.Exist, i] ++ [Packet_Resource_Request_t.I_LEVEL_TN]) (keep_last _ (by decide))
    have a2 := k8 ([InterferenceMeasurementReport_t.I_LEVEL, i] ++ [Packet_Resource_Request_t.I_LEVEL_TN]) (keep_last _ (by decide))
    revert this
    cases m.iLevel i with
    | none => exact fun c => a1.trans c
    | some v => exact fun c => ⟨a1.trans c.1, a2.trans c.2⟩

end Verif.Csn1
