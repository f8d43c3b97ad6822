import Verif.Lemmas.Csn1Step
import Verif.Model.RaCap
import Verif.Lemmas.Csn1Safe
import Verif.Spec.RaCap
/-!
# Reading a radio access capability
-/

namespace Verif.RaCap

open Verif.Csn1 Verif.Csn1.T
open Verif.Bits (put length_put)
open Verif.UlMsg (opt bit)

/-- The members of the structure that say something about classes. -/
abbrev Kept : List Nat := [Content_t.Exist_Multislot_capability, Content_t.Multislot_capability]

/-- Part of the table. -/
abbrev tab (k : Nat) : Items := Content_t.dropI k

theorem r99_step {blk p} (r : R99) (h : r.Valid) : Step blk p Kept r.bits (tab 9) (tab 16) := by
  refine .trans (.opt (by decide) (fun _ _ => put_ne (by decide)) fun y hy => .uint (h y hy) (by decide)) ?_
  refine .trans (.flag (by decide)) <| .trans (.flag (by decide)) <| .trans (.flag (by decide)) <| .trans (.flag (by decide)) <| .flag (by decide)

theorem r4_step {blk p} (r : R4) (h : r.Valid) : Step blk p Kept r.bits (tab 16) (tab 22) := by
  refine .trans (.flag (by decide)) <| .trans (.flag (by decide)) <| .trans (.opt (by decide) (fun _ _ => by simp [put]) fun y hy => ?_) <|
    .flag (by decide)
  exact .trans (.uint (h y hy).1 (by decide)) (.uint (h y hy).2 (by decide))

theorem r5_step {blk p} (r : R5) (h : r.Valid) : Step blk p Kept r.bits (tab 22) (tab 28) := by
  refine .trans (.opt (by decide) (fun _ _ => put_ne (by decide)) fun y hy => .uint (h.1 y hy) (by decide)) ?_
  refine .trans (.opt (by decide) (fun _ _ => put_ne (by decide)) fun y hy => .uint (h.2.1 y hy) (by decide)) ?_
  exact .trans (.uint h.2.2.1 (by decide)) (.uint h.2.2.2 (by decide))

theorem r6_step {blk p} (r : R6) (h : r.Valid) : Step blk p Kept r.bits (tab 28) (tab 36) := by
  refine .trans (.flag (by decide)) <| .trans (.uint h.1 (by decide)) <| .trans (.flag (by decide)) <| .trans (.flag (by decide)) <|
    .trans (.opt (by decide) (fun _ _ => by simp [put]) fun y hy => ?_) <| .flag (by decide)
  refine .trans (.uint (h.2 y hy).1 (by decide)) ?_
  refine .type (by decide) (opt_ne _ _) ?_
  exact .opt (by decide) (fun _ _ => put_ne (by decide)) fun z hz => .uint ((h.2 y hy).2 z hz) (by decide)

theorem r7_step {blk p} (r : R7) (h : r.Valid) : Step blk p Kept r.bits (tab 36) (tab 45) := by
  refine .trans (.flag (by decide)) <| .trans (.opt (by decide) (fun _ _ => by simp [put]) fun y hy => ?_) <| .trans (.flag (by decide)) <|
    .trans (.flag (by decide)) <| .trans (.flag (by decide)) <|
    .trans (.flag (by decide)) <| .trans (.uint h.2.1 (by decide)) (.uint h.2.2 (by decide))
  refine .type (by decide) (by simp [put]) ?_
  exact .trans (.uint (h.1 y hy) (by decide)) (.flag (by decide))

theorem r8_step {blk p} (r : R8) (h : r.Valid) : Step blk p Kept r.bits (tab 45) .nil :=
  .trans (.flag (by decide)) <| .trans (.flag (by decide)) <| .trans (.uint h (by decide)) (.flag (by decide))

theorem base_step {blk p} (b : Base) (h : b.Valid) : Step blk p [] b.bits Content_t (tab 7) := by
  refine .trans (.uint h.1 (by decide)) ?_
  refine .trans (.opt (by decide) (fun _ _ => put_ne (by decide)) fun y hy => .uint (h.2 y hy) (by decide)) ?_
  exact .trans (.flag (by decide)) <| .trans (.flag (by decide)) <| .trans (.flag (by decide)) (.flag (by decide))

/-- The rest of the content is read, whatever the release of the mobile. -/
def Ends (blk : List Bool) (p : Path) (bits : List Bool) (is : Items) : Prop :=
  ∀ (s : S) (b : List Bool), At blk s.pos (bits ++ b) → s.rem = bits.length →
    ∃ m d', m ≤ bits.length ∧ decItems blk is 0 p s = .ok ⟨(m : Int), s.pos + (bits.length - m), d'⟩ ∧ ∀ q, Keep p Kept q → d' q = s.data q

theorem ends_spare {blk p n is} (h : is.nulls Kept 0 = true) : Ends blk p (spare n) is := by
  intro s b hat hr
  unfold spare at hat hr ⊢
  rw [List.length_replicate] at hr ⊢
  exact zero_items is 0 p s n b h hat hr

theorem ends_step {blk p a b is is'} (h1 : Step blk p Kept a is is') (h2 : Ends blk p b is') : Ends blk p (a ++ b) is := by
  intro s r hat hr
  rw [List.append_assoc] at hat
  rw [List.length_append] at hr
  obtain ⟨d1, e1, k1⟩ := h1 s _ hat (by omega)
  obtain ⟨m, d2, hm, e2, k2⟩ := h2 ⟨s.rem - a.length, s.pos + a.length, d1⟩ r hat.step (by show s.rem - _ = _; omega)
  refine ⟨m, d2, by rw [List.length_append]; omega, ?_, fun q hq => (k2 q hq).trans (k1 q hq)⟩
  rw [e1, e2, List.length_append]
  congr 2
  show s.pos + a.length + (b.length - m) = _
  omega

theorem ends_nil {blk p l} : Ends blk p l .nil := by
  intro s b _ hr
  refine ⟨l.length, s.data, Nat.le_refl _, ?_, fun _ _ => rfl⟩
  rw [decItems, Nat.sub_self, ← hr]
  rfl

theorem after7 {blk p} (a : After7) (h : a.Valid) : Ends blk p a.bits (tab 45) := by
  cases a with
  | spare n => exact ends_spare (by decide)
  | r8 r l => exact ends_step (r8_step r h) ends_nil

theorem after6 {blk p} (a : After6) (h : a.Valid) : Ends blk p a.bits (tab 36) := by
  cases a with
  | spare n => exact ends_spare (by decide)
  | r7 r a => exact ends_step (r7_step r h.1) (after7 a h.2)

theorem after5 {blk p} (a : After5) (h : a.Valid) : Ends blk p a.bits (tab 28) := by
  cases a with
  | spare n => exact ends_spare (by decide)
  | r6 r a => exact ends_step (r6_step r h.1) (after6 a h.2)

theorem after4 {blk p} (a : After4) (h : a.Valid) : Ends blk p a.bits (tab 22) := by
  cases a with
  | spare n => exact ends_spare (by decide)
  | r5 r a => exact ends_step (r5_step r h.1) (after5 a h.2)

theorem after99 {blk p} (a : After99) (h : a.Valid) : Ends blk p a.bits (tab 16) := by
  cases a with
  | spare n => exact ends_spare (by decide)
  | r4 r a => exact ends_step (r4_step r h.1) (after4 a h.2)

/-! ## Multislot capability -/

/-- An optional member and whether it is there. -/
def Member (d : Data) (e v : Path) (o : Option Nat) : Prop :=
  match o with
  | none => d e = 0
  | some x => d e = 1 ∧ d v = x

theorem Member.keep {d d' : Data} {e v o} (h : Member d e v o) (he : d' e = d e) (hv : d' v = d v) : Member d' e v o := by
  cases o with
  | none => exact he.trans h
  | some x => exact ⟨he.trans h.1, hv.trans h.2⟩

abbrev mg : List Nat := [Multislot_capability_t.Exist_GPRS_multislot_class, Multislot_capability_t.GPRS_multislot_class]
abbrev me : List Nat := [Multislot_capability_t.Exist_EGPRS_multislot_class, Multislot_capability_t.EGPRS_multislot_class]

abbrev mtab (k : Nat) : Items := Multislot_capability_t.dropI k

/-- A class with the bit for extended dynamic allocation. -/
theorem class_at {blk p f g h n is b} {x : Option (Nat × Bool)} {s : S} (hx : ∀ v, x = some v → v.1 < 32) (hfg : f ≠ g) (hfh : f ≠ h) (hgh : g ≠ h)
    (hat : At blk s.pos (opt (x.map fun x => put 5 x.1 ++ bit x.2) ++ b)) (hl : ((opt (x.map fun x => put 5 x.1 ++ bit x.2)).length : Int) ≤ s.rem) :
    ∃ d', decItems blk (.opt f true n 2 <| .cons (.uint 5 g false) <| .cons (.uint 1 h false) is) 0 p s =
        decItems blk is 0 p ⟨s.rem - (opt (x.map fun x => put 5 x.1 ++ bit x.2)).length, s.pos + (opt (x.map fun x => put 5 x.1 ++ bit x.2)).length, d'⟩ ∧
      (∀ q, q ≠ f :: p → q ≠ g :: p → q ≠ h :: p → d' q = s.data q) ∧ Member d' (f :: p) (g :: p) (x.map (·.1)) := by
  cases x with
  | none =>
    refine ⟨_, opt_absent hat hl, ?_, ?_⟩
    · intro q h1 _ _
      unfold upd
      rw [if_neg h1]
    · show upd _ _ _ _ = _
      unfold upd
      rw [if_pos rfl]
  | some v =>
    obtain ⟨c, e⟩ := v
    have hc : c < 2 ^ 5 := hx _ rfl
    have hat' : At blk s.pos (true :: (put 5 c ++ (put 1 e.toNat ++ b))) := by
      rw [put_bit]
      have : opt (Option.map (fun x : Nat × Bool => put 5 x.1 ++ bit x.2) (some (c, e))) ++ b = true :: (put 5 c ++ (bit e ++ b)) := by
        simp [opt]
      rw [← this]; exact hat
    have hlen : (opt (Option.map (fun x : Nat × Bool => put 5 x.1 ++ bit x.2) (some (c, e)))).length = 7 := by simp [opt, bit, length_put]
    rw [hlen] at hl ⊢
    have h1 := hat'.next
    have h2 := h1.step
    rw [length_put] at h2
    refine ⟨upd (upd (upd s.data (f :: p) 1) (g :: p) c) (h :: p) e.toNat, ?_, ?_, ?_⟩
    · rw [opt_present hat' (by omega), uint_at h1 hc (by show _ ≤ s.rem - 1; omega),
        uint_at h2 (by cases e <;> decide) (by show _ ≤ s.rem - 1 - _; omega)]
      congr 2
      · dsimp only; omega
    · intro q h1 h2 h3
      dsimp only [upd]
      rw [if_neg h3, if_neg h2, if_neg h1]
    · dsimp only [Member, Option.map_some, upd]
      refine ⟨?_, ?_⟩
      · rw [if_neg (by simp [hfh]), if_neg (by simp [hfg]), if_pos rfl]
      · rw [if_neg (by simp [hgh]), if_pos rfl]

theorem keep_other {p : Path} {f g h : Nat} {q : Path} (hq : Keep p [] q) : q ≠ f :: p ∧ q ≠ g :: p ∧ q ≠ h :: p :=
  ⟨hq.ne List.not_mem_nil, hq.ne List.not_mem_nil, hq.ne List.not_mem_nil⟩

/-- The part of release 97. -/
theorem slots_at {blk p b} {s : S} (m : Slots) (h : m.Valid) (hat : At blk s.pos (m.bits ++ b)) (hl : (m.bits.length : Int) ≤ s.rem) :
    ∃ d', decItems blk Multislot_capability_t 0 p s = decItems blk (mtab 8) 0 p ⟨s.rem - m.bits.length, s.pos + m.bits.length, d'⟩ ∧
      (∀ q, Keep p [] q → d' q = s.data q) ∧
      Member d' (Multislot_capability_t.Exist_GPRS_multislot_class :: p) (Multislot_capability_t.GPRS_multislot_class :: p) (m.gprs.map (·.1)) := by
  unfold Slots.bits at hat hl ⊢
  rw [List.append_assoc, List.append_assoc] at hat
  rw [List.length_append, List.length_append] at hl
  have s1 : Step blk p [] (opt (m.hscsd.map (put 5))) Multislot_capability_t (mtab 2) :=
    .opt (by decide) (fun _ _ => put_ne (by decide)) fun y hy => .uint (h.1 y hy) (by decide)
  have s3 : Step blk p mg (opt (m.sm.map fun x => put 4 x.1 ++ put 4 x.2)) (mtab 5) (mtab 8) :=
    .opt (by decide) (fun _ _ => by simp [put]) fun y hy => .trans (.uint (h.2.2 y hy).1 (by decide)) (.uint (h.2.2 y hy).2 (by decide))
  obtain ⟨d1, e1, k1⟩ := s1 s _ hat (by omega)
  have h1 := hat.step
  obtain ⟨d2, e2, k2, m2⟩ := class_at (s := ⟨s.rem - (opt (m.hscsd.map (put 5))).length, s.pos + (opt (m.hscsd.map (put 5))).length, d1⟩) (p := p)
    (f := Multislot_capability_t.Exist_GPRS_multislot_class) (g := Multislot_capability_t.GPRS_multislot_class)
    (h := Multislot_capability_t.GPRS_Extended_Dynamic_Allocation_Capability) (n := false) (is := mtab 5) h.2.1 (by decide) (by decide) (by decide) h1
    (by show _ ≤ s.rem - _; omega)
  have h2 := h1.step
  obtain ⟨d3, e3, k3⟩ := s3 ⟨_, _, d2⟩ _ h2 (by show _ ≤ s.rem - ((opt (m.hscsd.map (put 5))).length : Int) - (opt (m.gprs.map fun x => put 5 x.1 ++ bit x.2)).length; omega)
  refine ⟨d3, ?_, ?_, ?_⟩
  · rw [e1]
    refine e2.trans (e3.trans ?_)
    rw [List.length_append, List.length_append]
    congr 2 <;> (dsimp only; omega)
  · intro q hq
    obtain ⟨a1, a2, a3⟩ := keep_other (f := Multislot_capability_t.Exist_GPRS_multislot_class) (g := Multislot_capability_t.GPRS_multislot_class)
      (h := Multislot_capability_t.GPRS_Extended_Dynamic_Allocation_Capability) hq
    exact (k3 q (hq.mono fun f hf => absurd hf List.not_mem_nil)).trans ((k2 q a1 a2 a3).trans (k1 q hq))
  · exact m2.keep (k3 _ (keep_member (by decide))) (k3 _ (keep_member (by decide)))

/-- The part of release 99. -/
theorem slots99_at {blk p b} {s : S} (m : Slots99) (h : m.Valid) (hat : At blk s.pos (m.bits ++ b)) (hl : (m.bits.length : Int) ≤ s.rem) :
    ∃ d', decItems blk (mtab 8) 0 p s = .ok ⟨s.rem - m.bits.length, s.pos + m.bits.length, d'⟩ ∧
      (∀ q, Keep p mg q → d' q = s.data q) ∧
      Member d' (Multislot_capability_t.Exist_EGPRS_multislot_class :: p) (Multislot_capability_t.EGPRS_multislot_class :: p) (m.egprs.map (·.1)) := by
  unfold Slots99.bits at hat hl ⊢
  rw [List.append_assoc, List.append_assoc] at hat
  rw [List.length_append, List.length_append] at hl
  have s1 : Step blk p mg (opt (m.ecsd.map (put 5))) (mtab 8) (mtab 10) :=
    .opt (by decide) (fun _ _ => put_ne (by decide)) fun y hy => .uint (h.1 y hy) (by decide)
  have s3 : Step blk p (mg ++ me) (opt (m.dtm.map fun x => put 2 x.1 ++ (bit x.2.1 ++ opt (x.2.2.map (put 2))))) (mtab 13) .nil := by
    refine .opt (by decide) (fun _ _ => by simp [put]) fun y hy => .trans (.uint (h.2.2 y hy).1 (by decide)) <| .trans (.flag (by decide)) ?_
    refine .type (by decide) (opt_ne _ _) ?_
    exact .opt (by decide) (fun _ _ => put_ne (by decide)) fun z hz => .uint ((h.2.2 y hy).2 z hz) (by decide)
  obtain ⟨d1, e1, k1⟩ := s1 s _ hat (by omega)
  have h1 := hat.step
  obtain ⟨d2, e2, k2, m2⟩ := class_at (s := ⟨s.rem - (opt (m.ecsd.map (put 5))).length, s.pos + (opt (m.ecsd.map (put 5))).length, d1⟩) (p := p)
    (f := Multislot_capability_t.Exist_EGPRS_multislot_class) (g := Multislot_capability_t.EGPRS_multislot_class)
    (h := Multislot_capability_t.EGPRS_Extended_Dynamic_Allocation_Capability) (n := false) (is := mtab 13) h.2.1 (by decide) (by decide) (by decide) h1
    (by show _ ≤ s.rem - _; omega)
  have h2 := h1.step
  obtain ⟨d3, e3, k3⟩ := s3 ⟨_, _, d2⟩ _ h2 (by show _ ≤ s.rem - ((opt (m.ecsd.map (put 5))).length : Int) - (opt (m.egprs.map fun x => put 5 x.1 ++ bit x.2)).length; omega)
  refine ⟨d3, ?_, ?_, ?_⟩
  · rw [e1]
    refine e2.trans (e3.trans ?_)
    rw [decItems, List.length_append, List.length_append]
    congr 2 <;> (dsimp only; omega)
  · intro q hq
    refine (k3 q (hq.mono fun f hf => List.mem_append_left _ hf)).trans ((k2 q (hq.ne (by decide)) (hq.ne (by decide)) (hq.ne (by decide))).trans (k1 q hq))
  · exact m2.keep (k3 _ (keep_member (by decide))) (k3 _ (keep_member (by decide)))

/-- The part of release 99 when only spare bits are left. -/
theorem slots99_zero {blk p b n} {s : S} (hat : At blk s.pos (List.replicate n false ++ b)) (hr : s.rem = n) :
    ∃ m d', m ≤ n ∧ decItems blk (mtab 8) 0 p s = .ok ⟨(m : Int), s.pos + (n - m), d'⟩ ∧
      (∀ q, Keep p mg q → d' q = s.data q) ∧ d' (Multislot_capability_t.Exist_EGPRS_multislot_class :: p) = 0 ∧
      At blk (s.pos + (n - m)) (List.replicate m false ++ b) := by
  obtain ⟨m1, l1, e1, a1⟩ := zero_opt (p := p) (f := Multislot_capability_t.Exist_ECSD_multislot_class) (x := false) (k := 1) (is := mtab 9) hat hr
  obtain ⟨m2, l2, e2, a2⟩ := zero_opt (s := ⟨m1, s.pos + (n - m1), upd s.data (Multislot_capability_t.Exist_ECSD_multislot_class :: p) 0⟩)
    (p := p) (f := Multislot_capability_t.Exist_EGPRS_multislot_class) (x := false) (k := 2) (is := mtab 11) a1 rfl
  obtain ⟨m3, d3, l3, e3, k3⟩ := zero_items (M := Multislot_capability_t.Exist_EGPRS_multislot_class :: mg) (mtab 13) 0 p ⟨_, _, _⟩ m2 b (by decide) a2 rfl
  refine ⟨m3, d3, by omega, ?_, ?_, ?_, ?_⟩
  · refine e1.trans (e2.trans (e3.trans ?_))
    congr 2
    dsimp only
    omega
  · intro q hq
    rw [k3 q (hq.mono fun f hf => List.mem_cons_of_mem _ hf)]
    dsimp only
    rw [upd_keep hq (by decide), upd_keep hq (by decide)]
  · rw [k3 _ (keep_member List.mem_cons_self)]
    dsimp only [upd]
    rw [if_pos rfl]
  · have : List.replicate m2 false ++ b = List.replicate (m2 - m3) false ++ (List.replicate m3 false ++ b) := by
      rw [← List.append_assoc, List.replicate_append_replicate]
      congr 2
      omega
    rw [this] at a2
    have a3 := a2.step
    rw [List.length_replicate] at a3
    rw [show s.pos + (n - m3) = s.pos + (n - m1) + (m1 - m2) + (m2 - m3) by omega]
    exact a3

/-! ## Access capabilities -/

/-- The structure at `p` states the classes. -/
def Says (d : Data) (p : Path) (g e : Option Nat) : Prop :=
  (d (Content_t.Exist_Multislot_capability :: p) = 0 ∧ g = none ∧ e = none) ∨
  (d (Content_t.Exist_Multislot_capability :: p) = 1 ∧
    Member d (Multislot_capability_t.Exist_GPRS_multislot_class :: Content_t.Multislot_capability :: p)
      (Multislot_capability_t.GPRS_multislot_class :: Content_t.Multislot_capability :: p) g ∧
    Member d (Multislot_capability_t.Exist_EGPRS_multislot_class :: Content_t.Multislot_capability :: p)
      (Multislot_capability_t.EGPRS_multislot_class :: Content_t.Multislot_capability :: p) e)

theorem Says.keep {d d' : Data} {p g e} (h : Says d p g e) (k : ∀ q, Keep p Kept q → d' q = d q) : Says d' p g e := by
  rcases h with ⟨a, b, c⟩ | ⟨a, b, c⟩
  · exact .inl ⟨(k _ (keep_member (by decide))).trans a, b, c⟩
  · exact .inr ⟨(k _ (keep_member (by decide))).trans a, b.keep (k _ (keep_sub (by decide))) (k _ (keep_sub (by decide))),
      c.keep (k _ (keep_sub (by decide))) (k _ (keep_sub (by decide)))⟩

theorem keep_up {p : Path} {f : Nat} {M q} (h : Keep p [] q) : Keep (f :: p) M q := by
  intro g q' e
  exact absurd (h f (q' ++ [g]) (by rw [e, List.append_assoc]; rfl)) List.not_mem_nil

theorem keep_down {p : Path} {f : Nat} : Keep (f :: p) [] (Content_t.Exist_Multislot_capability :: p) := by
  intro g q' e
  have := congrArg List.length e
  rw [List.length_append, List.length_cons, List.length_cons, List.length_cons] at this
  omega

theorem content_at {blk p b} {s : S} (c : Content) (hc : c.Valid) (hat : At blk s.pos (c.bits ++ b)) (hr : s.rem = c.bits.length) :
    ∃ m d', m ≤ c.bits.length ∧ decItems blk Content_t 0 p s = .ok ⟨(m : Int), s.pos + (c.bits.length - m), d'⟩ ∧
      (∀ q, Keep p [] q → d' q = s.data q) ∧ Says d' p c.gprs c.egprs := by
  cases c with
  | r97 bs x n =>
    unfold Content.bits at hat hr ⊢
    rw [List.append_assoc, List.append_assoc] at hat
    rw [List.length_append, List.length_append] at hr ⊢
    have hsp : (spare n).length = n := List.length_replicate ..
    obtain ⟨d1, e1, k1⟩ := base_step (blk := blk) (p := p) bs hc.1 s _ hat (by omega)
    have h1 := hat.step
    rw [e1]
    cases x with
    | none =>
      have h1' : At blk (s.pos + bs.bits.length) (List.replicate (n + 1) false ++ b) := h1
      have ho : (opt (Option.map Slots.bits none)).length = 1 := rfl
      rw [ho] at hr ⊢
      have o := opt_absent (p := p) (f := Content_t.Exist_Multislot_capability) (o := true) (n := false) (k := 1) (is := tab 8)
        (s := ⟨s.rem - bs.bits.length, s.pos + bs.bits.length, d1⟩) h1 (by show 1 ≤ s.rem - _; omega)
      obtain ⟨m, d2, hm, e2, k2⟩ := ends_spare (blk := blk) (p := p) (n := n) (is := tab 9) (by decide)
        ⟨s.rem - bs.bits.length - 1, s.pos + bs.bits.length + 1, upd d1 (Content_t.Exist_Multislot_capability :: p) 0⟩ b h1.step
        (by show s.rem - _ - 1 = _; omega)
      refine ⟨m, d2, by omega, ?_, ?_, ?_⟩
      · refine o.trans (e2.trans ?_)
        congr 2
        dsimp only
        omega
      · intro q hq
        rw [k2 q (hq.mono fun f hf => absurd hf List.not_mem_nil)]
        dsimp only
        rw [upd_keep hq List.not_mem_nil, k1 q hq]
      · refine .inl ⟨?_, rfl, rfl⟩
        rw [k2 _ (keep_member (by decide))]
        dsimp only [upd]
        rw [if_pos rfl]
    | some x =>
      have hx := hc.2 x rfl
      have ho : (opt (Option.map Slots.bits (some x))) = true :: x.bits := rfl
      have hxl : 0 < x.bits.length := by
        unfold Slots.bits
        rw [List.length_append]
        have := List.length_pos_iff.2 (opt_ne x.hscsd (put 5))
        omega
      rw [ho] at h1 hr ⊢
      rw [List.length_cons] at hr ⊢
      have o := opt_present (p := p) (f := Content_t.Exist_Multislot_capability) (o := true) (n := false) (k := 1) (is := tab 8)
        (s := ⟨s.rem - bs.bits.length, s.pos + bs.bits.length, d1⟩) h1 (by show 2 ≤ s.rem - _; omega)
      have h2 := At.next (l := x.bits ++ (spare n ++ b)) h1
      obtain ⟨d2, e2, k2, m2⟩ := slots_at (p := Content_t.Multislot_capability :: p)
        (s := ⟨s.rem - bs.bits.length - 1, s.pos + bs.bits.length + 1, upd d1 (Content_t.Exist_Multislot_capability :: p) 1⟩) x hx h2
        (by show _ ≤ s.rem - _ - 1; omega)
      have h3 := h2.step
      obtain ⟨m3, d3, l3, e3, k3, z3, a3⟩ := slots99_zero (p := Content_t.Multislot_capability :: p) (n := n) (b := b)
        (s := ⟨s.rem - bs.bits.length - 1 - x.bits.length, s.pos + bs.bits.length + 1 + x.bits.length, d2⟩) h3
        (by show s.rem - _ - 1 - _ = _; omega)
      obtain ⟨m4, d4, l4, e4, k4⟩ := ends_spare (blk := blk) (p := p) (n := m3) (is := tab 9) (by decide)
        ⟨(m3 : Int), s.pos + bs.bits.length + 1 + x.bits.length + (n - m3), d3⟩ b a3 (by show (m3 : Int) = _; simp [spare])
      have hm3 : (spare m3).length = m3 := List.length_replicate ..
      rw [hm3] at l4 e4
      have hems : d3 (Content_t.Exist_Multislot_capability :: p) = 1 := by
        rw [k3 _ (keep_down.mono fun f hf => absurd hf List.not_mem_nil)]
        dsimp only
        rw [k2 _ keep_down]
        dsimp only [upd]
        rw [if_pos rfl]
      refine ⟨m4, d4, by omega, ?_, ?_, ?_⟩
      · refine o.trans ?_
        show decItems blk (.cons (.type Multislot_capability_t Content_t.Multislot_capability false) (tab 9)) 0 p _ = _
        rw [decItems, decItem, if_neg (by simp), if_neg (show ¬ s.rem - (bs.bits.length : Int) - 1 < 0 by omega)]
        dsimp only
        rw [e2]
        dsimp only
        rw [e3]
        dsimp only [R.bind]
        rw [if_neg (by omega), e4]
        dsimp only
        congr 2
        omega
      · intro q hq
        rw [k4 q (hq.mono fun f hf => absurd hf List.not_mem_nil)]
        dsimp only
        rw [k3 q (keep_up hq)]
        dsimp only
        rw [k2 q (keep_up hq)]
        dsimp only
        rw [upd_keep hq List.not_mem_nil, k1 q hq]
      · refine Says.keep (.inr ⟨hems, ?_, z3⟩) k4
        exact m2.keep (k3 _ (keep_member (by decide))) (k3 _ (keep_member (by decide)))
  | r99 bs x r a =>
    unfold Content.bits at hat hr ⊢
    rw [List.append_assoc, List.append_assoc] at hat
    rw [List.length_append, List.length_append] at hr ⊢
    have hend : Ends blk p (r.bits ++ a.bits) (tab 9) := ends_step (r99_step r hc.2.2.1) (after99 a hc.2.2.2)
    obtain ⟨d1, e1, k1⟩ := base_step (blk := blk) (p := p) bs hc.1 s _ hat (by omega)
    have h1 := hat.step
    rw [e1]
    cases x with
    | none =>
      have ho : (opt (Option.map (fun x : Slots × Slots99 => x.1.bits ++ x.2.bits) none)).length = 1 := rfl
      rw [ho] at hr ⊢
      have o := opt_absent (p := p) (f := Content_t.Exist_Multislot_capability) (o := true) (n := false) (k := 1) (is := tab 8)
        (s := ⟨s.rem - bs.bits.length, s.pos + bs.bits.length, d1⟩) h1 (by show 1 ≤ s.rem - _; omega)
      obtain ⟨m, d2, hm, e2, k2⟩ := hend
        ⟨s.rem - bs.bits.length - 1, s.pos + bs.bits.length + 1, upd d1 (Content_t.Exist_Multislot_capability :: p) 0⟩ b h1.step
        (by show s.rem - _ - 1 = _; omega)
      refine ⟨m, d2, by omega, ?_, ?_, ?_⟩
      · refine o.trans (e2.trans ?_)
        congr 2
        dsimp only
        omega
      · intro q hq
        rw [k2 q (hq.mono fun f hf => absurd hf List.not_mem_nil)]
        dsimp only
        rw [upd_keep hq List.not_mem_nil, k1 q hq]
      · refine .inl ⟨?_, rfl, rfl⟩
        rw [k2 _ (keep_member (by decide))]
        dsimp only [upd]
        rw [if_pos rfl]
    | some x =>
      obtain ⟨x, y⟩ := x
      have hx := hc.2.1 _ rfl
      have ho : (opt (Option.map (fun x : Slots × Slots99 => x.1.bits ++ x.2.bits) (some (x, y)))) = true :: (x.bits ++ y.bits) := rfl
      have hxl : 0 < x.bits.length := by
        unfold Slots.bits
        rw [List.length_append]
        have := List.length_pos_iff.2 (opt_ne x.hscsd (put 5))
        omega
      rw [ho] at h1 hr ⊢
      rw [List.length_cons, List.length_append] at hr ⊢
      have o := opt_present (p := p) (f := Content_t.Exist_Multislot_capability) (o := true) (n := false) (k := 1) (is := tab 8)
        (s := ⟨s.rem - bs.bits.length, s.pos + bs.bits.length, d1⟩) h1 (by show 2 ≤ s.rem - _; omega)
      have h2 := At.next (l := x.bits ++ y.bits ++ (r.bits ++ a.bits ++ b)) h1
      rw [List.append_assoc] at h2
      obtain ⟨d2, e2, k2, m2⟩ := slots_at (p := Content_t.Multislot_capability :: p)
        (s := ⟨s.rem - bs.bits.length - 1, s.pos + bs.bits.length + 1, upd d1 (Content_t.Exist_Multislot_capability :: p) 1⟩) x hx.1 h2
        (by show _ ≤ s.rem - _ - 1; omega)
      have h3 := h2.step
      obtain ⟨d3, e3, k3, m3⟩ := slots99_at (p := Content_t.Multislot_capability :: p)
        (s := ⟨s.rem - bs.bits.length - 1 - x.bits.length, s.pos + bs.bits.length + 1 + x.bits.length, d2⟩) y hx.2 h3
        (by show _ ≤ s.rem - _ - 1 - _; omega)
      have h4 := h3.step
      obtain ⟨m4, d4, l4, e4, k4⟩ := hend
        ⟨s.rem - bs.bits.length - 1 - x.bits.length - y.bits.length, s.pos + bs.bits.length + 1 + x.bits.length + y.bits.length, d3⟩ b h4
        (by show s.rem - _ - 1 - _ - _ = _; omega)
      have hems : d3 (Content_t.Exist_Multislot_capability :: p) = 1 := by
        rw [k3 _ (keep_down.mono fun f hf => absurd hf List.not_mem_nil)]
        dsimp only
        rw [k2 _ keep_down]
        dsimp only [upd]
        rw [if_pos rfl]
      refine ⟨m4, d4, by omega, ?_, ?_, ?_⟩
      · refine o.trans ?_
        show decItems blk (.cons (.type Multislot_capability_t Content_t.Multislot_capability false) (tab 9)) 0 p _ = _
        rw [decItems, decItem, if_neg (by simp), if_neg (show ¬ s.rem - (bs.bits.length : Int) - 1 < 0 by omega)]
        dsimp only
        rw [e2]
        dsimp only
        rw [e3]
        dsimp only [R.bind]
        rw [if_neg (show ¬ s.rem - (bs.bits.length : Int) - 1 - x.bits.length - y.bits.length < 0 by omega), e4]
        dsimp only
        congr 2
        omega
      · intro q hq
        rw [k4 q (hq.mono fun f hf => absurd hf List.not_mem_nil)]
        dsimp only
        rw [k3 q (keep_up hq)]
        dsimp only
        rw [k2 q (keep_up hq)]
        dsimp only
        rw [upd_keep hq List.not_mem_nil, k1 q hq]
      · refine Says.keep (.inr ⟨hems, ?_, m3⟩) k4
        exact m2.keep (k3 _ (keep_member (by decide))) (k3 _ (keep_member (by decide)))

/-! ## Entries -/

theorem alt_skip {blk : List Bool} {bits v i as k f p s} {w : Nat} (hr : readField blk s.pos bits = (w, s.pos + bits)) (hw : w ≠ v) :
    decAlts blk (.cons bits v i as) k f p s = decAlts blk as (k + 1) f p s := by
  rw [decAlts, hr]
  dsimp only
  rw [if_neg hw, Nat.add_sub_cancel]

theorem alt_take {blk : List Bool} {bits v i as k f p s} (hr : readField blk s.pos bits = (v, s.pos + bits)) (hl : (bits : Int) ≤ s.rem) :
    decAlts blk (.cons bits v i as) k f p s =
      (decItem blk i p ⟨s.rem - bits, s.pos + bits, upd s.data (f :: p) k⟩).bind fun s' => if s'.rem < 0 then .err else .ok s' := by
  rw [decAlts, hr]
  dsimp only
  rw [if_pos rfl, if_neg (by omega)]

theorem alts_access {blk f p s t l} (ht : t ≤ 13) (hat : At blk s.pos (put 4 t ++ l)) (hl : 4 ≤ s.rem) :
    decAlts blk MS_RA_capability_value_Choice 0 f p s =
      (decItem blk (.serialize 7 [MS_RA_capability_value_t.u_Content] Content_t) p ⟨s.rem - 4, s.pos + 4, upd s.data (f :: p) t⟩).bind
        fun s' => if s'.rem < 0 then .err else .ok s' := by
  have hr : readField blk s.pos 4 = (t, s.pos + 4) := hat.read (by omega)
  have : t = 0 ∨ t = 1 ∨ t = 2 ∨ t = 3 ∨ t = 4 ∨ t = 5 ∨ t = 6 ∨ t = 7 ∨ t = 8 ∨ t = 9 ∨ t = 10 ∨ t = 11 ∨ t = 12 ∨ t = 13 := by omega
  unfold MS_RA_capability_value_Choice
  rcases this with rfl | rfl | rfl | rfl | rfl | rfl | rfl | rfl | rfl | rfl | rfl | rfl | rfl | rfl <;>
    (repeat rw [alt_skip hr (by decide)]) <;> exact alt_take hr (by omega)

theorem alts_additional {blk f p s l} (hat : At blk s.pos (put 4 15 ++ l)) (hl : 4 ≤ s.rem) :
    decAlts blk MS_RA_capability_value_Choice 0 f p s =
      (decItem blk (.serialize 7 [MS_RA_capability_value_t.u_Additional_access_technologies] Additional_access_technologies_t) p
        ⟨s.rem - 4, s.pos + 4, upd s.data (f :: p) 14⟩).bind fun s' => if s'.rem < 0 then .err else .ok s' := by
  have hr : readField blk s.pos 4 = (15, s.pos + 4) := hat.read (by decide)
  unfold MS_RA_capability_value_Choice
  (repeat rw [alt_skip hr (by decide)])
  exact alt_take hr (by omega)

/-- A part with its length: what the table does not know is skipped. -/
theorem serialize_at {blk p fs d b} {s : S} {body : List Bool} (hat : At blk s.pos (put 7 body.length ++ (body ++ b)))
    (hl : 7 + (body.length : Int) ≤ s.rem) (h0 : 0 < body.length) (h1 : body.length < 128) {m : Nat} {d' : Data} (hm : m ≤ body.length)
    (h : decItems blk d 0 (fs ++ p) ⟨(body.length : Int), s.pos + 7, s.data⟩ = .ok ⟨(m : Int), s.pos + 7 + (body.length - m), d'⟩) :
    decItem blk (.serialize 7 fs d) p s = .ok ⟨s.rem - 7 - body.length, s.pos + 7 + body.length, d'⟩ := by
  rw [decItem, hat.read (by omega)]
  dsimp only
  rw [Nat.mod_eq_of_lt (by omega), if_pos h0, if_neg (by omega), h]
  dsimp only [R.bind]
  rw [if_pos h0, Int.toNat_natCast]
  congr 2
  omega

theorem keep_index {r : Path} {k j : Nat} (q1 : Path) (h : k ≠ j) : Keep (k :: r) [] (q1 ++ j :: r) := by
  intro f q' e
  have e' : (q1 ++ [j]) ++ r = ((q' ++ [f]) ++ [k]) ++ r := by simpa using e
  have := List.append_cancel_right e'
  have := congrArg List.getLast? this
  simp at this
  exact absurd this.symm h

/-- One of the further technologies. -/
theorem further_at {blk p b} {s : S} (x : Nat × Nat × Nat) (hx : x.1 < 16 ∧ x.2.1 < 8 ∧ x.2.2 < 4)
    (hat : At blk s.pos (put 4 x.1 ++ (put 3 x.2.1 ++ put 2 x.2.2) ++ b)) (hl : 9 ≤ s.rem) :
    ∃ d', decItems blk Additional_access_technologies_struct_t 0 p s = .ok ⟨s.rem - 9, s.pos + 9, d'⟩ ∧ ∀ q, Keep p [] q → d' q = s.data q := by
  have st : Step blk p [] (put 4 x.1 ++ (put 3 x.2.1 ++ put 2 x.2.2)) Additional_access_technologies_struct_t .nil :=
    .trans (.uint hx.1 (by decide)) <| .trans (.uint hx.2.1 (by decide)) (.uint hx.2.2 (by decide))
  have hlen : (put 4 x.1 ++ (put 3 x.2.1 ++ put 2 x.2.2)).length = 9 := by simp [length_put]
  obtain ⟨d', e, k⟩ := st s b hat (by rw [hlen]; omega)
  rw [hlen, decItems] at e
  exact ⟨d', e, k⟩

abbrev furtherBits (l : List (Nat × Nat × Nat)) : List Bool := l.flatMap fun x => true :: (put 4 x.1 ++ (put 3 x.2.1 ++ put 2 x.2.2))

theorem furtherBits_length : ∀ l, (furtherBits l).length = 10 * l.length
  | [] => rfl
  | x :: l => by
    have := furtherBits_length l
    unfold furtherBits at this ⊢
    rw [List.flatMap_cons, List.length_append, this]
    simp [length_put]
    omega

theorem next_at {blk : List Bool} {s : S} {v l} (h : At blk s.pos (v :: l)) : nextElement blk s = (v, ⟨s.rem - 1, s.pos + 1, s.data⟩) := by
  unfold nextElement
  rw [getD_at h]

theorem further_loop {blk r cq b} : ∀ (l : List (Nat × Nat × Nat)) (k fuel : Nat) (s : S), (∀ x ∈ l, x.1 < 16 ∧ x.2.1 < 8 ∧ x.2.2 < 4) →
    k + l.length ≤ 10 → l.length < fuel → At blk s.pos (furtherBits l ++ false :: b) → (10 * l.length + 1 : Int) ≤ s.rem →
    ∃ d', recLoop blk 10 (fun k s => if s.rem < 0 then .err else decItems blk Additional_access_technologies_struct_t 0 (k :: r) s) cq fuel k s =
        .ok ⟨s.rem - (10 * l.length + 1 : Nat), s.pos + (10 * l.length + 1), d'⟩ ∧
      ∀ q, (∀ i, k ≤ i → i < k + l.length → Keep (i :: r) [] q) → q ≠ cq → d' q = s.data q
  | _, _, 0, _, _, _, hf, _, _ => absurd hf (Nat.not_lt_zero _)
  | [], k, fuel + 1, s, _, _, _, hat, hl => by
    refine ⟨upd s.data cq (k % 256), ?_, ?_⟩
    · rw [recLoop, next_at (l := b) hat]
      dsimp only
      rw [if_neg (by decide)]
      simp
    · intro q _ hq
      unfold upd
      rw [if_neg hq]
  | x :: l, k, fuel + 1, s, hx, hk, hf, hat, hl => by
    rw [List.length_cons] at hk hf hl
    have hat' : At blk s.pos (true :: (put 4 x.1 ++ (put 3 x.2.1 ++ put 2 x.2.2) ++ (furtherBits l ++ false :: b))) := by
      have : furtherBits (x :: l) ++ false :: b = true :: (put 4 x.1 ++ (put 3 x.2.1 ++ put 2 x.2.2) ++ (furtherBits l ++ false :: b)) := by
        unfold furtherBits
        rw [List.flatMap_cons]
        simp
      rw [← this]; exact hat
    obtain ⟨d1, e1, k1⟩ := further_at (p := k :: r) (s := ⟨s.rem - 1, s.pos + 1, s.data⟩) x (hx x List.mem_cons_self) hat'.next (by show 9 ≤ s.rem - 1; omega)
    have h2 := hat'.next.step
    rw [show (put 4 x.1 ++ (put 3 x.2.1 ++ put 2 x.2.2)).length = 9 by simp [length_put]] at h2
    obtain ⟨d2, e2, k2⟩ := further_loop (cq := cq) (r := r) l (k + 1) fuel ⟨s.rem - 1 - 9, s.pos + 1 + 9, d1⟩ (fun y hy => hx y (List.mem_cons_of_mem _ hy)) (by omega)
      (by omega) h2 (by show _ ≤ s.rem - 1 - 9; omega)
    refine ⟨d2, ?_, ?_⟩
    · rw [recLoop, next_at hat']
      dsimp only
      rw [if_pos rfl, if_neg (by omega), if_neg (by omega), e1]
      dsimp only [R.bind]
      rw [if_neg (by omega), e2]
      dsimp only
      rw [List.length_cons]
      congr 2 <;> omega
    · intro q hq hc
      rw [k2 q (fun i h1 h2 => hq i (by omega) (by rw [List.length_cons]; omega)) hc]
      exact k1 q (hq k (Nat.le_refl _) (by rw [List.length_cons]; omega))

/-- The element at `q` states the classes. -/
def EntrySays (d : Data) (q : Path) (e : Entry) : Prop :=
  match e with
  | .access _ c => d (MS_RA_capability_value_t.IndexOfAccTech :: q) ≠ 14 ∧ Says d (MS_RA_capability_value_t.u_Content :: q) c.gprs c.egprs
  | .additional _ _ => d (MS_RA_capability_value_t.IndexOfAccTech :: q) = 14 ∧ additionalOctet d q 10 = 0 ∧ additionalOctet d q 18 = 0

theorem body_pos (e : Entry) : 0 < e.body.length := by
  cases e with
  | access t c =>
    unfold Entry.body
    cases c <;> unfold Content.bits Base.bits <;> simp only [List.length_append, length_put] <;> omega
  | additional l n =>
    unfold Entry.body
    rw [List.length_append, List.length_cons]
    omega

theorem entry_length (e : Entry) : e.bits.length = 11 + e.body.length := by
  unfold Entry.bits
  simp only [List.length_append, length_put]
  omega

theorem body_lt (e : Entry) (h : e.Valid) : e.body.length < 128 := by
  cases e with
  | access t c => exact h.2.2
  | additional l n =>
    unfold Entry.body
    rw [List.length_append, List.length_cons]
    have := furtherBits_length l
    unfold furtherBits at this
    rw [this]
    have : (spare n).length = n := List.length_replicate ..
    have := h.2
    omega

/-- An element of the array. -/
theorem entry_at {blk q b} {s : S} (e : Entry) (h : e.Valid) (hf : e.further ≤ 3) (hz : ∀ q1, s.data (q1 ++ q) = 0)
    (hat : At blk s.pos (e.bits ++ b)) (hl : (e.bits.length : Int) ≤ s.rem) :
    ∃ d', decItems blk MS_RA_capability_value_t 0 q s = .ok ⟨s.rem - e.bits.length, s.pos + e.bits.length, d'⟩ ∧
      (∀ x, Keep q [] x → d' x = s.data x) ∧ EntrySays d' q e := by
  have hlen := entry_length e
  have hb0 := body_pos e
  have hb1 := body_lt e h
  rw [hlen] at hl
  unfold Entry.bits at hat
  rw [List.append_assoc, List.append_assoc] at hat
  have h1 := hat.step
  rw [length_put] at h1
  have h2 := h1.step
  rw [length_put] at h2
  unfold MS_RA_capability_value_t
  cases e with
  | access t c =>
    obtain ⟨m, d', hm, e1, k1, s1⟩ := content_at (p := MS_RA_capability_value_t.u_Content :: q) (b := b)
      (s := ⟨(c.bits.length : Int), s.pos + 4 + 7, upd s.data (MS_RA_capability_value_t.IndexOfAccTech :: q) t⟩) c h.2.1 h2 rfl
    have hs := serialize_at (p := q) (fs := [MS_RA_capability_value_t.u_Content]) (d := Content_t) (body := c.bits)
      (s := ⟨s.rem - 4, s.pos + 4, upd s.data (MS_RA_capability_value_t.IndexOfAccTech :: q) t⟩) h1
      (by show _ ≤ s.rem - 4; show 7 + ((Entry.access t c).body.length : Int) ≤ _; omega) hb0 hb1 hm e1
    refine ⟨d', ?_, ?_, ?_, s1⟩
    · rw [decItems, decItem, alts_access h.1 hat (by omega), hs]
      dsimp only [R.bind]
      have hneg : ¬ s.rem - 4 - 7 - (c.bits.length : Int) < 0 := by
        show ¬ s.rem - 4 - 7 - ((Entry.access t c).body.length : Int) < 0
        omega
      rw [if_neg hneg]
      dsimp only
      rw [if_neg hneg, decItems, hlen]
      show R.ok ⟨s.rem - 4 - 7 - ((Entry.access t c).body.length : Int), s.pos + 4 + 7 + (Entry.access t c).body.length, _⟩ = _
      congr 2 <;> omega
    · intro x hx
      rw [k1 x (keep_up hx)]
      exact upd_keep hx List.not_mem_nil
    · rw [k1 _ ?_]
      · dsimp only [upd]
        rw [if_pos rfl]
        have := h.1
        omega
      · intro g q' e
        have := congrArg List.length e
        rw [List.length_append, List.length_cons, List.length_cons, List.length_cons] at this
        omega
  | additional l n =>
    have h2' : At blk (s.pos + 4 + 7) (furtherBits l ++ false :: (spare n ++ b)) := by
      have : (Entry.additional l n).body ++ b = furtherBits l ++ false :: (spare n ++ b) := by
        unfold Entry.body furtherBits; simp
      rw [← this]; exact h2
    have hbl : (Entry.additional l n).body.length = 10 * l.length + 1 + n := by
      unfold Entry.body
      rw [List.length_append, List.length_cons]
      have := furtherBits_length l
      unfold furtherBits at this
      rw [this]
      have : (spare n).length = n := List.length_replicate ..
      omega
    have hl3 : l.length ≤ 3 := hf
    obtain ⟨d', e1, k1⟩ := further_loop (b := spare n ++ b) (r := Additional_access_technologies_t.Additional_access_technologies :: MS_RA_capability_value_t.u_Additional_access_technologies :: q)
      (cq := Additional_access_technologies_t.Count_additional_access_technologies :: MS_RA_capability_value_t.u_Additional_access_technologies :: q)
      l 0 ((((Entry.additional l n).body.length : Int)).toNat + 2)
      ⟨((Entry.additional l n).body.length : Int), s.pos + 4 + 7, upd s.data (MS_RA_capability_value_t.IndexOfAccTech :: q) 14⟩ h.1
      (by omega) (by omega) h2' (by show _ ≤ ((Entry.additional l n).body.length : Int); omega)
    have hdec : decItems blk Additional_access_technologies_t 0 ([MS_RA_capability_value_t.u_Additional_access_technologies] ++ q)
        ⟨((Entry.additional l n).body.length : Int), s.pos + 4 + 7, upd s.data (MS_RA_capability_value_t.IndexOfAccTech :: q) 14⟩ =
        .ok ⟨(n : Int), s.pos + 4 + 7 + ((Entry.additional l n).body.length - n), d'⟩ := by
      unfold Additional_access_technologies_t
      rw [decItems, decItem]
      refine (congrArg (fun r => R.bind r _) e1).trans ?_
      dsimp only [R.bind]
      rw [if_neg (by omega), decItems]
      congr 2 <;> omega
    have hs := serialize_at (p := q) (fs := [MS_RA_capability_value_t.u_Additional_access_technologies]) (d := Additional_access_technologies_t)
      (body := (Entry.additional l n).body)
      (s := ⟨s.rem - 4, s.pos + 4, upd s.data (MS_RA_capability_value_t.IndexOfAccTech :: q) 14⟩) h1
      (by show _ ≤ s.rem - 4; omega) hb0 hb1 (m := n) (by omega) hdec
    have hother : ∀ f j, 3 ≤ j → d' (f :: j :: Additional_access_technologies_t.Additional_access_technologies ::
        MS_RA_capability_value_t.u_Additional_access_technologies :: q) = 0 := by
      intro f j hj
      rw [k1 _ ?_ ?_]
      · dsimp only [upd]
        rw [if_neg ?_]
        · exact hz [f, j, _, _]
        · intro e
          have := congrArg List.length e
          simp only [List.length_cons] at this
          omega
      · intro i _ hi
        exact keep_index [f] (by omega)
      · intro e
        have := congrArg List.length e
        simp only [List.length_cons] at this
        omega
    refine ⟨d', ?_, ?_, ?_, ?_, ?_⟩
    · rw [decItems, decItem, alts_additional hat (by omega), hs]
      dsimp only [R.bind]
      rw [if_neg (show ¬ s.rem - 4 - 7 - ((Entry.additional l n).body.length : Int) < 0 by omega)]
      dsimp only
      rw [if_neg (show ¬ s.rem - 4 - 7 - ((Entry.additional l n).body.length : Int) < 0 by omega), decItems, hlen]
      congr 2 <;> omega
    · intro x hx
      rw [k1 x (fun i _ _ => keep_up (keep_up (keep_up hx))) ?_]
      · exact upd_keep hx List.not_mem_nil
      · intro e
        exact absurd (hx MS_RA_capability_value_t.u_Additional_access_technologies [Additional_access_technologies_t.Count_additional_access_technologies] e) List.not_mem_nil
    · rw [k1 _ ?_ ?_]
      · dsimp only [upd]
        rw [if_pos rfl]
      · intro i _ _ g q' e
        have := congrArg List.length e
        simp only [List.length_append, List.length_cons] at this
        omega
      · intro e
        have := congrArg List.length e
        simp only [List.length_cons] at this
        omega
    · exact hother _ 3 (by decide)
    · exact hother _ 5 (by decide)

/-! ## The list of entries -/

theorem EntrySays.keep {d d' : Data} {q e} (h : EntrySays d q e) (k : ∀ q1, d' (q1 ++ q) = d (q1 ++ q)) : EntrySays d' q e := by
  cases e with
  | access t c =>
    obtain ⟨h1, h2⟩ := h
    have m : ∀ {a b : Nat} {o}, Member d (a :: Content_t.Multislot_capability :: MS_RA_capability_value_t.u_Content :: q)
        (b :: Content_t.Multislot_capability :: MS_RA_capability_value_t.u_Content :: q) o →
        Member d' (a :: Content_t.Multislot_capability :: MS_RA_capability_value_t.u_Content :: q)
        (b :: Content_t.Multislot_capability :: MS_RA_capability_value_t.u_Content :: q) o :=
      fun hm => hm.keep (k [_, _, _]) (k [_, _, _])
    refine ⟨(k [_]) ▸ h1, ?_⟩
    rcases h2 with ⟨a, b, c⟩ | ⟨a, b, c⟩
    · exact .inl ⟨(k [_, _]).trans a, b, c⟩
    · exact .inr ⟨(k [_, _]).trans a, m b, m c⟩
  | additional l n => exact ⟨(k [_]).trans h.1, (k [_, _, _, _]).trans h.2.1, (k [_, _, _, _]).trans h.2.2⟩

abbrev restBits (es : List Entry) : List Bool := es.flatMap fun e => true :: e.bits

theorem entries_loop {blk r cq b} (hcq : ∀ q1 k, cq ≠ q1 ++ k :: r) : ∀ (es : List Entry) (e : Entry) (k fuel : Nat) (s : S),
    (∀ x ∈ e :: es, x.Valid ∧ x.further ≤ 3) → k + 1 + es.length ≤ 11 → es.length < fuel →
    (∀ i q1, k ≤ i → s.data (q1 ++ i :: r) = 0) →
    At blk s.pos (e.bits ++ (restBits es ++ false :: b)) → ((e.bits.length + (restBits es).length + 1 : Nat) : Int) ≤ s.rem →
    ∃ d', recLoop1 blk 11 (fun k s => if s.rem < 0 then .err else decItems blk MS_RA_capability_value_t 0 (k :: r) s) cq fuel k s =
        .ok ⟨s.rem - (e.bits.length + (restBits es).length + 1 : Nat), s.pos + (e.bits.length + (restBits es).length + 1), d'⟩ ∧
      d' cq = k + 1 + es.length ∧ (∀ j (hj : j < (e :: es).length), EntrySays d' ((k + j) :: r) (e :: es)[j]) ∧
      ∀ q, (∀ i, k ≤ i → Keep (i :: r) [] q) → q ≠ cq → d' q = s.data q
  | _, _, _, 0, _, _, _, hf, _, _, _ => absurd hf (Nat.not_lt_zero _)
  | [], e, k, fuel + 1, s, hv, hk, hf, hz, hat, hl => by
    have he := hv e List.mem_cons_self
    rw [List.length_nil] at hk
    have hrl : (restBits []).length = 0 := rfl
    rw [hrl] at hl ⊢
    obtain ⟨d1, e1, k1, s1⟩ := entry_at (q := k :: r) e he.1 he.2 (fun q1 => hz k q1 (Nat.le_refl _)) hat (by omega)
    have h1 : At blk (s.pos + e.bits.length) (false :: b) := hat.step
    refine ⟨upd d1 cq ((k + 1) % 256), ?_, ?_, ?_, ?_⟩
    · rw [recLoop1, if_neg (by omega), if_neg (by omega), e1]
      dsimp only [R.bind]
      rw [if_neg (by omega), next_at (s := ⟨_, _, d1⟩) h1]
      dsimp only
      rw [if_neg (by decide)]
      congr 2 <;> omega
    · dsimp only [upd]
      rw [if_pos rfl, List.length_nil]
      omega
    · intro j hj
      have : j = 0 := by simp at hj; exact hj
      subst this
      refine EntrySays.keep s1 fun q1 => ?_
      dsimp only [upd]
      rw [if_neg fun e => hcq q1 k e.symm]
    · intro q hq hc
      dsimp only [upd]
      rw [if_neg hc, k1 q (hq k (Nat.le_refl _))]
  | e' :: es, e, k, fuel + 1, s, hv, hk, hf, hz, hat, hl => by
    have he := hv e List.mem_cons_self
    rw [List.length_cons] at hk hf
    have hrb : restBits (e' :: es) = true :: (e'.bits ++ restBits es) := rfl
    rw [hrb] at hat hl ⊢
    rw [List.length_cons, List.length_append] at hl ⊢
    obtain ⟨d1, e1, k1, s1⟩ := entry_at (q := k :: r) e he.1 he.2 (fun q1 => hz k q1 (Nat.le_refl _)) hat (by omega)
    have h1 : At blk (s.pos + e.bits.length) (true :: (e'.bits ++ restBits es ++ false :: b)) := hat.step
    have h2 := h1.next
    rw [List.append_assoc] at h2
    obtain ⟨d2, e2, c2, s2, k2⟩ := entries_loop hcq es e' (k + 1) fuel ⟨s.rem - e.bits.length - 1, s.pos + e.bits.length + 1, d1⟩
      (fun x hx => hv x (List.mem_cons_of_mem _ hx)) (by omega) (by omega)
      (fun i q1 hi => (k1 _ (keep_index q1 (by omega))).trans (hz i q1 (by omega))) h2 (by show _ ≤ s.rem - _ - 1; omega)
    refine ⟨d2, ?_, ?_, ?_, ?_⟩
    · rw [recLoop1, if_neg (by omega), if_neg (by omega), e1]
      dsimp only [R.bind]
      rw [if_neg (by omega), next_at (s := ⟨_, _, d1⟩) h1]
      dsimp only
      rw [if_pos rfl, e2]
      dsimp only
      congr 2 <;> omega
    · rw [c2, List.length_cons]
      omega
    · intro j hj
      cases j with
      | zero =>
        refine EntrySays.keep s1 fun q1 => ?_
        exact k2 _ (fun i hi => keep_index q1 (by omega)) fun e => hcq q1 k e.symm
      | succ j =>
        have := s2 j (by simp at hj ⊢; exact hj)
        rw [show k + (j + 1) = k + 1 + j by omega]
        exact this
    · intro q hq hc
      rw [k2 q (fun i hi => hq i (by omega)) hc]
      exact k1 q (hq k (Nat.le_refl _))

/-! ## Finding the class -/

theorem class_loop {d : Data} {p : Path} {offE e off m : Nat} {sel : Entry → Option Nat}
    (hsel : ∀ q x, EntrySays d q x → (sel x = none → contentOctet d q 7 [Content_t.Exist_Multislot_capability] = 0 ∨
        contentOctet d q offE [e, Content_t.Multislot_capability] = 0) ∧
      ∀ v, sel x = some v → contentOctet d q 7 [Content_t.Exist_Multislot_capability] ≠ 0 ∧
        contentOctet d q offE [e, Content_t.Multislot_capability] ≠ 0 ∧ contentOctet d q off [m, Content_t.Multislot_capability] = v) :
    ∀ (es : List Entry) (i : Nat),
      (∀ j (hj : j < es.length), EntrySays d ((i + j) :: MS_Radio_Access_capability_t.MS_RA_capability_value :: p) es[j]) →
      classLoop d p offE e off m es.length i = (es.findSome? sel).getD 0
  | [], i, _ => rfl
  | x :: es, i, h => by
    have hx := hsel _ _ (h 0 (by simp))
    have ih := class_loop hsel es (i + 1) fun j hj => by
      have := h (j + 1) (by simp; exact hj)
      rw [show i + 1 + j = i + (j + 1) by omega]
      exact this
    rw [List.length_cons, classLoop, List.findSome?_cons]
    rw [Nat.add_zero, List.getElem_cons_zero] at hx
    cases hs : sel x with
    | none =>
      rcases hx.1 hs with h1 | h1
      · rw [if_pos h1, ih]
      · rw [if_pos h1, ih]
        split <;> rfl
    | some v =>
      obtain ⟨a, b, c⟩ := hx.2 v hs
      rw [if_neg a, if_neg b, c]
      rfl

theorem sel_gprs {d : Data} (q : Path) (x : Entry) (h : EntrySays d q x) :
    (x.gprs = none → contentOctet d q 7 [Content_t.Exist_Multislot_capability] = 0 ∨
        contentOctet d q 10 [Multislot_capability_t.Exist_GPRS_multislot_class, Content_t.Multislot_capability] = 0) ∧
      ∀ v, x.gprs = some v → contentOctet d q 7 [Content_t.Exist_Multislot_capability] ≠ 0 ∧
        contentOctet d q 10 [Multislot_capability_t.Exist_GPRS_multislot_class, Content_t.Multislot_capability] ≠ 0 ∧
        contentOctet d q 11 [Multislot_capability_t.GPRS_multislot_class, Content_t.Multislot_capability] = v := by
  cases x with
  | access t c =>
    obtain ⟨h1, h2⟩ := h
    unfold contentOctet
    rw [if_neg h1, if_neg h1, if_neg h1]
    show (c.gprs = none → _) ∧ ∀ v, c.gprs = some v → _
    rcases h2 with ⟨a, b, _⟩ | ⟨a, b, _⟩
    · exact ⟨fun _ => .inl a, fun v hv => absurd (b.symm.trans hv) nofun⟩
    · refine ⟨fun hn => .inr ?_, fun v hv => ?_⟩
      · rw [hn] at b; exact b
      · rw [hv] at b
        exact ⟨fun e => absurd (a.symm.trans e) (by decide), fun e => absurd (b.1.symm.trans e) (by decide), b.2⟩
  | additional l n =>
    obtain ⟨h1, h2, _⟩ := h
    refine ⟨fun _ => .inr ?_, fun v hv => absurd hv nofun⟩
    unfold contentOctet
    rw [if_pos h1, h2]

theorem sel_egprs {d : Data} (q : Path) (x : Entry) (h : EntrySays d q x) :
    (x.egprs = none → contentOctet d q 7 [Content_t.Exist_Multislot_capability] = 0 ∨
        contentOctet d q 18 [Multislot_capability_t.Exist_EGPRS_multislot_class, Content_t.Multislot_capability] = 0) ∧
      ∀ v, x.egprs = some v → contentOctet d q 7 [Content_t.Exist_Multislot_capability] ≠ 0 ∧
        contentOctet d q 18 [Multislot_capability_t.Exist_EGPRS_multislot_class, Content_t.Multislot_capability] ≠ 0 ∧
        contentOctet d q 19 [Multislot_capability_t.EGPRS_multislot_class, Content_t.Multislot_capability] = v := by
  cases x with
  | access t c =>
    obtain ⟨h1, h2⟩ := h
    unfold contentOctet
    rw [if_neg h1, if_neg h1, if_neg h1]
    show (c.egprs = none → _) ∧ ∀ v, c.egprs = some v → _
    rcases h2 with ⟨a, _, b⟩ | ⟨a, _, b⟩
    · exact ⟨fun _ => .inl a, fun v hv => absurd (b.symm.trans hv) nofun⟩
    · refine ⟨fun hn => .inr ?_, fun v hv => ?_⟩
      · rw [hn] at b; exact b
      · rw [hv] at b
        exact ⟨fun e => absurd (a.symm.trans e) (by decide), fun e => absurd (b.1.symm.trans e) (by decide), b.2⟩
  | additional l n =>
    obtain ⟨h1, _, h2⟩ := h
    refine ⟨fun _ => .inr ?_, fun v hv => absurd hv nofun⟩
    unfold contentOctet
    rw [if_pos h1, h2]

/-- The list at `p` states the classes. -/
theorem raItem_at {blk p b} {s : S} (e : Entry) (es : List Entry) (hv : ∀ x ∈ e :: es, x.Valid ∧ x.further ≤ 3) (hn : es.length ≤ 10)
    (hz : ∀ q1, s.data (q1 ++ MS_Radio_Access_capability_t.MS_RA_capability_value :: p) = 0)
    (hat : At blk s.pos (bits e es ++ b)) (hl : ((bits e es).length : Int) ≤ s.rem) :
    ∃ d', decItem blk raItem p s = .ok ⟨s.rem - (bits e es).length, s.pos + (bits e es).length, d'⟩ ∧
      gprsClass d' p = gprs (e :: es) ∧ egprsClass d' p = egprs (e :: es) ∧
      ∀ q, (∀ i, Keep (i :: MS_Radio_Access_capability_t.MS_RA_capability_value :: p) [] q) →
        q ≠ MS_Radio_Access_capability_t.Count_MS_RA_capability_value :: p → d' q = s.data q := by
  have hlen : (bits e es).length = e.bits.length + (restBits es).length + 1 := by
    unfold bits restBits
    rw [List.length_append, List.length_append, List.length_singleton]
  have hat' : At blk s.pos (e.bits ++ (restBits es ++ false :: b)) := by
    have : bits e es ++ b = e.bits ++ (restBits es ++ false :: b) := by unfold bits restBits; simp
    rw [← this]; exact hat
  have hrl : es.length ≤ (restBits es).length := by
    unfold restBits
    clear hv hn hz hat hl hlen hat'
    induction es with
    | nil => exact Nat.le_refl _
    | cons x es ih => rw [List.flatMap_cons, List.length_append, List.length_cons, List.length_cons]; omega
  obtain ⟨d', e1, c1, s1, k1⟩ := entries_loop (r := MS_Radio_Access_capability_t.MS_RA_capability_value :: p)
    (cq := MS_Radio_Access_capability_t.Count_MS_RA_capability_value :: p) (b := b)
    (fun q1 k e => by
      have := congrArg List.length e
      rw [List.length_append, List.length_cons, List.length_cons, List.length_cons] at this
      omega)
    es e 0 (s.rem.toNat + 2) s hv (by omega) (by omega)
    (fun i q1 _ => by have := hz (q1 ++ [i]); rw [List.append_assoc] at this; exact this) hat' (by omega)
  refine ⟨d', ?_, ?_, ?_, fun q hq hc => k1 q (fun i _ => hq i) hc⟩
  · rw [raItem, decItem, e1, hlen]
  · unfold gprsClass
    rw [c1, Nat.zero_add, Nat.add_comm 1]
    exact class_loop sel_gprs (e :: es) 0 s1
  · unfold egprsClass
    rw [c1, Nat.zero_add, Nat.add_comm 1]
    exact class_loop sel_egprs (e :: es) 0 s1

/-! ## Any octets -/

/-- What the members that are read as a class can hold. -/
def bounds : List (Nat × Nat) :=
  [(Multislot_capability_t.GPRS_multislot_class, 31), (Multislot_capability_t.EGPRS_multislot_class, 31),
   (Additional_access_technologies_struct_t.Access_Technology_Type, 15), (Additional_access_technologies_struct_t.GMSK_Power_class, 7)]

theorem classLoop_bound {d : Data} {p : Path} {offE e off m : Nat} (h : ∀ q, contentOctet d q off [m, Content_t.Multislot_capability] ≤ 31) :
    ∀ n i, classLoop d p offE e off m n i ≤ 31
  | 0, _ => Nat.zero_le _
  | n + 1, i => by
    rw [classLoop]
    split
    · exact classLoop_bound h n (i + 1)
    · split
      · exact classLoop_bound h n (i + 1)
      · exact h _

theorem gprs_bound {d : Data} {p : Path} (h : Bnd bounds d) : gprsClass d p ≤ 31 := by
  refine classLoop_bound (fun q => ?_) _ _
  unfold contentOctet
  split
  · refine Nat.le_trans ?_ (show 7 ≤ 31 by decide)
    exact h Additional_access_technologies_struct_t.GMSK_Power_class 7 (by decide) _
  · exact h _ 31 (by decide) _

theorem egprs_bound {d : Data} {p : Path} (h : Bnd bounds d) : egprsClass d p ≤ 31 := by
  refine classLoop_bound (fun q => ?_) _ _
  unfold contentOctet
  split
  · refine Nat.le_trans ?_ (show 15 ≤ 31 by decide)
    exact h Additional_access_technologies_struct_t.Access_Technology_Type 15 (by decide) _
  · exact h _ 31 (by decide) _

theorem ra_safe (blk : List Bool) (s : S) (h : Bnd bounds s.data) : Safe bounds (decItem blk raItem [] s) :=
  safe_item blk (fun c hc => by
    have : ∀ x ∈ bounds, 1000 ≤ x.1 := by decide
    cases hl : bounds.lookup c with
    | none => rfl
    | some v =>
      exfalso
      have : (bounds.lookup c).isSome := by rw [hl]; rfl
      simp only [bounds, List.lookup] at this
      repeat (split at this; · rename_i e; simp at e; subst e; exact absurd hc (by decide))
      exact absurd this (by simp)) raItem [] s (by decide) h

end Verif.RaCap
