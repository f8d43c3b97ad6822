import Verif.Spec.Csn1
import Verif.Lemmas.Csn1Dec
/-!
# Lemmas: the encoder writes what a table says, or fails
-/

namespace Verif.Csn1

open Verif.Bits (put length_put)

mutual
/-- The encoder knows the item, and indexes of unions and choices are in range. Scalars are not restricted: their low
bits are written. -/
def okItem (σ : Data) : Item → Path → Prop
  | .bit _, _ => True
  | .null, _ => True
  | .uint _ _ _, _ => True
  | .uintOffset _ f off, p => off ≤ σ (f :: p) ∧ σ (f :: p) < 2 ^ 32
  | .uintArray _ _ _ _, _ => True
  | .typeArray d f cnt _, p => ∀ k, k < cnt → okItems σ d 0 (k :: f :: p)
  | .type d f _, p => okItems σ d 0 (f :: p)
  | .choice f alts, p => okAlts σ alts (σ (f :: p)) p
  | .union n f els, p => σ (f :: p) < 2 ^ n ∧ okUnion σ els (σ (f :: p)) p
  | .varBitmap _ _ _, _ => True
  | .varArray _ _ _, _ => True
  | .recArray _ _ _ _, _ => True
  | .fixed _ _, _ => True
  | _, _ => False

def okItems (σ : Data) : Items → Nat → Path → Prop
  | .nil, _, _ => True
  | .cons _ is, skip + 1, p => okItems σ is skip p
  | .opt _ _ _ _ is, skip + 1, p => okItems σ is skip p
  | .cons i is, 0, p => okItem σ i p ∧ okItems σ is 0 p
  | .opt f _ _ skip is, 0, p => okItems σ is (if σ (f :: p) = 0 then skip else 0) p

def okAlts (σ : Data) : Alts → Nat → Path → Prop
  | .nil, _, _ => False
  | .cons _ _ i _, 0, p => okItem σ i p
  | .cons _ _ _ as, k + 1, p => okAlts σ as k p

def okUnion (σ : Data) : Items → Nat → Path → Prop
  | .nil, _, _ => False
  | .opt _ _ _ _ _, _, _ => False
  | .cons i is, k, p => if k = 0 || is.isEnd then okItem σ i p else okUnion σ is (k - 1) p
end

/-- What was written: the bits are appended. -/
def E.add (e : E) (l : List Bool) : E := ⟨e.rem - l.length, e.out ++ l⟩

theorem E.add_nil (e : E) : e.add [] = e := by
  cases e; simp [E.add]

theorem E.add_add (e : E) (a b : List Bool) : (e.add a).add b = e.add (a ++ b) := by
  simp only [E.add, List.length_append, List.append_assoc, E.mk.injEq, and_true]; omega

theorem emit_add (e : E) (n v : Nat) : emit e n v = e.add (put n v) := by
  simp only [emit, E.add, length_put]

theorem emitArray_add (σ : Data) (n : Nat) (q : Path) : ∀ (cnt k : Nat) (e : E),
    emitArray σ n q cnt k e = e.add ((List.range' k cnt).flatMap fun k => put n (σ (k :: q)))
  | 0, k, e => by rw [emitArray]; simp [E.add_nil]
  | cnt + 1, k, e => by
    rw [emitArray, emitArray_add σ n q cnt, emit_add, E.add_add, List.range'_succ, List.flatMap_cons]

theorem emitArray_elems (σ : Data) (n : Nat) (q : Path) (cnt : Nat) (e : E) :
    emitArray σ n q cnt 0 e = e.add (elems σ n q cnt) := by
  rw [emitArray_add, elems, List.range_eq_range']

theorem put_sub {v off : Nat} (h : off ≤ v) (h2 : v < 2 ^ 32) : (v + (2 ^ 32 - off)) % 2 ^ 32 = v - off := by
  have : (2 : Nat) ^ 32 = 4294967296 := by decide
  omega

/-- Result of the encoder: everything written if there is room, otherwise an error or fewer than 0 bits remain. -/
def Writes (strict : Prop) (r : Option E) (e : E) (l : List Bool) : Prop :=
  ((l.length : Int) ≤ e.rem → r = some (e.add l)) ∧ (strict → e.rem < l.length → ∀ e', r = some e' → e'.rem < 0)

theorem writes_some {s : Prop} {e : E} {l : List Bool} : Writes s (some (e.add l)) e l := by
  refine ⟨fun _ => rfl, fun _ h e' he => ?_⟩
  cases he
  simp only [E.add]; omega

theorem writes_guard {s : Prop} {e : E} {l : List Bool} {n : Nat} (hn : n = l.length) :
    Writes s (if (n : Int) ≤ e.rem then some (e.add l) else none) e l := by
  subst hn
  refine ⟨fun h => if_pos h, fun _ h e' he => ?_⟩
  rw [if_neg (by omega)] at he
  cases he

/-- One step after the other, with the test for remaining bits in between. -/
theorem Writes.next {s : Prop} {r : Option E} {e : E} {a b : List Bool} {k : E → Option E}
    (h : Writes s r e a) (hk : ∀ e', Writes s (k e') e' b) :
    Writes s (r.bind fun e' => if e'.rem < 0 then none else k e') e (a ++ b) := by
  constructor
  · intro hl
    rw [List.length_append] at hl
    rw [h.1 (by omega)]
    dsimp only [Option.bind_some]
    rw [if_neg (by simp only [E.add]; omega), (hk _).1 (by simp only [E.add]; omega), E.add_add]
  · intro hs hl e' he
    rw [List.length_append] at hl
    by_cases ha : (a.length : Int) ≤ e.rem
    · rw [h.1 ha] at he
      dsimp only [Option.bind_some] at he
      rw [if_neg (by simp only [E.add]; omega)] at he
      exact (hk _).2 hs (by simp only [E.add]; omega) e' he
    · cases hr : r with
      | none => rw [hr] at he; cases he
      | some e1 =>
        rw [hr] at he
        dsimp only [Option.bind_some] at he
        rw [if_pos (h.2 hs (by omega) e1 hr)] at he
        cases he

/-- Without a test in between; the second step does not get back to 0. -/
theorem Writes.then {s : Prop} {r : Option E} {e : E} {a b : List Bool} {k : E → Option E}
    (h : Writes s r e a) (hk : ∀ e', Writes s (k e') e' b) :
    Writes s (r.bind k) e (a ++ b) := by
  constructor
  · intro hl
    rw [List.length_append] at hl
    rw [h.1 (by omega)]
    dsimp only [Option.bind_some]
    rw [(hk _).1 (by simp only [E.add]; omega), E.add_add]
  · intro hs hl e' he
    rw [List.length_append] at hl
    by_cases ha : (a.length : Int) ≤ e.rem
    · rw [h.1 ha] at he
      exact (hk _).2 hs (by simp only [E.add]; omega) e' he
    · cases hr : r with
      | none => rw [hr] at he; cases he
      | some e1 =>
        rw [hr] at he
        have h1 := h.2 hs (by omega) e1 hr
        exact (hk e1).2 hs (by omega) e' he

theorem eloop_writes {s : Prop} {el : Nat → E → Option E} {g : Nat → List Bool} (N : Nat)
    (h : ∀ k, k < N → ∀ e, Writes s (el k e) e (g k)) : ∀ (cnt k : Nat) (e : E), k + cnt ≤ N →
    Writes s (eloop el cnt k e) e ((List.range' k cnt).flatMap g)
  | 0, k, e, _ => by
    rw [eloop]
    have := writes_some (s := s) (e := e) (l := [])
    rw [E.add_nil] at this
    exact this
  | cnt + 1, k, e, hN => by
    rw [eloop, List.range'_succ, List.flatMap_cons]
    exact (h k (by omega) e).then fun e' => eloop_writes N h cnt (k + 1) e' (by omega)

theorem emitRec_writes {s : Prop} (σ : Data) (n : Nat) (q : Path) : ∀ (cnt k : Nat) (e : E),
    Writes s (emitRec σ n q cnt k e) e (((List.range' k cnt).flatMap fun k => true :: put n (σ (k :: q))) ++ [false])
  | 0, k, e => by
    rw [emitRec, emit_add]
    exact writes_some (l := [false])
  | cnt + 1, k, e => by
    rw [emitRec, List.range'_succ, List.flatMap_cons, List.append_assoc]
    have ih := emitRec_writes (s := s) σ n q cnt (k + 1) (emit (emit e 1 1) n (σ (k :: q)))
    have hp : emit (emit e 1 1) n (σ (k :: q)) = e.add (true :: put n (σ (k :: q))) := by
      rw [emit_add, emit_add, E.add_add]; rfl
    rw [hp] at ih ⊢
    constructor
    · intro hl
      rw [List.length_append, List.length_cons] at hl
      rw [if_neg (by omega), ih.1 (by simp only [E.add, List.length_cons]; omega), E.add_add]
    · intro hs hl e' he
      by_cases hc : e.rem - 1 < 0
      · rw [if_pos hc] at he; cases he
      · rw [if_neg hc] at he
        rw [List.length_append] at hl
        exact ih.2 hs (by simp only [E.add]; omega) e' he

mutual
/-- No entry may be left out at the end of the block. -/
def Item.strict : Item → Bool
  | .uint _ _ o => !o
  | .typeArray d _ _ _ => d.strict
  | .type d _ _ => d.strict
  | .choice _ as => as.strict
  | .union _ _ els => els.strict
  | _ => true

def Items.strict : Items → Bool
  | .nil => true
  | .cons i is => i.strict && is.strict
  | .opt _ o _ _ is => !o && is.strict

def Alts.strict : Alts → Bool
  | .nil => true
  | .cons _ _ i as => i.strict && as.strict
end

theorem writes_neg {s : Prop} {r : Option E} {e : E} {l : List Bool} (h : Writes s r e l) :
    Writes s (if e.rem < 0 then none else r) e l := by
  by_cases hc : e.rem < 0
  · rw [if_pos hc]
    exact ⟨fun hl => by omega, fun _ _ e' he => by cases he⟩
  · rw [if_neg hc]; exact h

theorem Writes.imp {s s' : Prop} {r : Option E} {e : E} {l : List Bool} (h : Writes s r e l) (hs : s' → s) : Writes s' r e l :=
  ⟨h.1, fun x => h.2 (hs x)⟩

theorem writes_one {s : Prop} {e : E} {l : List Bool} {k : E → Option E} {a : List Bool} (hk : ∀ e', Writes s (k e') e' l) :
    Writes s (k (e.add a)) e (a ++ l) :=
  Writes.then (r := some (e.add a)) (k := k) writes_some hk

mutual
theorem enc_item (σ : Data) : ∀ (i : Item) (p : Path) (e : E), okItem σ i p →
    Writes (i.strict = true) (encItem σ i p e) e (bitsItem σ i p)
  | .bit f, p, e, _ => by
    rw [encItem, bitsItem, emit_add]
    constructor
    · intro hl
      rw [length_put] at hl
      rw [if_pos (by omega)]
    · intro _ hl e' he
      rw [length_put] at hl
      rw [if_neg (by omega)] at he
      cases he
  | .null, p, e, _ => by
    rw [encItem, bitsItem]
    have := writes_some (s := Item.null.strict = true) (e := e) (l := [])
    rw [E.add_nil] at this
    exact this
  | .uint n f o, p, e, _ => by
    rw [encItem, bitsItem, emit_add]
    constructor
    · intro hl
      rw [length_put] at hl
      rw [if_pos hl]
    · intro hs hl e' he
      rw [length_put] at hl
      rw [if_neg (by omega)] at he
      cases o with
      | false => cases he
      | true => cases hs
  | .uintOffset n f off, p, e, h => by
    unfold okItem at h
    rw [encItem, bitsItem, emit_add, put_sub h.1 h.2]
    exact writes_guard (by rw [length_put])
  | .uintArray n f cnt size, p, e, _ => by
    rw [encItem, bitsItem, emitArray_elems]
    exact writes_guard (by rw [length_elems])
  | .typeArray d f cnt size, p, e, h => by
    unfold okItem at h
    rw [encItem, bitsItem, List.range_eq_range']
    exact eloop_writes cnt (fun k hk e' => writes_neg ((enc_items σ d 0 (k :: f :: p) e' (h k hk)).imp (fun hs => by unfold Item.strict at hs; exact hs))) cnt 0 e (by omega)
  | .type d f o, p, e, h => by
    unfold okItem at h
    rw [encItem, bitsItem]
    exact writes_neg ((enc_items σ d 0 (f :: p) e h).imp (fun hs => by unfold Item.strict at hs; exact hs))
  | .choice f as, p, e, h => by
    unfold okItem at h
    rw [encItem, bitsItem]
    exact (enc_alts σ as (σ (f :: p)) p e h).imp (fun hs => by unfold Item.strict at hs; exact hs)
  | .union n f els, p, e, h => by
    unfold okItem at h
    rw [encItem, bitsItem, emit_add, Nat.mod_eq_of_lt h.1]
    exact writes_one fun e' => (enc_union σ els (σ (f :: p)) p e' h.2).imp (fun hs => by unfold Item.strict at hs; exact hs)
  | .varBitmap f cf size, p, e, _ => by
    rw [encItem, bitsItem, rightBits]
    by_cases hz : σ (cf :: p) % 8 = 0
    · rw [if_pos hz, if_pos hz, emitArray_elems]
      exact writes_some
    · rw [if_neg hz, if_neg hz, emitArray_add, emit_add, E.add_add]
      have hr : (List.range' 1 (σ (cf :: p) / 8)).flatMap (fun k => put 8 (σ (k :: f :: p)))
          = (List.range (σ (cf :: p) / 8)).flatMap fun k => put 8 (σ ((k + 1) :: f :: p)) := by
        rw [List.range'_eq_map_range, List.flatMap_map]
        congr 1; funext k; rw [Nat.add_comm]
      rw [hr]
      exact writes_some
  | .varArray f cf size, p, e, _ => by
    rw [encItem, bitsItem, emitArray_elems]
    exact writes_some
  | .recArray n f cf size, p, e, _ => by
    rw [encItem, bitsItem, List.range_eq_range']
    exact emitRec_writes σ n (f :: p) _ 0 e
  | .fixed n v, p, e, _ => by
    rw [encItem, bitsItem, emit_add]
    exact writes_some
  | .varTArray .., _, _, h => by unfold okItem at h; exact h.elim
  | .bitmap .., _, _, h => by unfold okItem at h; exact h.elim
  | .serialize .., _, _, h => by unfold okItem at h; exact h.elim
  | .leftVarBmp .., _, _, h => by unfold okItem at h; exact h.elim
  | .leftVarBmp1 .., _, _, h => by unfold okItem at h; exact h.elim
  | .padding, _, _, h => by unfold okItem at h; exact h.elim
  | .recTArray .., _, _, h => by unfold okItem at h; exact h.elim
  | .recTArray1 .., _, _, h => by unfold okItem at h; exact h.elim
  | .trap, _, _, h => by unfold okItem at h; exact h.elim

theorem enc_items (σ : Data) : ∀ (is : Items) (skip : Nat) (p : Path) (e : E), okItems σ is skip p →
    Writes (is.strict = true) (encItems σ is skip p e) e (bitsItems σ is skip p)
  | .nil, skip, p, e, _ => by
    rw [encItems, bitsItems]
    have := writes_some (s := Items.nil.strict = true) (e := e) (l := [])
    rw [E.add_nil] at this
    exact this
  | .cons i is, skip + 1, p, e, h => by
    unfold okItems at h
    rw [encItems, bitsItems]
    exact (enc_items σ is skip p e h).imp (fun hs => by unfold Items.strict at hs; exact (Bool.and_eq_true_iff.mp hs).2)
  | .opt f o nu sk is, skip + 1, p, e, h => by
    unfold okItems at h
    rw [encItems, bitsItems]
    exact (enc_items σ is skip p e h).imp (fun hs => by unfold Items.strict at hs; exact (Bool.and_eq_true_iff.mp hs).2)
  | .cons i is, 0, p, e, h => by
    unfold okItems at h
    rw [encItems, bitsItems]
    exact Writes.next ((enc_item σ i p e h.1).imp (fun hs => by unfold Items.strict at hs; exact (Bool.and_eq_true_iff.mp hs).1))
      fun e' => (enc_items σ is 0 p e' h.2).imp (fun hs => by unfold Items.strict at hs; exact (Bool.and_eq_true_iff.mp hs).2)
  | .opt f o nu sk is, 0, p, e, h => by
    unfold okItems at h
    rw [encItems, bitsItems]
    have hk := fun e' => (enc_items σ is (if σ (f :: p) = 0 then sk else 0) p e' h).imp (s' := (Items.opt f o nu sk is).strict = true)
      (fun hs => by unfold Items.strict at hs; exact (Bool.and_eq_true_iff.mp hs).2)
    have hw : Writes ((Items.opt f o nu sk is).strict = true)
        (if (emit e 1 (σ (f :: p))).rem < 0 then none else encItems σ is (if σ (f :: p) = 0 then sk else 0) p (emit e 1 (σ (f :: p))))
        e (put 1 (σ (f :: p)) ++ bitsItems σ is (if σ (f :: p) = 0 then sk else 0) p) := by
      rw [emit_add]
      exact Writes.next (r := some (e.add (put 1 (σ (f :: p))))) writes_some hk
    cases o with
    | false => exact hw
    | true =>
      constructor
      · intro hl
        have hr : ¬ e.rem = 0 := by rw [List.length_append, length_put] at hl; omega
        rw [if_neg (by simp [hr])]
        exact hw.1 hl
      · intro hs
        unfold Items.strict at hs
        cases hs

theorem enc_alts (σ : Data) : ∀ (as : Alts) (k : Nat) (p : Path) (e : E), okAlts σ as k p →
    Writes (as.strict = true) (encAlts σ as k p e) e (bitsAlts σ as k p)
  | .nil, _, _, _, h => by unfold okAlts at h; exact h.elim
  | .cons bits v i as, 0, p, e, h => by
    unfold okAlts at h
    rw [encAlts, bitsAlts]
    have hi := fun e' => (enc_item σ i p e' h).imp (s' := (Alts.cons bits v i as).strict = true)
      (fun hs => by unfold Alts.strict at hs; exact (Bool.and_eq_true_iff.mp hs).1)
    have hn : ∀ e', Writes ((Alts.cons bits v i as).strict = true)
        ((encItem σ i p e').bind fun e' => if e'.rem < 0 then none else some e') e' (bitsItem σ i p) := by
      intro e'
      have := Writes.next (k := some) (b := []) (hi e') fun e'' => by
        have := writes_some (s := (Alts.cons bits v i as).strict = true) (e := e'') (l := [])
        rw [E.add_nil] at this
        exact this
      rw [List.append_nil] at this
      exact this
    rw [emit_add]
    exact Writes.next (r := some (e.add (put bits v))) writes_some hn
  | .cons bits v i as, k + 1, p, e, h => by
    unfold okAlts at h
    rw [encAlts, bitsAlts]
    exact (enc_alts σ as k p e h).imp (fun hs => by unfold Alts.strict at hs; exact (Bool.and_eq_true_iff.mp hs).2)

theorem enc_union (σ : Data) : ∀ (is : Items) (k : Nat) (p : Path) (e : E), okUnion σ is k p →
    Writes (is.strict = true) (encUnion σ is k p e) e (bitsUnion σ is k p)
  | .nil, _, _, _, h => by unfold okUnion at h; exact h.elim
  | .opt .., _, _, _, h => by unfold okUnion at h; exact h.elim
  | .cons i is, k, p, e, h => by
    unfold okUnion at h
    rw [encUnion, bitsUnion]
    by_cases hk : (k = 0 || is.isEnd) = true
    · rw [if_pos hk] at h ⊢
      rw [if_pos hk]
      exact (enc_item σ i p e h).imp (fun hs => by unfold Items.strict at hs; exact (Bool.and_eq_true_iff.mp hs).1)
    · rw [if_neg hk] at h ⊢
      rw [if_neg hk]
      exact (enc_union σ is (k - 1) p e h).imp (fun hs => by unfold Items.strict at hs; exact (Bool.and_eq_true_iff.mp hs).2)
end

/-! ## Tables in two parts -/

/-- One table after the other. -/
def Items.app : Items → Items → Items
  | .nil, b => b
  | .cons i is, b => .cons i (is.app b)
  | .opt f o nu sk is, b => .opt f o nu sk (is.app b)

def Items.len : Items → Nat
  | .nil => 0
  | .cons _ is => is.len + 1
  | .opt _ _ _ _ is => is.len + 1

/-- Optional entries are within the table. -/
def Items.closed : Items → Bool
  | .nil => true
  | .cons _ is => is.closed
  | .opt _ _ _ sk is => decide (sk ≤ is.len) && is.closed

theorem enc_app (σ : Data) (b : Items) (p : Path) : ∀ (a : Items) (skip : Nat) (e : E), a.closed = true → skip ≤ a.len →
    encItems σ (a.app b) skip p e = (encItems σ a skip p e).bind (encItems σ b 0 p)
  | .nil, 0, e, _, _ => by rw [Items.app, encItems]; rfl
  | .nil, skip + 1, e, _, h => by simp [Items.len] at h
  | .cons i is, skip + 1, e, hc, h => by
    rw [Items.app, encItems, encItems]
    exact enc_app σ b p is skip e hc (by simp [Items.len] at h; exact h)
  | .opt f o nu sk is, skip + 1, e, hc, h => by
    rw [Items.app, encItems, encItems]
    exact enc_app σ b p is skip e (Bool.and_eq_true_iff.mp hc).2 (by simp [Items.len] at h; exact h)
  | .cons i is, 0, e, hc, h => by
    rw [Items.app, encItems, encItems]
    cases encItem σ i p e with
    | none => rfl
    | some e1 =>
      dsimp only [Option.bind_some]
      by_cases h0 : e1.rem < 0
      · rw [if_pos h0, if_pos h0]; rfl
      · rw [if_neg h0, if_neg h0]
        exact enc_app σ b p is 0 e1 hc (Nat.zero_le _)
  | .opt f o nu sk is, 0, e, hc, h => by
    have hc' := Bool.and_eq_true_iff.mp hc
    have hsk : sk ≤ is.len := of_decide_eq_true hc'.1
    rw [Items.app, encItems, encItems]
    by_cases h1 : (o && decide (e.rem = 0)) = true
    · rw [if_pos h1, if_pos h1]
      exact enc_app σ b p is sk e hc'.2 hsk
    · rw [if_neg h1, if_neg h1]
      by_cases h0 : (emit e 1 (σ (f :: p))).rem < 0
      · rw [if_pos h0, if_pos h0]; rfl
      · rw [if_neg h0, if_neg h0]
        exact enc_app σ b p is _ _ hc'.2 (by split <;> omega)

theorem bits_app (σ : Data) (b : Items) (p : Path) : ∀ (a : Items) (skip : Nat), a.closed = true → skip ≤ a.len →
    bitsItems σ (a.app b) skip p = bitsItems σ a skip p ++ bitsItems σ b 0 p
  | .nil, 0, _, _ => by rw [Items.app, bitsItems]; rfl
  | .nil, skip + 1, _, h => by simp [Items.len] at h
  | .cons i is, skip + 1, hc, h => by
    rw [Items.app, bitsItems, bitsItems]
    exact bits_app σ b p is skip hc (by simp [Items.len] at h; exact h)
  | .opt f o nu sk is, skip + 1, hc, h => by
    rw [Items.app, bitsItems, bitsItems]
    exact bits_app σ b p is skip (Bool.and_eq_true_iff.mp hc).2 (by simp [Items.len] at h; exact h)
  | .cons i is, 0, hc, h => by
    rw [Items.app, bitsItems, bitsItems, bits_app σ b p is 0 hc (Nat.zero_le _), List.append_assoc]
  | .opt f o nu sk is, 0, hc, h => by
    have hc' := Bool.and_eq_true_iff.mp hc
    have hsk : sk ≤ is.len := of_decide_eq_true hc'.1
    rw [Items.app, bitsItems, bitsItems, bits_app σ b p is _ hc'.2 (by split <;> omega), List.append_assoc]

end Verif.Csn1
