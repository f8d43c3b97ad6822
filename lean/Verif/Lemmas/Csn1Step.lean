import Verif.Lemmas.Csn1Read
import Verif.Lemmas.UlMsg
/-!
# Walking through a table entry by entry

`Step`: a part of a table reads the bits given, and leaves everything but members of the structure at `p` alone, and of these the ones in
`M`. `Zero`: at the end of the bits, or when only zeros are left, entries that may be null do no harm.
-/

namespace Verif.Csn1

open Verif.Bits (put length_put)
open Verif.UlMsg (opt bit)

/-- Not below `p`, or in one of the members `M`. -/
def Keep (p : Path) (M : List Nat) (q : Path) : Prop := ∀ f q', q = q' ++ f :: p → f ∈ M

theorem Keep.ne {p M q f} (h : Keep p M q) (hf : f ∉ M) : q ≠ f :: p := fun e => hf (h f [] e)

theorem Keep.sub {p M q f} (h : Keep p M q) (hf : f ∉ M) : Keep (f :: p) [] q := by
  intro g q' e
  exact absurd (h f (q' ++ [g]) (by rw [e, List.append_assoc]; rfl)) hf

theorem Keep.mono {p M N q} (h : Keep p M q) (hN : ∀ f ∈ M, f ∈ N) : Keep p N q := fun f q' e => hN f (h f q' e)

theorem keep_member {p : Path} {M f} (h : f ∈ M) : Keep p M (f :: p) := by
  intro g q' e
  have : q' = [] := by
    have := congrArg List.length e
    rw [List.length_append, List.length_cons, List.length_cons] at this
    exact List.length_eq_zero_iff.1 (by omega)
  subst this
  simp at e
  rw [← e]; exact h

theorem keep_sub {p : Path} {M f g} (h : f ∈ M) : Keep p M (g :: f :: p) := by
  intro k q' e
  match q', e with
  | [], e => have := congrArg List.length e; simp only [List.length_append, List.length_cons, List.length_nil] at this; omega
  | [x], e => simp at e; rw [← e.2]; exact h
  | x :: y :: l, e => have := congrArg List.length e; simp only [List.length_append, List.length_cons] at this; omega

def Step (blk : List Bool) (p : Path) (M : List Nat) (bits : List Bool) (is is' : Items) : Prop :=
  ∀ (s : S) (b : List Bool), At blk s.pos (bits ++ b) → (bits.length : Int) ≤ s.rem →
    ∃ d', decItems blk is 0 p s = decItems blk is' 0 p ⟨s.rem - bits.length, s.pos + bits.length, d'⟩ ∧
      ∀ q, Keep p M q → d' q = s.data q

theorem Step.refl {blk p M is} : Step blk p M [] is is := by
  intro s b _ _
  refine ⟨s.data, ?_, fun _ _ => rfl⟩
  simp

theorem Step.trans {blk p M a b is is' is''} (h1 : Step blk p M a is is') (h2 : Step blk p M b is' is'') :
    Step blk p M (a ++ b) is is'' := by
  intro s r hat hl
  rw [List.append_assoc] at hat
  rw [List.length_append] at hl
  obtain ⟨d1, e1, k1⟩ := h1 s _ hat (by omega)
  obtain ⟨d2, e2, k2⟩ := h2 ⟨s.rem - a.length, s.pos + a.length, d1⟩ r hat.step (by show _ ≤ s.rem - _; omega)
  refine ⟨d2, ?_, fun q hq => (k2 q hq).trans (k1 q hq)⟩
  rw [e1, e2]
  dsimp only
  rw [List.length_append]
  congr 2 <;> omega

theorem Step.last {blk p M a is is'} (h : Step blk p M (a ++ []) is is') : Step blk p M a is is' := by
  rw [List.append_nil] at h; exact h

theorem uint_at {blk n f o is p v b} {s : S} (hat : At blk s.pos (put n v ++ b)) (hv : v < 2 ^ n) (hl : (n : Int) ≤ s.rem) :
    decItems blk (.cons (.uint n f o) is) 0 p s = decItems blk is 0 p ⟨s.rem - n, s.pos + n, upd s.data (f :: p) v⟩ := by
  rw [decItems, decItem, if_pos hl, store_at hat hv]
  dsimp only [R.bind]
  rw [if_neg (by omega)]

theorem upd_keep {p M q f} {d : Data} {v} (h : Keep p M q) (hf : f ∉ M) : upd d (f :: p) v q = d q := by
  unfold upd
  rw [if_neg (h.ne hf)]

theorem Step.uint {blk p M n f o is v} (hv : v < 2 ^ n) (hf : f ∉ M) :
    Step blk p M (put n v) (.cons (.uint n f o) is) is := by
  intro s b hat hl
  rw [length_put] at hl ⊢
  exact ⟨_, uint_at hat hv hl, fun q hq => upd_keep hq hf⟩

theorem Step.flag {blk p M f o is v} (hf : f ∉ M) : Step blk p M (bit v) (.cons (.uint 1 f o) is) is := by
  rw [← put_bit]
  exact Step.uint (by cases v <;> decide) hf

/-- A structure. -/
theorem Step.type {blk p M f o d is bits} (hf : f ∉ M) (hb : bits ≠ []) (h : Step blk (f :: p) [] bits d .nil) :
    Step blk p M bits (.cons (.type d f o) is) is := by
  intro s b hat hl
  have hpos : 0 < bits.length := List.length_pos_iff.2 hb
  obtain ⟨d', e, k⟩ := h s b hat hl
  refine ⟨d', ?_, fun q hq => k q (hq.sub hf)⟩
  rw [decItems, decItem, if_neg (by simp; omega), if_neg (by omega), e, decItems]
  dsimp only [R.bind]
  rw [if_neg (show ¬ s.rem - (bits.length : Int) < 0 by omega)]

/-- The table without its first entries. -/
def Items.dropI : Nat → Items → Items
  | 0, is => is
  | _ + 1, .nil => .nil
  | k + 1, .cons _ is => is.dropI k
  | k + 1, .opt _ _ _ _ is => is.dropI k

theorem decItems_skip {blk} : ∀ (k : Nat) (is : Items) (p : Path) (s : S), decItems blk is k p s = decItems blk (is.dropI k) 0 p s
  | 0, is, p, s => by rw [Items.dropI]
  | k + 1, .nil, p, s => by rw [Items.dropI, decItems, decItems]
  | k + 1, .cons i is, p, s => by rw [Items.dropI, decItems, decItems_skip k]
  | k + 1, .opt _ _ _ _ is, p, s => by rw [Items.dropI, decItems, decItems_skip k]

theorem getBit {blk pos v l} (h : At blk pos (v :: l)) : readField blk pos 1 = (Bool.toNat v, pos + 1) := by
  have : At blk pos (put 1 v.toNat ++ l) := by rw [put_bit]; exact h
  exact this.read (by cases v <;> decide)

theorem opt_absent {blk p f o n k is l} {s : S} (h : At blk s.pos (false :: l)) (hl : 1 ≤ s.rem) :
    decItems blk (.opt f o n k is) 0 p s = decItems blk (is.dropI k) 0 p ⟨s.rem - 1, s.pos + 1, upd s.data (f :: p) 0⟩ := by
  rw [decItems, if_neg (by simp; omega), getBit h]
  show (if s.rem - 1 < 0 then _ else decItems blk is k p ⟨s.rem - 1, s.pos + 1, upd s.data (f :: p) 0⟩) = _
  rw [if_neg (by omega), decItems_skip]

theorem opt_present {blk p f o n k is l} {s : S} (h : At blk s.pos (true :: l)) (hl : 2 ≤ s.rem) :
    decItems blk (.opt f o n k is) 0 p s = decItems blk is 0 p ⟨s.rem - 1, s.pos + 1, upd s.data (f :: p) 1⟩ := by
  rw [decItems, if_neg (by simp; omega), getBit h]
  dsimp only
  rw [if_pos (show true.toNat = 1 from rfl), if_neg (show ¬ s.rem = 1 by omega)]
  show (if s.rem - 1 < 0 then _ else decItems blk is 0 p ⟨s.rem - 1, s.pos + 1, upd s.data (f :: p) 1⟩) = _
  rw [if_neg (by omega)]

theorem Step.opt {blk p M f o n k is} {α : Type} {x : Option α} {g : α → List Bool} (hf : f ∉ M)
    (hne : ∀ y, x = some y → g y ≠ []) (h : ∀ y, x = some y → Step blk p M (g y) is (is.dropI k)) :
    Step blk p M (opt (x.map g)) (.opt f o n k is) (is.dropI k) := by
  intro s b hat hl
  cases x with
  | none =>
    refine ⟨_, opt_absent hat hl, fun q hq => upd_keep hq hf⟩
  | some y =>
    have hp : 0 < (g y).length := List.length_pos_iff.2 (hne y rfl)
    rw [Option.map_some, UlMsg.opt] at hat hl ⊢
    rw [List.length_cons] at hl ⊢
    have hat' : At blk s.pos (true :: (g y ++ b)) := hat
    obtain ⟨d', e, kp⟩ := h y rfl ⟨s.rem - 1, s.pos + 1, upd s.data (f :: p) 1⟩ b hat'.next (by show _ ≤ s.rem - 1; omega)
    refine ⟨d', ?_, fun q hq => (kp q hq).trans (upd_keep hq hf)⟩
    rw [opt_present hat' (by omega), e]
    dsimp only
    congr 2 <;> omega

theorem put_ne {n v} (h : n ≠ 0) : put n v ≠ [] := fun e => h (by rw [← length_put n v, e]; rfl)

theorem opt_ne {α : Type} (x : Option α) (g : α → List Bool) : UlMsg.opt (x.map g) ≠ [] := by
  cases x <;> simp [UlMsg.opt]

/-! ## Zeros to the end -/

/-- All entries that are not left out may be null. -/
def Items.nulls (M : List Nat) : Items → Nat → Bool
  | .nil, _ => true
  | .cons _ is, k + 1 => is.nulls M k
  | .opt _ _ _ _ is, k + 1 => is.nulls M k
  | .cons (.uint n f true) is, 0 => n != 0 && !M.contains f && is.nulls M 0
  | .cons _ _, 0 => false
  | .opt f o _ k is, 0 => o && !M.contains f && is.nulls M k

theorem zeros_split {n m : Nat} (h : m ≤ n) : List.replicate n false = List.replicate m false ++ List.replicate (n - m) false := by
  rw [List.replicate_append_replicate]; congr 1; omega

theorem put_zero : ∀ n, put n 0 = List.replicate n false
  | 0 => rfl
  | n + 1 => by rw [put, put_zero n, Nat.zero_testBit]; rfl

/-- Zeros up to the end of the part. -/
theorem zero_items {blk M} : ∀ (is : Items) (k : Nat) (p : Path) (s : S) (n : Nat) (b : List Bool), is.nulls M k = true →
    At blk s.pos (List.replicate n false ++ b) → s.rem = n →
    ∃ m d', m ≤ n ∧ decItems blk is k p s = .ok ⟨(m : Int), s.pos + (n - m), d'⟩ ∧ ∀ q, Keep p M q → d' q = s.data q
  | .nil, k, p, s, n, b, _, _, hr => ⟨n, s.data, Nat.le_refl _, by rw [decItems, Nat.sub_self, ← hr]; rfl, fun _ _ => rfl⟩
  | .cons i is, k + 1, p, s, n, b, hz, hat, hr => by
    have hz' : is.nulls M k = true := by cases i <;> exact hz
    rw [decItems]
    exact zero_items is k p s n b hz' hat hr
  | .opt f o x j is, k + 1, p, s, n, b, hz, hat, hr => by
    rw [decItems]
    exact zero_items is k p s n b hz hat hr
  | .cons i is, 0, p, s, n, b, hz, hat, hr => by
    cases i with
    | uint w f o =>
      cases o with
      | false => exact absurd hz (by simp [Items.nulls])
      | true =>
        simp [Items.nulls] at hz
        obtain ⟨⟨hw, hf⟩, hz⟩ := hz
        by_cases hwn : w ≤ n
        · have hat' : At blk s.pos (put w 0 ++ (List.replicate (n - w) false ++ b)) := by
            rw [put_zero, ← List.append_assoc, ← zeros_split hwn]; exact hat
          rw [uint_at hat' (Nat.two_pow_pos _) (by omega)]
          have := hat'.step
          rw [length_put] at this
          obtain ⟨m, d', hm, e, kp⟩ := zero_items is 0 p ⟨s.rem - w, s.pos + w, upd s.data (f :: p) 0⟩ (n - w) b hz this
            (by show s.rem - _ = _; omega)
          refine ⟨m, d', by omega, ?_, fun q hq => (kp q hq).trans (upd_keep hq hf)⟩
          rw [e]
          congr 2
          show s.pos + w + (n - w - m) = _
          omega
        · rw [decItems, decItem, if_neg (by omega), if_pos rfl]
          dsimp only [R.bind]
          rw [if_neg (by omega)]
          obtain ⟨m, d', hm, e, kp⟩ := zero_items is 0 p ⟨s.rem, s.pos, upd s.data (f :: p) 0⟩ n b hz hat hr
          exact ⟨m, d', hm, e, fun q hq => (kp q hq).trans (upd_keep hq hf)⟩
    | _ => exact absurd hz (by simp [Items.nulls])
  | .opt f o x j is, 0, p, s, n, b, hz, hat, hr => by
    simp [Items.nulls] at hz
    obtain ⟨⟨ho, hf⟩, hz⟩ := hz
    subst ho
    cases n with
    | zero =>
      rw [decItems, if_pos (by simp [hr])]
      obtain ⟨m, d', hm, e, kp⟩ := zero_items is j p ⟨s.rem, s.pos, upd s.data (f :: p) 0⟩ 0 b hz hat hr
      exact ⟨m, d', hm, e, fun q hq => (kp q hq).trans (upd_keep hq hf)⟩
    | succ n =>
      have hat' : At blk s.pos (false :: (List.replicate n false ++ b)) := hat
      rw [opt_absent hat' (by omega), ← decItems_skip]
      obtain ⟨m, d', hm, e, kp⟩ := zero_items is j p ⟨s.rem - 1, s.pos + 1, upd s.data (f :: p) 0⟩ n b hz hat'.next
        (by show s.rem - 1 = _; omega)
      refine ⟨m, d', by omega, ?_, fun q hq => (kp q hq).trans (upd_keep hq hf)⟩
      rw [e]
      congr 2
      show s.pos + 1 + (n - m) = _
      omega

/-- An optional part when only zeros are left. -/
theorem zero_opt {blk p f x k is n b} {s : S} (hat : At blk s.pos (List.replicate n false ++ b)) (hr : s.rem = n) :
    ∃ m, m ≤ n ∧ decItems blk (.opt f true x k is) 0 p s = decItems blk (is.dropI k) 0 p ⟨(m : Int), s.pos + (n - m), upd s.data (f :: p) 0⟩ ∧
      At blk (s.pos + (n - m)) (List.replicate m false ++ b) := by
  cases n with
  | zero =>
    refine ⟨0, Nat.le_refl _, ?_, hat⟩
    rw [decItems, if_pos (by simp [hr]), decItems_skip]
    rw [hr]; rfl
  | succ n =>
    have hat' : At blk s.pos (false :: (List.replicate n false ++ b)) := hat
    refine ⟨n, by omega, ?_, ?_⟩
    · rw [opt_absent hat' (by omega)]
      congr 2 <;> omega
    · rw [show n + 1 - n = 1 by omega]
      exact hat'.next

end Verif.Csn1
