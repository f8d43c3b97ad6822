import Verif.Model.Csn1
import Verif.Lemmas.BitField
/-!
# Tables that cannot make the decoder write outside of an array
-/

namespace Verif.Csn1

open Verif.Bits (put length_put)

/-- `B` gives the largest value of members that hold a number of elements or bits. Members are numbered from
1000, positions in arrays are smaller. -/
def fitsBound (B : List (Nat × Nat)) (f m : Nat) : Bool :=
  match B.lookup f with
  | none => true
  | some b => m ≤ b

/-- The number of elements is at most `n`. -/
def atMost (B : List (Nat × Nat)) (cf n : Nat) : Bool :=
  match B.lookup cf with
  | none => false
  | some b => b ≤ n

mutual
def safeItem (B : List (Nat × Nat)) : Item → Bool
  | .bit f => fitsBound B f 1
  | .null => true
  | .uint n f _ => fitsBound B f (2 ^ n - 1)
  | .uintOffset n f off => fitsBound B f (2 ^ n - 1 + off)
  | .uintArray _ _ cnt size => cnt ≤ size && size ≤ 1000
  | .typeArray d _ cnt size => cnt ≤ size && safeItems B d
  | .varTArray d _ cf size => atMost B cf size && safeItems B d
  | .bitmap n _ size => n == 0 || (if n ≤ 32 then 4 else 8) ≤ size
  | .type d _ _ => safeItems B d
  | .choice f alts => (B.lookup f).isNone && safeAlts B alts
  | .serialize _ _ d => safeItems B d
  | .union n f els => fitsBound B f (2 ^ n - 1) && safeUnion B els
  | .varBitmap _ cf size => atMost B cf (8 * size) && size ≤ 1000
  | .leftVarBmp _ cf size => atMost B cf (8 * size) && size ≤ 1000
  | .leftVarBmp1 _ cf size => (B.lookup cf).isNone && 32 ≤ size && size ≤ 1000
  | .padding => true
  | .varArray _ cf size => atMost B cf size && size ≤ 1000
  | .recArray _ _ _ _ => false
  | .recTArray d _ cf _ => (B.lookup cf).isNone && safeItems B d
  | .recTArray1 d _ cf _ => (B.lookup cf).isNone && safeItems B d
  | .fixed _ _ => true
  | .trap => true
def safeItems (B : List (Nat × Nat)) : Items → Bool
  | .nil => true
  | .cons i is => safeItem B i && safeItems B is
  | .opt f _ _ _ is => fitsBound B f 1 && safeItems B is
def safeAlts (B : List (Nat × Nat)) : Alts → Bool
  | .nil => true
  | .cons _ _ i as => safeItem B i && safeAlts B as
def safeUnion (B : List (Nat × Nat)) : Items → Bool
  | .nil => true
  | .opt _ _ _ _ _ => true
  | .cons i is => safeItem B i && safeUnion B is
end

/-- Numbers of elements are in range. -/
def Bnd (B : List (Nat × Nat)) (d : Data) : Prop := ∀ c b, B.lookup c = some b → ∀ r, d (c :: r) ≤ b

/-- No write outside, numbers of elements stay in range. -/
def Safe (B : List (Nat × Nat)) : R → Prop
  | .err => True
  | .spill => False
  | .ok s => Bnd B s.data

theorem Safe.bind {B r k} (h : Safe B r) (hk : ∀ s, Bnd B s.data → Safe B (k s)) : Safe B (r.bind k) := by
  cases r with
  | err => exact trivial
  | spill => exact h
  | ok s => exact hk s h

theorem safe_ite {B} {c : Prop} [Decidable c] {x y : R} (hx : Safe B x) (hy : Safe B y) : Safe B (if c then x else y) := by
  split
  · exact hx
  · exact hy

theorem foldl_lt : ∀ (l : List Bool) (a : Nat), l.foldl (fun a b => 2 * a + b.toNat) a < (a + 1) * 2 ^ l.length
  | [], a => by simp
  | b :: l, a => by
    rw [List.foldl_cons]
    refine Nat.lt_of_lt_of_le (foldl_lt l _) ?_
    rw [List.length_cons, Nat.pow_succ, Nat.mul_comm (2 ^ l.length) 2, ← Nat.mul_assoc]
    refine Nat.mul_le_mul_right _ ?_
    have : b.toNat ≤ 1 := by cases b <;> decide
    omega

theorem readField_lt (blk : List Bool) (pos n : Nat) : (readField blk pos n).1 ≤ 2 ^ n - 1 := by
  have hp := Nat.two_pow_pos n
  unfold readField
  by_cases h : pos + n ≤ blk.length
  · rw [if_pos h]
    have := foldl_lt ((blk.drop pos).take n) 0
    rw [show ((blk.drop pos).take n).length = n by rw [List.length_take, List.length_drop]; omega] at this
    show num _ ≤ _
    unfold num
    omega
  · rw [if_neg h]; exact Nat.zero_le _

section
variable {B : List (Nat × Nat)} (hB : ∀ c, c < 1000 → B.lookup c = none)

theorem bnd_upd {d : Data} {f : Nat} {p : Path} {v m : Nat} (hf : fitsBound B f m = true) (hv : v ≤ m) (h : Bnd B d) :
    Bnd B (upd d (f :: p) v) := by
  intro c b hc r
  unfold upd
  by_cases e : c :: r = f :: p
  · rw [if_pos e]
    have : c = f := (List.cons.inj e).1
    subst this
    unfold fitsBound at hf
    rw [hc] at hf
    have := of_decide_eq_true hf
    omega
  · rw [if_neg e]; exact h c b hc r

theorem fitsBound_none {f m : Nat} (h : B.lookup f = none) : fitsBound B f m = true := by
  unfold fitsBound; rw [h]

include hB in
theorem bnd_pos {d : Data} {k : Nat} {q : Path} {v : Nat} (hk : k < 1000) (h : Bnd B d) : Bnd B (upd d (k :: q) v) :=
  bnd_upd (m := v) (fitsBound_none (hB k hk)) (Nat.le_refl _) h

include hB in
theorem bnd_storeArray {blk n q} : ∀ (cnt k : Nat) (s : S), k + cnt ≤ 1000 → Bnd B s.data →
    Bnd B (storeArray blk n q cnt k s).data
  | 0, _, _, _, h => h
  | cnt + 1, k, s, hk, h => by
    unfold storeArray
    exact bnd_storeArray cnt (k + 1) _ (by omega) (bnd_pos hB (by omega) h)

include hB in
theorem bnd_storeLeft {blk n q} (s : S) (hn : (n + 7) / 8 ≤ 1000) (h : Bnd B s.data) : Bnd B (storeLeft blk n q s).data := by
  unfold storeLeft
  have h1 := bnd_storeArray hB (blk := blk) (n := 8) (q := q) (n / 8) 0 s (by omega) h
  dsimp only
  by_cases hz : n % 8 = 0
  · rw [if_pos hz]; exact h1
  · rw [if_neg hz]; exact bnd_pos hB (by omega) h1

include hB in
theorem bnd_storeRight {blk n q} (s : S) (hn : (n + 7) / 8 ≤ 1000) (h : Bnd B s.data) : Bnd B (storeRight blk n q s).data := by
  unfold storeRight
  by_cases hz : n % 8 = 0
  · rw [if_pos hz]; exact bnd_storeArray hB _ _ _ (by omega) h
  · rw [if_neg hz]; exact bnd_storeArray hB _ _ _ (by omega) (bnd_pos hB (by omega) h)

theorem loop_safe {size : Nat} {el : Nat → S → R} (hel : ∀ k s, Bnd B s.data → Safe B (el k s)) :
    ∀ (cnt k : Nat) (s : S), k + cnt ≤ size → Bnd B s.data → Safe B (loop size el cnt k s)
  | 0, _, _, _, h => h
  | cnt + 1, k, s, hk, h => by
    unfold loop
    rw [if_neg (show ¬ size ≤ k by omega)]
    exact (hel k s h).bind fun s h => loop_safe hel cnt (k + 1) s (by omega) h

theorem recLoop_safe {blk size el cf p} (hc : B.lookup cf = none) (hel : ∀ k s, Bnd B s.data → Safe B (el k s)) :
    ∀ (fuel k : Nat) (s : S), Bnd B s.data → Safe B (recLoop blk size el (cf :: p) fuel k s)
  | 0, _, _, _ => trivial
  | fuel + 1, k, s, h => by
    unfold recLoop
    dsimp only
    split
    · split
      · exact trivial
      · refine (hel k (nextElement blk s).2 h).bind fun s h => ?_
        split
        · exact trivial
        · exact recLoop_safe hc hel fuel (k + 1) s h
    · exact bnd_upd (fitsBound_none hc) (Nat.le_refl _) h

theorem recLoop1_safe {blk size el cf p} (hc : B.lookup cf = none) (hel : ∀ k s, Bnd B s.data → Safe B (el k s)) :
    ∀ (fuel k : Nat) (s : S), Bnd B s.data → Safe B (recLoop1 blk size el (cf :: p) fuel k s)
  | 0, _, _, _ => trivial
  | fuel + 1, k, s, h => by
    unfold recLoop1
    split
    · exact trivial
    · refine (hel k _ h).bind fun s h => ?_
      dsimp only
      split
      · exact trivial
      · split
        · exact recLoop1_safe hc hel fuel (k + 1) _ h
        · exact bnd_upd (fitsBound_none hc) (Nat.le_refl _) h

theorem atMost_le {cf n : Nat} {d : Data} {p : Path} (h : atMost B cf n = true) (hd : Bnd B d) : d (cf :: p) ≤ n := by
  unfold atMost at h
  cases e : B.lookup cf with
  | none => rw [e] at h; exact absurd h Bool.false_ne_true
  | some b =>
    rw [e] at h
    exact Nat.le_trans (hd cf b e p) (of_decide_eq_true h)

mutual
theorem safe_item (blk : List Bool) (hB : ∀ c, c < 1000 → B.lookup c = none) : ∀ (i : Item) (p : Path) (s : S), safeItem B i = true → Bnd B s.data → Safe B (decItem blk i p s)
  | .bit f, p, s, hs, h => by
    rw [safeItem] at hs
    rw [decItem]
    split
    · exact bnd_upd hs (readField_lt blk s.pos 1) h
    · exact trivial
  | .null, p, s, _, h => by rw [decItem]; exact h
  | .uint n f _, p, s, hs, h => by
    rw [safeItem] at hs
    rw [decItem]
    split
    · exact bnd_upd hs (readField_lt blk s.pos n) h
    · split
      · exact bnd_upd hs (Nat.zero_le _) h
      · exact trivial
  | .uintOffset n f off, p, s, hs, h => by
    rw [safeItem] at hs
    rw [decItem]
    split
    · refine bnd_upd hs ?_ h
      have := readField_lt blk s.pos n
      exact Nat.le_trans (Nat.mod_le _ _) (by omega)
    · exact trivial
  | .uintArray n f cnt size, p, s, hs, h => by
    rw [safeItem, Bool.and_eq_true, decide_eq_true_eq, decide_eq_true_eq] at hs
    rw [decItem]
    split
    · rw [if_neg (show ¬ size < cnt by omega)]
      exact bnd_storeArray hB cnt 0 s (by omega) h
    · exact trivial
  | .typeArray d f cnt size, p, s, hs, h => by
    rw [safeItem, Bool.and_eq_true, decide_eq_true_eq] at hs
    rw [decItem]
    refine loop_safe (fun k s h => ?_) cnt 0 s (by omega) h
    split
    · exact trivial
    · exact safe_items blk hB d 0 _ s hs.2 h
  | .varTArray d f cf size, p, s, hs, h => by
    rw [safeItem, Bool.and_eq_true] at hs
    rw [decItem]
    have := atMost_le (p := p) hs.1 h
    refine loop_safe (fun k s h => ?_) _ 0 s (by omega) h
    split
    · exact trivial
    · exact safe_items blk hB d 0 _ s hs.2 h
  | .bitmap n f size, p, s, hs, h => by
    rw [safeItem, Bool.or_eq_true, beq_iff_eq, decide_eq_true_eq] at hs
    rw [decItem]
    by_cases hz : n = 0
    · rw [if_pos hz]; exact h
    · rw [if_neg hz]
      have hs := hs.resolve_left hz
      split
      · exact trivial
      · dsimp only
        rw [if_neg (Nat.not_lt.2 hs)]
        refine bnd_storeArray hB _ 0 s ?_ h
        split <;> omega
  | .type d f _, p, s, hs, h => by
    rw [safeItem] at hs
    rw [decItem]
    split
    · exact h
    · split
      · exact trivial
      · exact safe_items blk hB d 0 _ s hs h
  | .choice f alts, p, s, hs, h => by
    rw [safeItem, Bool.and_eq_true, Option.isNone_iff_eq_none] at hs
    rw [decItem]
    exact safe_alts blk hB alts 0 f p s hs.1 hs.2 h
  | .serialize n fs d, p, s, hs, h => by
    rw [safeItem] at hs
    rw [decItem]
    have key : ∀ rem pos, Safe B (decItems blk d 0 (fs ++ p) ⟨rem, pos, s.data⟩) := fun _ _ => safe_items blk hB d 0 _ _ hs h
    refine safe_ite trivial (Safe.bind (key _ _) ?_)
    intro s h
    exact h
  | .union n f els, p, s, hs, h => by
    rw [safeItem, Bool.and_eq_true] at hs
    rw [decItem]
    exact safe_union blk hB els _ p _ hs.2 (bnd_upd hs.1 (readField_lt blk s.pos n) h)
  | .varBitmap f cf size, p, s, hs, h => by
    rw [safeItem, Bool.and_eq_true, decide_eq_true_eq] at hs
    rw [decItem]
    have := atMost_le (p := p) hs.1 h
    dsimp only
    split
    · exact h
    · split
      · exact trivial
      · rw [if_neg (show ¬ size < (s.data (cf :: p) + 7) / 8 by omega)]
        exact bnd_storeRight hB s (by omega) h
  | .leftVarBmp f cf size, p, s, hs, h => by
    rw [safeItem, Bool.and_eq_true, decide_eq_true_eq] at hs
    rw [decItem]
    have := atMost_le (p := p) hs.1 h
    dsimp only
    split
    · exact h
    · split
      · exact trivial
      · rw [if_neg (show ¬ size < (s.data (cf :: p) + 7) / 8 by omega)]
        exact bnd_storeLeft hB s (by omega) h
  | .leftVarBmp1 f cf size, p, s, hs, h => by
    rw [safeItem, Bool.and_eq_true, Bool.and_eq_true, decide_eq_true_eq, decide_eq_true_eq, Option.isNone_iff_eq_none] at hs
    rw [decItem]
    have hu : Bnd B (upd s.data (cf :: p) (s.rem.toNat % 256)) := bnd_upd (fitsBound_none hs.1.1) (Nat.le_refl _) h
    dsimp only
    split
    · exact hu
    · split
      · exact trivial
      · rw [if_neg (show ¬ size < (s.rem.toNat % 256 + 7) / 8 by omega)]
        exact bnd_storeLeft hB _ (by omega) hu
  | .padding, p, s, _, h => by rw [decItem]; exact h
  | .varArray f cf size, p, s, hs, h => by
    rw [safeItem, Bool.and_eq_true, decide_eq_true_eq] at hs
    rw [decItem]
    have := atMost_le (p := p) hs.1 h
    dsimp only
    split
    · exact h
    · split
      · exact trivial
      · rw [if_neg (show ¬ size < s.data (cf :: p) by omega)]
        exact bnd_storeArray hB _ 0 s (by omega) h
  | .recArray _ _ _ _, _, _, hs, _ => absurd hs (by rw [safeItem]; exact Bool.false_ne_true)
  | .recTArray d f cf size, p, s, hs, h => by
    rw [safeItem, Bool.and_eq_true, Option.isNone_iff_eq_none] at hs
    rw [decItem]
    refine recLoop_safe hs.1 (fun k s h => ?_) _ 0 s h
    split
    · exact trivial
    · exact safe_items blk hB d 0 _ s hs.2 h
  | .recTArray1 d f cf size, p, s, hs, h => by
    rw [safeItem, Bool.and_eq_true, Option.isNone_iff_eq_none] at hs
    rw [decItem]
    refine recLoop1_safe hs.1 (fun k s h => ?_) _ 0 s h
    split
    · exact trivial
    · exact safe_items blk hB d 0 _ s hs.2 h
  | .fixed n v, p, s, _, h => by
    rw [decItem]
    split
    · exact h
    · exact trivial
  | .trap, _, _, _, _ => by rw [decItem]; exact trivial
theorem safe_items (blk : List Bool) (hB : ∀ c, c < 1000 → B.lookup c = none) : ∀ (is : Items) (skip : Nat) (p : Path) (s : S), safeItems B is = true → Bnd B s.data →
    Safe B (decItems blk is skip p s)
  | .nil, _, _, _, _, h => by rw [decItems]; exact h
  | .cons i is, skip + 1, p, s, hs, h => by
    rw [safeItems, Bool.and_eq_true] at hs
    rw [decItems]
    exact safe_items blk hB is skip p s hs.2 h
  | .opt f _ _ sk is, skip + 1, p, s, hs, h => by
    rw [safeItems, Bool.and_eq_true] at hs
    rw [decItems]
    exact safe_items blk hB is skip p s hs.2 h
  | .cons i is, 0, p, s, hs, h => by
    rw [safeItems, Bool.and_eq_true] at hs
    rw [decItems]
    refine (safe_item blk hB i p s hs.1 h).bind fun s h => ?_
    split
    · exact trivial
    · exact safe_items blk hB is 0 p s hs.2 h
  | .opt f _ _ sk is, 0, p, s, hs, h => by
    rw [safeItems, Bool.and_eq_true] at hs
    rw [decItems]
    split
    · exact safe_items blk hB is sk p _ hs.2 (bnd_upd hs.1 (Nat.zero_le _) h)
    · dsimp only
      split
      · exact trivial
      · exact safe_items blk hB is _ p _ hs.2 (bnd_upd hs.1 (Bool.toNat_le _) h)
theorem safe_alts (blk : List Bool) (hB : ∀ c, c < 1000 → B.lookup c = none) : ∀ (as : Alts) (k f : Nat) (p : Path) (s : S), B.lookup f = none → safeAlts B as = true → Bnd B s.data →
    Safe B (decAlts blk as k f p s)
  | .nil, _, _, _, _, _, _, _ => by rw [decAlts]; exact trivial
  | .cons b v i as, k, f, p, s, hf, hs, h => by
    rw [safeAlts, Bool.and_eq_true] at hs
    rw [decAlts]
    dsimp only
    split
    · split
      · exact trivial
      · refine (safe_item blk hB i p _ hs.1 (bnd_upd (fitsBound_none hf) (Nat.le_refl _) h)).bind fun s h => ?_
        split
        · exact trivial
        · exact h
    · exact safe_alts blk hB as (k + 1) f p _ hf hs.2 h
theorem safe_union (blk : List Bool) (hB : ∀ c, c < 1000 → B.lookup c = none) : ∀ (is : Items) (k : Nat) (p : Path) (s : S), safeUnion B is = true → Bnd B s.data →
    Safe B (decUnion blk is k p s)
  | .nil, _, _, _, _, _ => by rw [decUnion]; exact trivial
  | .opt _ _ _ _ _, _, _, _, _, _ => by rw [decUnion]; exact trivial
  | .cons i is, k, p, s, hs, h => by
    rw [safeUnion, Bool.and_eq_true] at hs
    rw [decUnion]
    split
    · exact safe_item blk hB i p s hs.1 h
    · exact safe_union blk hB is (k - 1) p s hs.2 h
end
end

end Verif.Csn1
