import Verif.Spec.Csn1
import Verif.Lemmas.BitField
/-!
# The decoder reads what a table says
-/

namespace Verif.Csn1

open Verif.Bits (put length_put)

/-! ## Static conditions on tables -/

mutual
/-- Ends with a bitmap that takes all bits that remain. -/
def Item.open : Item → Bool
  | .leftVarBmp1 _ _ _ => true
  | .type d _ _ => d.open
  | .union _ _ els => els.open
  | .choice _ alts => alts.open
  | _ => false
def Items.open : Items → Bool
  | .nil => false
  | .cons i is => i.open || is.open
  | .opt _ _ _ _ is => is.open
def Alts.open : Alts → Bool
  | .nil => false
  | .cons _ _ i as => i.open || as.open
end

mutual
/-- Ends with a bitmap that takes all bits that remain, with these values. -/
def opensItem (σ : Data) : Item → Path → Bool
  | .leftVarBmp1 _ _ _, _ => true
  | .type d f _, p => opensItems σ d (f :: p)
  | .union _ f els, p => opensUnion σ els (σ (f :: p)) p
  | .choice f alts, p => opensAlts σ alts (σ (f :: p)) p
  | _, _ => false
def opensItems (σ : Data) : Items → Path → Bool
  | .nil, _ => false
  | .cons i is, p => opensItem σ i p || opensItems σ is p
  | .opt _ _ _ _ is, p => opensItems σ is p
def opensAlts (σ : Data) : Alts → Nat → Path → Bool
  | .nil, _, _ => false
  | .cons _ _ i _, 0, p => opensItem σ i p
  | .cons _ _ _ as, k + 1, p => opensAlts σ as k p
def opensUnion (σ : Data) : Items → Nat → Path → Bool
  | .nil, _, _ => false
  | .opt _ _ _ _ _, _, _ => false
  | .cons i is, k, p => if k = 0 || is.isEnd then opensItem σ i p else opensUnion σ is (k - 1) p
end

mutual
theorem open_item (σ : Data) : ∀ (i : Item) (p : Path), opensItem σ i p = true → i.open = true
  | .leftVarBmp1 _ _ _, _, _ => by rw [Item.open]
  | .type d f _, p, h => by rw [opensItem] at h; rw [Item.open]; exact open_items σ d _ h
  | .union _ f els, p, h => by rw [opensItem] at h; rw [Item.open]; exact open_union σ els _ p h
  | .choice f alts, p, h => by rw [opensItem] at h; rw [Item.open]; exact open_alts σ alts _ p h
  | .bit _, _, h => absurd h (by simp only [opensItem]; exact Bool.false_ne_true)
  | .null, _, h => absurd h (by simp only [opensItem]; exact Bool.false_ne_true)
  | .uint _ _ _, _, h => absurd h (by simp only [opensItem]; exact Bool.false_ne_true)
  | .uintOffset _ _ _, _, h => absurd h (by simp only [opensItem]; exact Bool.false_ne_true)
  | .uintArray _ _ _ _, _, h => absurd h (by simp only [opensItem]; exact Bool.false_ne_true)
  | .typeArray _ _ _ _, _, h => absurd h (by simp only [opensItem]; exact Bool.false_ne_true)
  | .varTArray _ _ _ _, _, h => absurd h (by simp only [opensItem]; exact Bool.false_ne_true)
  | .bitmap _ _ _, _, h => absurd h (by simp only [opensItem]; exact Bool.false_ne_true)
  | .serialize _ _ _, _, h => absurd h (by simp only [opensItem]; exact Bool.false_ne_true)
  | .varBitmap _ _ _, _, h => absurd h (by simp only [opensItem]; exact Bool.false_ne_true)
  | .leftVarBmp _ _ _, _, h => absurd h (by simp only [opensItem]; exact Bool.false_ne_true)
  | .padding, _, h => absurd h (by simp only [opensItem]; exact Bool.false_ne_true)
  | .varArray _ _ _, _, h => absurd h (by simp only [opensItem]; exact Bool.false_ne_true)
  | .recArray _ _ _ _, _, h => absurd h (by simp only [opensItem]; exact Bool.false_ne_true)
  | .recTArray _ _ _ _, _, h => absurd h (by simp only [opensItem]; exact Bool.false_ne_true)
  | .recTArray1 _ _ _ _, _, h => absurd h (by simp only [opensItem]; exact Bool.false_ne_true)
  | .fixed _ _, _, h => absurd h (by simp only [opensItem]; exact Bool.false_ne_true)
  | .trap, _, h => absurd h (by simp only [opensItem]; exact Bool.false_ne_true)
theorem open_items (σ : Data) : ∀ (is : Items) (p : Path), opensItems σ is p = true → is.open = true
  | .nil, _, h => absurd h (by rw [opensItems]; exact Bool.false_ne_true)
  | .cons i is, p, h => by
    rw [opensItems, Bool.or_eq_true] at h
    rw [Items.open, Bool.or_eq_true]
    exact h.imp (open_item σ i p) (open_items σ is p)
  | .opt _ _ _ _ is, p, h => by rw [opensItems] at h; rw [Items.open]; exact open_items σ is p h
theorem open_alts (σ : Data) : ∀ (as : Alts) (k : Nat) (p : Path), opensAlts σ as k p = true → as.open = true
  | .nil, _, _, h => absurd h (by rw [opensAlts]; exact Bool.false_ne_true)
  | .cons _ _ i as, 0, p, h => by
    rw [opensAlts] at h
    rw [Alts.open, Bool.or_eq_true]
    exact .inl (open_item σ i p h)
  | .cons _ _ i as, k + 1, p, h => by
    rw [opensAlts] at h
    rw [Alts.open, Bool.or_eq_true]
    exact .inr (open_alts σ as k p h)
theorem open_union (σ : Data) : ∀ (is : Items) (k : Nat) (p : Path), opensUnion σ is k p = true → is.open = true
  | .nil, _, _, h => absurd h (by rw [opensUnion]; exact Bool.false_ne_true)
  | .opt _ _ _ _ _, _, _, h => absurd h (by rw [opensUnion]; exact Bool.false_ne_true)
  | .cons i is, k, p, h => by
    rw [opensUnion] at h
    rw [Items.open, Bool.or_eq_true]
    by_cases c : (decide (k = 0) || is.isEnd) = true
    · rw [if_pos c] at h; exact .inl (open_item σ i p h)
    · rw [if_neg c] at h; exact .inr (open_union σ is (k - 1) p h)
end

/-- Padding. -/
def Item.isPad : Item → Bool
  | .padding => true
  | _ => false

/-- Ends with padding. -/
def Items.padded : Items → Bool
  | .nil => false
  | .cons i is => (i.isPad && is.isEnd) || is.padded
  | .opt _ _ _ _ is => is.padded

/-- Only padding is left. -/
def Items.isPad : Items → Bool
  | .cons i is => i.isPad && is.isEnd
  | _ => false

mutual
/-- At least one bit. -/
def Item.nonempty : Item → Bool
  | .bit _ => true
  | .uint n _ _ => n != 0
  | .uintOffset n _ _ => n != 0
  | .type d _ _ => d.nonempty
  | .recTArray _ _ _ _ => true
  | .recTArray1 _ _ _ _ => true
  | .recArray _ _ _ _ => true
  | .serialize n _ _ => n != 0
  | .union n _ _ => n != 0
  | _ => false
def Items.nonempty : Items → Bool
  | .nil => false
  | .cons i _ => i.nonempty
  | .opt _ _ _ _ _ => true
end

/-- No alternative starts like this selector. -/
def Alts.avoid (b v : Nat) : Alts → Bool
  | .nil => true
  | .cons b' v' _ as => b ≤ b' && v' / 2 ^ (b' - b) != v && as.avoid b v

/-- Member that holds a number from here on. -/
def Item.writes : Item → List Nat
  | .uint _ f _ => [f]
  | .uintOffset _ f _ => [f]
  | _ => []

mutual
/-- `K`: members known to be set. -/
def wfItem : Item → List Nat → Bool
  | .bit _, _ => true
  | .null, _ => true
  | .uint _ _ _, _ => true
  | .uintOffset _ _ _, _ => true
  | .uintArray _ _ cnt size, _ => cnt ≤ size
  | .typeArray d _ cnt size, _ => cnt ≤ size && wfItems d [] [] && !d.open && !d.padded
  | .varTArray d _ cf _, K => K.contains cf && wfItems d [] [] && !d.open && !d.padded
  | .bitmap n _ size, _ => (n == 32 || n == 64) && n / 8 ≤ size
  | .type d _ orNull, _ => wfItems d [] [] && !d.padded && (!orNull || d.nonempty)
  | .choice _ alts, K => wfAlts alts K
  | .serialize _ _ d, _ => wfItems d [] []
  | .union _ _ els, K => wfUnion els K
  | .varBitmap _ cf _, K => K.contains cf
  | .leftVarBmp _ cf _, K => K.contains cf
  | .leftVarBmp1 _ _ _, _ => true
  | .padding, _ => false
  | .varArray _ cf _, K => K.contains cf
  | .recArray _ _ _ _, _ => true
  | .recTArray d _ _ _, _ => wfItems d [] [] && !d.open && !d.padded
  | .recTArray1 d _ _ _, _ => wfItems d [] [] && !d.open && !d.padded
  | .fixed _ _, _ => true
  | .trap, _ => true
/-- `ends`: distances to the ends of optional parts. -/
def wfItems : Items → List Nat → List Nat → Bool
  | .nil, _, _ => true
  | .cons i is, K, ends =>
    if i.isPad then is.isEnd && ends.isEmpty
    else wfItem i K && (!i.open || is.isEnd || is.isPad)
      && wfItems is (if ends.contains 1 then [] else i.writes ++ K) ((ends.map (· - 1)).filter (· != 0))
  | .opt _ _ nulls skip is, K, ends =>
    (!nulls || is.nonempty)
      && wfItems is (if ends.contains 1 then [] else K)
        ((if skip = 0 then [] else [skip]) ++ (ends.map (· - 1)).filter (· != 0))
def wfAlts : Alts → List Nat → Bool
  | .nil, _ => true
  | .cons b v i as, K => wfItem i K && as.avoid b v && wfAlts as K
def wfUnion : Items → List Nat → Bool
  | .nil, _ => true
  | .opt _ _ _ _ _, _ => true
  | .cons i is, K => wfItem i K && wfUnion is K
end

/-! ## Fields -/

theorem foldl_put (v : Nat) : ∀ (n a : Nat),
    (put n v).foldl (fun a b => 2 * a + b.toNat) a = a * 2 ^ n + v % 2 ^ n
  | 0, a => by simp [put, Nat.mod_one]
  | n + 1, a => by
    rw [put, List.foldl_cons, foldl_put v n, Nat.mod_pow_succ, Nat.toNat_testBit, Nat.pow_succ, Nat.add_mul]
    have e1 : 2 * a * 2 ^ n = a * (2 ^ n * 2) := by
      rw [Nat.mul_comm 2 a, Nat.mul_assoc, Nat.mul_comm 2]
    rw [e1, Nat.mul_comm (v / 2 ^ n % 2)]
    omega

theorem num_put (n v : Nat) : num (put n v) = v % 2 ^ n := by
  unfold num
  rw [foldl_put]
  omega

/-- The rest of the block. -/
def At (blk : List Bool) (pos : Nat) (l : List Bool) : Prop := blk.drop pos = l

theorem At.step {blk pos a b} (h : At blk pos (a ++ b)) : At blk (pos + a.length) b := by
  unfold At at *
  rw [← List.drop_drop, h, List.drop_left]

theorem At.read {blk pos n v b} (h : At blk pos (put n v ++ b)) (hv : v < 2 ^ n) :
    readField blk pos n = (v, pos + n) := by
  unfold At at h
  unfold readField
  have hl : blk.length - pos = n + b.length := by
    have := congrArg List.length h
    rw [List.length_drop, List.length_append, length_put] at this
    exact this
  by_cases hn : n = 0
  · subst hn
    have hv0 : v = 0 := by omega
    subst hv0
    by_cases hp : pos + 0 ≤ blk.length
    · rw [if_pos hp, List.take_zero]; rfl
    · rw [if_neg hp]; rfl
  · have hp : pos + n ≤ blk.length := by omega
    rw [if_pos hp, h, List.take_left' (length_put n v), num_put, Nat.mod_eq_of_lt hv]

theorem take_put (v : Nat) : ∀ (n m : Nat), m ≤ n → (put n v).take m = put m (v / 2 ^ (n - m))
  | n, 0, _ => by rw [List.take_zero, put]
  | 0, m + 1, h => absurd h (by omega)
  | n + 1, m + 1, h => by
    rw [put, List.take_succ_cons, put, take_put v n m (by omega)]
    rw [Nat.testBit_div_two_pow, show m + (n + 1 - (m + 1)) = n by omega, show n + 1 - (m + 1) = n - m by omega]

theorem At.read_prefix {blk pos n v b m} (h : At blk pos (put n v ++ b)) (hm : m ≤ n) (hv : v < 2 ^ n) :
    readField blk pos m = (v / 2 ^ (n - m), pos + m) := by
  have e : put n v = put m (v / 2 ^ (n - m)) ++ (put n v).drop m := by
    rw [← take_put v n m hm, List.take_append_drop]
  rw [e, List.append_assoc] at h
  refine h.read ?_
  rw [Nat.div_lt_iff_lt_mul (Nat.two_pow_pos _), ← Nat.pow_add, show m + (n - m) = n by omega]
  exact hv

/-! ## Outcomes -/

/-- Success at the given place with the members in `F` read. -/
def Good (σ : Data) (r : R) (rem : Int) (pos : Nat) (d : Data) (F : Path → Prop) : Prop :=
  ∃ d', r = .ok ⟨rem, pos, d'⟩ ∧ ∀ q, (d q = σ q ∨ F q) → d' q = σ q

theorem Good.mono {σ r rem pos d F G} (h : Good σ r rem pos d F) (hFG : ∀ q, G q → F q) :
    Good σ r rem pos d G := by
  obtain ⟨d', e, hd⟩ := h
  exact ⟨d', e, fun q hq => hd q (hq.imp id (hFG q))⟩

theorem upd_good {σ d : Data} {q : Path} {v : Nat} (hv : v = σ q) (x : Path) (h : d x = σ x ∨ x = q) :
    upd d q v x = σ x := by
  unfold upd
  by_cases e : x = q
  · rw [if_pos e, hv, e]
  · rw [if_neg e]
    exact h.resolve_right e

theorem store_at {blk n q s v b} (h : At blk s.pos (put n v ++ b)) (hv : v < 2 ^ n) :
    store blk n q s = ⟨s.rem, s.pos + n, upd s.data q v⟩ := by
  unfold store
  rw [h.read hv]

theorem range_succ_flatMap {α} (g : Nat → List α) (cnt k : Nat) :
    (List.range' k (cnt + 1)).flatMap g = g k ++ (List.range' (k + 1) cnt).flatMap g := by
  rw [List.range'_succ, List.flatMap_cons]

theorem range_eq (n : Nat) : List.range n = List.range' 0 n := List.range_eq_range'

theorem storeArray_at {σ : Data} {blk n q} : ∀ (cnt k : Nat) (s : S) (b : List Bool),
    At blk s.pos ((List.range' k cnt).flatMap (fun k => put n (σ (k :: q))) ++ b) →
    (∀ j, k ≤ j → j < k + cnt → σ (j :: q) < 2 ^ n) →
    ∃ d', storeArray blk n q cnt k s = ⟨s.rem, s.pos + n * cnt, d'⟩ ∧
      (∀ x, (s.data x = σ x ∨ ∃ j, k ≤ j ∧ j < k + cnt ∧ x = j :: q) → d' x = σ x)
  | 0, k, s, b, _, _ => ⟨s.data, rfl, fun x hx => hx.elim id (fun ⟨j, h1, h2, _⟩ => by omega)⟩
  | cnt + 1, k, s, b, h, hv => by
    rw [range_succ_flatMap, List.append_assoc] at h
    unfold storeArray
    rw [store_at h (hv k (by omega) (by omega))]
    have h' := h.step
    rw [length_put] at h'
    obtain ⟨d', e, hd⟩ := storeArray_at cnt (k + 1) ⟨s.rem, s.pos + n, upd s.data (k :: q) (σ (k :: q))⟩ b h'
      (fun j h1 h2 => hv j (by omega) (by omega))
    refine ⟨d', ?_, ?_⟩
    · rw [e]
      show (⟨s.rem, s.pos + n + n * cnt, d'⟩ : S) = _
      rw [Nat.mul_succ, show s.pos + n + n * cnt = s.pos + (n * cnt + n) by omega]
    · intro x hx
      refine hd x ?_
      show upd s.data (k :: q) (σ (k :: q)) x = σ x ∨ _
      by_cases e2 : x = k :: q
      · left; exact upd_good rfl x (.inr e2)
      · rcases hx with hx | ⟨j, h1, h2, h3⟩
        · left; exact upd_good rfl x (.inl hx)
        · right
          refine ⟨j, ?_, by omega, h3⟩
          by_cases hjk : j = k
          · subst hjk; exact absurd h3 e2
          · omega

theorem storeArray_elems {σ : Data} {blk n q cnt} {s : S} {b : List Bool}
    (h : At blk s.pos (elems σ n q cnt ++ b)) (hv : ∀ j, j < cnt → σ (j :: q) < 2 ^ n) :
    ∃ d', storeArray blk n q cnt 0 s = ⟨s.rem, s.pos + n * cnt, d'⟩ ∧
      (∀ x, (s.data x = σ x ∨ ∃ j, j < cnt ∧ x = j :: q) → d' x = σ x) := by
  unfold elems at h
  rw [range_eq] at h
  obtain ⟨d', e, hd⟩ := storeArray_at cnt 0 s b h (fun j _ h2 => hv j (by omega))
  exact ⟨d', e, fun x hx => hd x (hx.imp id (fun ⟨j, h1, h2⟩ => ⟨j, by omega, by omega, h2⟩))⟩

theorem length_flat {α} (g : Nat → List α) (n : Nat) (hg : ∀ k, (g k).length = n) :
    ∀ l : List Nat, (l.flatMap g).length = n * l.length
  | [] => rfl
  | a :: l => by
    rw [List.flatMap_cons, List.length_append, hg, length_flat g n hg l, List.length_cons, Nat.mul_succ, Nat.add_comm]

theorem length_flat_ge {α} (g : Nat → List α) (hg : ∀ k, 1 ≤ (g k).length) :
    ∀ l : List Nat, l.length ≤ (l.flatMap g).length
  | [] => Nat.le_refl _
  | a :: l => by
    rw [List.flatMap_cons, List.length_append, List.length_cons]
    have := length_flat_ge g hg l
    have := hg a
    omega

theorem length_elems (σ : Data) (n q cnt) : (elems σ n q cnt).length = n * cnt := by
  unfold elems
  rw [length_flat _ n (fun k => length_put n _), List.length_range]

theorem length_leftBits (σ : Data) (n q) : (leftBits σ n q).length = n := by
  unfold leftBits
  rw [List.length_append, length_elems, length_put]
  omega

theorem length_rightBits (σ : Data) (n q) : (rightBits σ n q).length = n := by
  unfold rightBits
  by_cases h : n % 8 = 0
  · rw [if_pos h, length_elems]; omega
  · rw [if_neg h, List.length_append, length_put, length_flat _ 8 (fun k => length_put 8 _), List.length_range]
    omega

theorem storeLeft_at {σ : Data} {blk n q} {s : S} {b : List Bool} (h : At blk s.pos (leftBits σ n q ++ b))
    (h1 : ∀ k, k < n / 8 → σ (k :: q) < 256) (h2 : n % 8 ≠ 0 → σ (n / 8 :: q) < 2 ^ (n % 8)) :
    ∃ d', storeLeft blk n q s = ⟨s.rem, s.pos + n, d'⟩ ∧
      (∀ x, (s.data x = σ x ∨ ∃ j, j < (n + 7) / 8 ∧ x = j :: q) → d' x = σ x) := by
  unfold leftBits at h
  rw [List.append_assoc] at h
  obtain ⟨d1, e1, hd1⟩ := storeArray_elems h h1
  have h' := h.step
  rw [length_elems] at h'
  unfold storeLeft
  dsimp only
  rw [e1]
  by_cases hz : n % 8 = 0
  · rw [if_pos hz]
    refine ⟨d1, ?_, fun x hx => hd1 x (hx.imp id (fun ⟨j, a, b⟩ => ⟨j, by omega, b⟩))⟩
    rw [show s.pos + 8 * (n / 8) = s.pos + n by omega]
  · rw [if_neg hz, store_at (s := ⟨s.rem, s.pos + 8 * (n / 8), d1⟩) h' (h2 hz)]
    refine ⟨upd d1 (n / 8 :: q) (σ (n / 8 :: q)), ?_, ?_⟩
    · show (⟨s.rem, s.pos + 8 * (n / 8) + n % 8, _⟩ : S) = _
      rw [show s.pos + 8 * (n / 8) + n % 8 = s.pos + n by omega]
    · intro x hx
      by_cases e2 : x = n / 8 :: q
      · exact upd_good rfl x (.inr e2)
      · refine upd_good rfl x (.inl (hd1 x (hx.imp id ?_)))
        intro ⟨j, a, b⟩
        refine ⟨j, ?_, b⟩
        by_cases hj : j = n / 8
        · subst hj; exact absurd b e2
        · omega

theorem flatMap_shift (σ : Data) (q : Path) (m : Nat) :
    ((List.range m).flatMap fun k => put 8 (σ ((k + 1) :: q))) = (List.range' 1 m).flatMap fun k => put 8 (σ (k :: q)) := by
  have : List.range' 1 m = (List.range m).map (· + 1) := by
    rw [List.range'_eq_map_range]
    exact List.map_congr_left fun a _ => Nat.add_comm 1 a
  rw [this, List.flatMap_map]

theorem storeRight_at {σ : Data} {blk n q} {s : S} {b : List Bool} (h : At blk s.pos (rightBits σ n q ++ b))
    (h1 : ∀ k, k < (n + 7) / 8 → σ (k :: q) < 256) (h2 : n % 8 ≠ 0 → σ (0 :: q) < 2 ^ (n % 8)) :
    ∃ d', storeRight blk n q s = ⟨s.rem, s.pos + n, d'⟩ ∧
      (∀ x, (s.data x = σ x ∨ ∃ j, j < (n + 7) / 8 ∧ x = j :: q) → d' x = σ x) := by
  unfold rightBits at h
  unfold storeRight
  by_cases hz : n % 8 = 0
  · rw [if_pos hz] at h ⊢
    obtain ⟨d1, e1, hd1⟩ := storeArray_elems h (fun j hj => h1 j (by omega))
    refine ⟨d1, ?_, fun x hx => hd1 x (hx.imp id (fun ⟨j, a, b⟩ => ⟨j, by omega, b⟩))⟩
    rw [e1, show s.pos + 8 * (n / 8) = s.pos + n by omega]
  · rw [if_neg hz] at h ⊢
    rw [List.append_assoc, flatMap_shift] at h
    rw [store_at h (h2 hz)]
    have h' := h.step
    rw [length_put] at h'
    obtain ⟨d1, e1, hd1⟩ := storeArray_at (σ := σ) (blk := blk) (n := 8) (q := q) (n / 8) 1
      ⟨s.rem, s.pos + n % 8, upd s.data (0 :: q) (σ (0 :: q))⟩ b h' (fun j _ hj => h1 j (by omega))
    refine ⟨d1, ?_, ?_⟩
    · rw [e1]
      show (⟨s.rem, s.pos + n % 8 + 8 * (n / 8), d1⟩ : S) = _
      rw [show s.pos + n % 8 + 8 * (n / 8) = s.pos + n by omega]
    · intro x hx
      refine hd1 x ?_
      show upd s.data (0 :: q) (σ (0 :: q)) x = σ x ∨ _
      by_cases e2 : x = 0 :: q
      · left; exact upd_good rfl x (.inr e2)
      · rcases hx with hx | ⟨j, a, b⟩
        · left; exact upd_good rfl x (.inl hx)
        · right
          refine ⟨j, ?_, by omega, b⟩
          by_cases hj : j = 0
          · subst hj; exact absurd b e2
          · omega

/-! ## Loops -/

/-- An element of an array is read well. -/
def ElGood (σ : Data) (blk : List Bool) (el : Nat → S → R) (eb : Nat → List Bool) (ef : Nat → Path → Prop) (N : Nat) : Prop :=
  ∀ k, k < N → ∀ (s : S) (b : List Bool), At blk s.pos (eb k ++ b) → ((eb k).length : Int) ≤ s.rem →
    Good σ (el k s) (s.rem - (eb k).length) (s.pos + (eb k).length) s.data (ef k)

theorem loop_good {σ blk el eb ef N size} (hel : ElGood σ blk el eb ef N) : ∀ (cnt k : Nat) (s : S) (b : List Bool),
    k + cnt ≤ N → k + cnt ≤ size → At blk s.pos ((List.range' k cnt).flatMap eb ++ b) →
    (((List.range' k cnt).flatMap eb).length : Int) ≤ s.rem →
    Good σ (loop size el cnt k s) (s.rem - ((List.range' k cnt).flatMap eb).length)
      (s.pos + ((List.range' k cnt).flatMap eb).length) s.data (fun q => ∃ j, k ≤ j ∧ j < k + cnt ∧ ef j q)
  | 0, k, s, b, _, _, _, _ => by
    refine ⟨s.data, ?_, fun q hq => hq.elim id (fun ⟨j, h1, h2, _⟩ => by omega)⟩
    unfold loop
    rw [List.range'_zero, List.flatMap_nil, List.length_nil]
    show R.ok s = R.ok ⟨s.rem - 0, s.pos + 0, s.data⟩
    rw [Int.sub_zero]; rfl
  | cnt + 1, k, s, b, hN, hs, h, hl => by
    rw [range_succ_flatMap, List.append_assoc] at h
    rw [range_succ_flatMap, List.length_append] at hl
    rw [range_succ_flatMap, List.length_append]
    unfold loop
    rw [if_neg (by omega)]
    obtain ⟨d1, e1, hd1⟩ := hel k (by omega) s _ h (by omega)
    rw [e1]
    obtain ⟨d2, e2, hd2⟩ := loop_good (size := size) hel cnt (k + 1) ⟨s.rem - (eb k).length, s.pos + (eb k).length, d1⟩ b (by omega)
      (by omega) h.step (by show _ ≤ s.rem - _; omega)
    refine ⟨d2, ?_, ?_⟩
    · show loop size el cnt (k + 1) _ = _
      rw [e2]
      show R.ok ⟨s.rem - _ - _, s.pos + _ + _, d2⟩ = _
      congr 2 <;> omega
    · intro q hq
      refine hd2 q ?_
      rcases hq with hq | ⟨j, a, b, c⟩
      · exact .inl (hd1 q (.inl hq))
      · by_cases hj : j = k
        · subst hj; exact .inl (hd1 q (.inr c))
        · exact .inr ⟨j, by omega, by omega, c⟩

theorem getD_at {blk : List Bool} {pos b l} (h : At blk pos (b :: l)) : blk.getD pos false = b := by
  unfold At at h
  rw [List.getD_eq_getElem?_getD, ← List.head?_drop, h]
  rfl

theorem At.next {blk : List Bool} {pos b l} (h : At blk pos (b :: l)) : At blk (pos + 1) l :=
  At.step (a := [b]) h

theorem recLoop_good {σ blk el eb ef size cq} {N : Nat} (hN : N ≤ size) (hN2 : N < 256) (hc : σ cq = N)
    (hel : ElGood σ blk el eb ef N) : ∀ (cnt k fuel : Nat) (s : S) (b : List Bool),
    k + cnt = N → cnt < fuel → At blk s.pos ((List.range' k cnt).flatMap (fun k => true :: eb k) ++ false :: b) →
    (((List.range' k cnt).flatMap (fun k => true :: eb k)).length : Int) + 1 ≤ s.rem →
    Good σ (recLoop blk size el cq fuel k s) (s.rem - (((List.range' k cnt).flatMap (fun k => true :: eb k)).length + 1 : Nat))
      (s.pos + (((List.range' k cnt).flatMap (fun k => true :: eb k)).length + 1)) s.data
      (fun q => q = cq ∨ ∃ j, k ≤ j ∧ j < k + cnt ∧ ef j q)
  | _, _, 0, _, _, _, hf, _, _ => absurd hf (Nat.not_lt_zero _)
  | 0, k, fuel + 1, s, b, hk, _, h, _ => by
    rw [List.range'_zero, List.flatMap_nil, List.nil_append] at h
    rw [List.range'_zero, List.flatMap_nil, List.length_nil]
    unfold recLoop
    dsimp only [nextElement]
    rw [getD_at h]
    refine ⟨upd s.data cq (k % 256), ?_, ?_⟩
    · rfl
    · intro q hq
      refine upd_good ?_ q (hq.imp id (fun hq => hq.resolve_right (fun ⟨j, h1, h2, _⟩ => by omega)))
      rw [hc]; omega
  | cnt + 1, k, fuel + 1, s, b, hk, hf, h, hl => by
    rw [range_succ_flatMap, List.append_assoc, List.cons_append] at h
    rw [range_succ_flatMap, List.length_append, List.length_cons] at hl
    rw [range_succ_flatMap, List.length_append, List.length_cons]
    unfold recLoop
    dsimp only [nextElement]
    rw [getD_at h, if_pos rfl, if_neg (show ¬ size < k + 1 by omega)]
    have h1 := h.next
    obtain ⟨d1, e1, hd1⟩ := hel k (by omega) ⟨s.rem - 1, s.pos + 1, s.data⟩ _ h1 (by show _ ≤ s.rem - 1; omega)
    rw [e1]
    dsimp only [R.bind]
    rw [if_neg (show ¬ s.rem - 1 - ((eb k).length : Int) < 0 by omega)]
    obtain ⟨d2, e2, hd2⟩ := recLoop_good hN hN2 hc hel cnt (k + 1) fuel ⟨s.rem - 1 - (eb k).length, s.pos + 1 + (eb k).length, d1⟩ b
      (by omega) (by omega) h1.step (by show _ ≤ s.rem - 1 - _; omega)
    refine ⟨d2, ?_, ?_⟩
    · rw [e2]
      dsimp only
      congr 2 <;> omega
    · intro q hq
      refine hd2 q ?_
      rcases hq with hq | hq | ⟨j, a, b, c⟩
      · exact .inl (hd1 q (.inl hq))
      · exact .inr (.inl hq)
      · by_cases hj : j = k
        · subst hj; exact .inl (hd1 q (.inr c))
        · exact .inr (.inr ⟨j, by omega, by omega, c⟩)

theorem recLoop1_good {σ blk el eb ef size cq} {N : Nat} (hN : N ≤ size) (hN2 : N < 256) (hc : σ cq = N)
    (hel : ElGood σ blk el eb ef N) : ∀ (cnt k fuel : Nat) (s : S) (b : List Bool),
    k + 1 + cnt = N → cnt < fuel →
    At blk s.pos (eb k ++ (List.range' (k + 1) cnt).flatMap (fun k => true :: eb k) ++ false :: b) →
    ((eb k ++ (List.range' (k + 1) cnt).flatMap (fun k => true :: eb k)).length : Int) + 1 ≤ s.rem →
    Good σ (recLoop1 blk size el cq fuel k s)
      (s.rem - ((eb k ++ (List.range' (k + 1) cnt).flatMap (fun k => true :: eb k)).length + 1 : Nat))
      (s.pos + ((eb k ++ (List.range' (k + 1) cnt).flatMap (fun k => true :: eb k)).length + 1)) s.data
      (fun q => q = cq ∨ ∃ j, k ≤ j ∧ j < k + 1 + cnt ∧ ef j q)
  | _, _, 0, _, _, _, hf, _, _ => absurd hf (Nat.not_lt_zero _)
  | 0, k, fuel + 1, s, b, hk, _, h, hl => by
    rw [List.range'_zero, List.flatMap_nil, List.append_nil] at h hl
    rw [List.range'_zero, List.flatMap_nil, List.append_nil]
    unfold recLoop1
    rw [if_neg (show ¬ size < k + 1 by omega)]
    obtain ⟨d1, e1, hd1⟩ := hel k (by omega) s _ h (by omega)
    rw [e1]
    dsimp only [R.bind, nextElement]
    rw [if_neg (show ¬ s.rem - ((eb k).length : Int) < 0 by omega), getD_at h.step]
    refine ⟨upd d1 cq ((k + 1) % 256), ?_, ?_⟩
    · show R.ok ⟨s.rem - (eb k).length - 1, s.pos + (eb k).length + 1, _⟩ = _
      congr 2
      omega
    · intro q hq
      refine upd_good (by rw [hc]; omega) q ?_
      rcases hq with hq | hq | ⟨j, a, b, c⟩
      · exact .inl (hd1 q (.inl hq))
      · exact .inr hq
      · exact .inl (hd1 q (.inr (by rw [show k = j by omega]; exact c)))
  | cnt + 1, k, fuel + 1, s, b, hk, hf, h, hl => by
    rw [range_succ_flatMap, List.append_assoc, List.append_assoc, List.cons_append] at h
    rw [range_succ_flatMap, List.length_append, List.length_append, List.length_cons] at hl
    rw [range_succ_flatMap, List.length_append, List.length_append, List.length_cons]
    unfold recLoop1
    rw [if_neg (show ¬ size < k + 1 by omega)]
    obtain ⟨d1, e1, hd1⟩ := hel k (by omega) s _ h (by omega)
    rw [e1]
    dsimp only [R.bind, nextElement]
    have h1 := h.step
    rw [if_neg (show ¬ s.rem - ((eb k).length : Int) < 0 by omega), getD_at h1, if_pos rfl]
    obtain ⟨d2, e2, hd2⟩ := recLoop1_good hN hN2 hc hel cnt (k + 1) fuel ⟨s.rem - (eb k).length - 1, s.pos + (eb k).length + 1, d1⟩ b
      (by omega) (by omega) (by rw [List.append_assoc]; exact h1.next) (by rw [List.length_append]; show _ ≤ s.rem - _ - _; omega)
    refine ⟨d2, ?_, ?_⟩
    · rw [e2]
      dsimp only
      rw [List.length_append]
      congr 2 <;> omega
    · intro q hq
      refine hd2 q ?_
      rcases hq with hq | hq | ⟨j, a, b, c⟩
      · exact .inl (hd1 q (.inl hq))
      · exact .inr (.inl hq)
      · by_cases hj : j = k
        · subst hj; exact .inl (hd1 q (.inr c))
        · exact .inr (.inr ⟨j, by omega, by omega, c⟩)

theorem recArrayLoop_good {σ : Data} {blk n size q cq} {N : Nat} (hN : N ≤ size) (hN2 : N < 256) (hc : σ cq = N)
    (hv : ∀ k, k < N → σ (k :: q) < 2 ^ n) : ∀ (cnt k fuel : Nat) (s : S) (b : List Bool),
    k + cnt = N → cnt < fuel →
    At blk s.pos ((List.range' k cnt).flatMap (fun k => true :: put n (σ (k :: q))) ++ false :: b) →
    (((List.range' k cnt).flatMap (fun k => true :: put n (σ (k :: q)))).length : Int) + 1 ≤ s.rem →
    Good σ (recArrayLoop blk n size q cq fuel k s)
      (s.rem - (((List.range' k cnt).flatMap (fun k => true :: put n (σ (k :: q)))).length + 1 : Nat))
      (s.pos + (((List.range' k cnt).flatMap (fun k => true :: put n (σ (k :: q)))).length + 1)) s.data
      (fun x => x = cq ∨ ∃ j, k ≤ j ∧ j < k + cnt ∧ x = j :: q)
  | _, _, 0, _, _, _, hf, _, _ => absurd hf (Nat.not_lt_zero _)
  | 0, k, fuel + 1, s, b, hk, _, h, _ => by
    rw [List.range'_zero, List.flatMap_nil, List.nil_append] at h
    rw [List.range'_zero, List.flatMap_nil, List.length_nil]
    unfold recArrayLoop
    dsimp only [nextElement]
    rw [getD_at h]
    refine ⟨upd s.data cq (k % 256), rfl, ?_⟩
    intro q hq
    refine upd_good ?_ q (hq.imp id (fun hq => hq.resolve_right (fun ⟨j, h1, h2, _⟩ => by omega)))
    rw [hc]; omega
  | cnt + 1, k, fuel + 1, s, b, hk, hf, h, hl => by
    rw [range_succ_flatMap, List.append_assoc, List.cons_append] at h
    rw [range_succ_flatMap, List.length_append, List.length_cons, length_put] at hl
    rw [range_succ_flatMap, List.length_append, List.length_cons, length_put]
    unfold recArrayLoop
    dsimp only [nextElement]
    have h1 := h.next
    rw [getD_at h, if_pos rfl, if_neg (show ¬ size ≤ k by omega),
      store_at (s := ⟨s.rem - 1, s.pos + 1, s.data⟩) h1 (hv k (by omega))]
    dsimp only
    rw [if_neg (show ¬ s.rem - 1 - (n : Int) < 0 by omega)]
    have h2 := h1.step
    rw [length_put] at h2
    obtain ⟨d2, e2, hd2⟩ := recArrayLoop_good hN hN2 hc hv cnt (k + 1) fuel
      ⟨s.rem - 1 - n, s.pos + 1 + n, upd s.data (k :: q) (σ (k :: q))⟩ b
      (by omega) (by omega) h2 (by show _ ≤ s.rem - 1 - _; omega)
    refine ⟨d2, ?_, ?_⟩
    · rw [e2]
      dsimp only
      congr 2 <;> omega
    · intro x hx
      refine hd2 x ?_
      show upd s.data (k :: q) (σ (k :: q)) x = σ x ∨ _
      rcases hx with hx | hx | ⟨j, a, b, c⟩
      · exact .inl (upd_good rfl x (.inl hx))
      · exact .inr (.inl hx)
      · by_cases hj : j = k
        · subst hj; exact .inl (upd_good rfl x (.inr c))
        · exact .inr (.inr ⟨j, by omega, by omega, c⟩)

end Verif.Csn1
