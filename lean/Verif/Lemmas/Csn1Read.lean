import Verif.Lemmas.Csn1Dec
/-!
# The decoder reads what a table says: all tables
-/

namespace Verif.Csn1

open Verif.Bits (put length_put)

mutual
theorem nonempty_item (σ : Data) : ∀ (i : Item) (p : Path), i.nonempty = true → 0 < (bitsItem σ i p).length
  | .bit f, p, _ => by unfold bitsItem; rw [length_put]; omega
  | .uint n f _, p, h => by
    unfold Item.nonempty at h; unfold bitsItem; rw [length_put]
    have := bne_iff_ne.1 h; omega
  | .uintOffset n f off, p, h => by
    unfold Item.nonempty at h; unfold bitsItem; rw [length_put]
    have := bne_iff_ne.1 h; omega
  | .type d f _, p, h => by
    unfold Item.nonempty at h; unfold bitsItem; exact nonempty_items σ d _ h
  | .recTArray d f cf _, p, _ => by unfold bitsItem; rw [List.length_append, List.length_singleton]; omega
  | .recTArray1 d f cf _, p, _ => by unfold bitsItem; rw [List.length_append, List.length_singleton]; omega
  | .recArray n f cf _, p, _ => by unfold bitsItem; rw [List.length_append, List.length_singleton]; omega
  | .serialize n fs d, p, h => by
    unfold Item.nonempty at h; unfold bitsItem; rw [List.length_append, length_put]
    have := bne_iff_ne.1 h; omega
  | .union n f els, p, h => by
    unfold Item.nonempty at h; unfold bitsItem; rw [List.length_append, length_put]
    have := bne_iff_ne.1 h; omega
  | .null, _, h => absurd h (by unfold Item.nonempty; exact Bool.false_ne_true)
  | .uintArray _ _ _ _, _, h => absurd h (by unfold Item.nonempty; exact Bool.false_ne_true)
  | .typeArray _ _ _ _, _, h => absurd h (by unfold Item.nonempty; exact Bool.false_ne_true)
  | .varTArray _ _ _ _, _, h => absurd h (by unfold Item.nonempty; exact Bool.false_ne_true)
  | .bitmap _ _ _, _, h => absurd h (by unfold Item.nonempty; exact Bool.false_ne_true)
  | .choice _ _, _, h => absurd h (by unfold Item.nonempty; exact Bool.false_ne_true)
  | .varBitmap _ _ _, _, h => absurd h (by unfold Item.nonempty; exact Bool.false_ne_true)
  | .leftVarBmp _ _ _, _, h => absurd h (by unfold Item.nonempty; exact Bool.false_ne_true)
  | .leftVarBmp1 _ _ _, _, h => absurd h (by unfold Item.nonempty; exact Bool.false_ne_true)
  | .padding, _, h => absurd h (by unfold Item.nonempty; exact Bool.false_ne_true)
  | .varArray _ _ _, _, h => absurd h (by unfold Item.nonempty; exact Bool.false_ne_true)
  | .fixed _ _, _, h => absurd h (by unfold Item.nonempty; exact Bool.false_ne_true)
  | .trap, _, h => absurd h (by unfold Item.nonempty; exact Bool.false_ne_true)
theorem nonempty_items (σ : Data) : ∀ (is : Items) (p : Path), is.nonempty = true → 0 < (bitsItems σ is 0 p).length
  | .nil, _, h => absurd h (by unfold Items.nonempty; exact Bool.false_ne_true)
  | .cons i is, p, h => by
    unfold Items.nonempty at h; unfold bitsItems; rw [List.length_append]
    have := nonempty_item σ i p h; omega
  | .opt f _ _ skip is, p, _ => by unfold bitsItems; rw [List.length_append, length_put]; omega
end

theorem avoid_bits (σ : Data) (b v : Nat) (p : Path) : ∀ (as : Alts) (j : Nat), as.avoid b v = true → fitsAlts σ as j p →
    ∃ b' v' tl, bitsAlts σ as j p = put b' v' ++ tl ∧ b ≤ b' ∧ v' / 2 ^ (b' - b) ≠ v ∧ v' < 2 ^ b'
  | .nil, _, _, h => absurd h (by unfold fitsAlts; exact id)
  | .cons b' v' i as, 0, h, hf => by
    unfold Alts.avoid at h
    unfold fitsAlts at hf
    simp only [Bool.and_eq_true, decide_eq_true_eq, bne_iff_ne] at h
    exact ⟨b', v', bitsItem σ i p, by rw [bitsAlts], h.1.1, h.1.2, hf.1⟩
  | .cons b' v' i as, j + 1, h, hf => by
    unfold Alts.avoid at h
    unfold fitsAlts at hf
    simp only [Bool.and_eq_true] at h
    rw [bitsAlts]
    exact avoid_bits σ b v p as j h.2 hf

theorem add_toNat (a : Nat) : a + (0 : Int).toNat = a := rfl

mutual
theorem decItem_good (σ : Data) (blk : List Bool) : ∀ (i : Item) (K : List Nat) (p : Path) (s : S) (b : List Bool),
    wfItem i K = true → fitsItem σ i p → (∀ c ∈ K, s.data (c :: p) = σ (c :: p)) →
    At blk s.pos (bitsItem σ i p ++ b) → ((bitsItem σ i p).length : Int) ≤ s.rem →
    (opensItem σ i p = true → s.rem = (bitsItem σ i p).length) →
    Good σ (decItem blk i p s) (s.rem - (bitsItem σ i p).length) (s.pos + (bitsItem σ i p).length) s.data (hasItem σ i p)
  | .bit f, K, p, s, b, _, hf, _, hat, hl, _ => by
    unfold fitsItem at hf
    unfold bitsItem at hat hl ⊢
    rw [length_put] at hl ⊢
    unfold decItem
    rw [if_pos (show 0 < s.rem by omega), store_at hat hf]
    exact ⟨_, rfl, fun q hq => upd_good rfl q (hq.imp id (by unfold hasItem; exact id))⟩
  | .null, K, p, s, b, _, _, _, _, _, _ => by
    unfold bitsItem decItem
    refine ⟨s.data, ?_, fun q hq => hq.elim id (by unfold hasItem; exact False.elim)⟩
    show R.ok s = R.ok ⟨s.rem - 0, s.pos, s.data⟩
    rw [Int.sub_zero]
  | .uint n f orNull, K, p, s, b, _, hf, _, hat, hl, _ => by
    unfold fitsItem at hf
    unfold bitsItem at hat hl ⊢
    rw [length_put] at hl ⊢
    unfold decItem
    rw [if_pos hl, store_at hat hf]
    exact ⟨_, rfl, fun q hq => upd_good rfl q (hq.imp id (by unfold hasItem; exact id))⟩
  | .uintOffset n f off, K, p, s, b, _, hf, _, hat, hl, _ => by
    unfold fitsItem at hf
    unfold bitsItem at hat hl ⊢
    rw [length_put] at hl ⊢
    unfold decItem
    rw [if_pos hl, hat.read (by omega)]
    refine ⟨_, rfl, fun q hq => upd_good ?_ q (hq.imp id (by unfold hasItem; exact id))⟩
    dsimp only
    rw [Nat.mod_eq_of_lt (show σ (f :: p) - off + off < 256 by omega)]
    omega
  | .uintArray n f cnt size, K, p, s, b, hw, hf, _, hat, hl, _ => by
    unfold wfItem at hw
    unfold fitsItem at hf
    unfold bitsItem at hat hl ⊢
    rw [length_elems] at hl ⊢
    unfold decItem
    have hc := of_decide_eq_true hw
    rw [if_pos hl, if_neg (show ¬ size < cnt by omega)]
    obtain ⟨d', e, hd⟩ := storeArray_elems hat hf
    dsimp only
    rw [e]
    exact ⟨d', rfl, fun q hq => hd q (hq.imp id (by unfold hasItem; exact id))⟩
  | .typeArray d f cnt size, K, p, s, b, hw, hf, _, hat, hl, _ => by
    unfold wfItem at hw
    simp only [Bool.and_eq_true, decide_eq_true_eq, Bool.not_eq_true'] at hw
    unfold fitsItem at hf
    unfold bitsItem at hat hl ⊢
    unfold decItem
    rw [range_eq] at hat hl ⊢
    have hel : ElGood σ blk (fun k s => if s.rem < 0 then .err else decItems blk d 0 (k :: f :: p) s)
        (fun k => bitsItems σ d 0 (k :: f :: p)) (fun k => hasItems σ d 0 (k :: f :: p)) cnt := by
      intro k hk s b hat hl
      have := decItems_good σ blk d 0 [] [] (k :: f :: p) s b hw.1.1.2 (hf k hk) (fun _ _ h => absurd h (List.not_mem_nil))
        (fun h => absurd rfl h) hat hl (fun h => absurd (hw.1.2 ▸ open_items σ _ _ h) Bool.false_ne_true)
      dsimp only
      rw [if_neg (show ¬ s.rem < 0 by omega)]
      rw [hw.2] at this
      exact this
    exact (loop_good hel cnt 0 s b (by omega) (by omega) hat hl).mono
      (fun q => by unfold hasItem; exact fun ⟨k, h1, h2⟩ => ⟨k, by omega, by omega, h2⟩)
  | .varTArray d f cf size, K, p, s, b, hw, hf, hK, hat, hl, _ => by
    unfold wfItem at hw
    simp only [Bool.and_eq_true, List.contains_iff_mem, Bool.not_eq_true'] at hw
    unfold fitsItem at hf
    unfold bitsItem at hat hl ⊢
    unfold decItem
    rw [range_eq] at hat hl ⊢
    rw [hK cf hw.1.1.1]
    have hel : ElGood σ blk (fun k s => if s.rem < 0 then .err else decItems blk d 0 (k :: f :: p) s)
        (fun k => bitsItems σ d 0 (k :: f :: p)) (fun k => hasItems σ d 0 (k :: f :: p)) (σ (cf :: p)) := by
      intro k hk s b hat hl
      have := decItems_good σ blk d 0 [] [] (k :: f :: p) s b hw.1.1.2 (hf.2 k hk) (fun _ _ h => absurd h (List.not_mem_nil))
        (fun h => absurd rfl h) hat hl (fun h => absurd (hw.1.2 ▸ open_items σ _ _ h) Bool.false_ne_true)
      dsimp only
      rw [if_neg (show ¬ s.rem < 0 by omega)]
      rw [hw.2] at this
      exact this
    exact (loop_good hel _ 0 s b (by omega) (by omega) hat hl).mono
      (fun q => by unfold hasItem; exact fun ⟨k, h1, h2⟩ => ⟨k, by omega, by omega, h2⟩)
  | .bitmap n f size, K, p, s, b, hw, hf, _, hat, hl, _ => by
    unfold wfItem at hw
    simp only [Bool.and_eq_true, Bool.or_eq_true, beq_iff_eq, decide_eq_true_eq] at hw
    unfold fitsItem at hf
    unfold bitsItem at hat hl ⊢
    rw [length_elems] at hl ⊢
    unfold decItem
    have hm : (if n ≤ 32 then 4 else 8) = n / 8 := by
      rcases hw.1 with h | h <;> subst h <;> rfl
    have hn : 8 * (n / 8) = n := by omega
    rw [hn] at hl ⊢
    dsimp only
    rw [if_neg (show ¬ n = 0 by omega), if_neg (show ¬ s.rem < n by omega), hm, if_neg (show ¬ size < n / 8 by omega)]
    obtain ⟨d', e, hd⟩ := storeArray_elems hat hf
    rw [e, hn]
    exact ⟨d', rfl, fun q hq => hd q (hq.imp id (by unfold hasItem; exact id))⟩
  | .type d f orNull, K, p, s, b, hw, hf, _, hat, hl, ho => by
    unfold wfItem at hw
    simp only [Bool.and_eq_true, Bool.or_eq_true, Bool.not_eq_true'] at hw
    unfold fitsItem at hf
    unfold bitsItem at hat hl ho ⊢
    unfold decItem
    unfold opensItem at ho
    have hc : ¬ (orNull && decide (s.rem = 0)) = true := by
      intro h
      simp only [Bool.and_eq_true, decide_eq_true_eq] at h
      rcases hw.2 with h2 | h2
      · rw [h.1] at h2; exact Bool.false_ne_true h2.symm
      · have := nonempty_items σ d (f :: p) h2; omega
    rw [if_neg hc, if_neg (show ¬ s.rem < 0 by omega)]
    have := decItems_good σ blk d 0 [] [] (f :: p) s b hw.1.1 hf (fun _ _ h => absurd h (List.not_mem_nil))
      (fun h => absurd rfl h) hat hl ho
    rw [hw.1.2] at this
    exact this.mono (fun q => by unfold hasItem; exact id)
  | .choice f alts, K, p, s, b, hw, hf, hK, hat, hl, ho => by
    unfold wfItem at hw
    unfold fitsItem at hf
    unfold bitsItem at hat hl ho ⊢
    unfold decItem
    unfold opensItem at ho
    exact (decAlts_good σ blk alts (σ (f :: p)) 0 f K p s b hw hf (by omega) hK hat hl ho).mono
      (fun q => by unfold hasItem; exact id)
  | .serialize n fs d, K, p, s, b, hw, hf, _, hat, hl, _ => by
    unfold wfItem at hw
    unfold fitsItem at hf
    unfold bitsItem at hat hl ⊢
    obtain ⟨hf, hpos, hlt, h8⟩ := hf
    rw [List.append_assoc] at hat
    rw [List.length_append, length_put] at hl ⊢
    unfold decItem
    rw [hat.read hlt]
    have h256 : (2 : Nat) ^ n ≤ 256 := Nat.pow_le_pow_right (by omega) h8
    have hat2 := hat.step
    rw [length_put] at hat2
    dsimp only
    rw [Nat.mod_eq_of_lt (show (bitsItems σ d 0 (fs ++ p)).length < 256 by omega)]
    rw [if_pos hpos, if_neg (show ¬ (((bitsItems σ d 0 (fs ++ p)).length : Nat) : Int) < 0 by omega)]
    obtain ⟨d', e, hd⟩ := decItems_good σ blk d 0 [] [] (fs ++ p) ⟨((bitsItems σ d 0 (fs ++ p)).length : Int), s.pos + n, s.data⟩ b hw hf
      (fun _ _ h => absurd h (List.not_mem_nil)) (fun h => absurd rfl h) hat2 (Int.le_refl _) (fun _ => rfl)
    rw [e]
    dsimp only [R.bind]
    rw [if_pos hpos]
    refine ⟨d', ?_, fun q hq => hd q (hq.imp id (by unfold hasItem; exact id))⟩
    have hz : (if d.padded = true then (0 : Int) else ((bitsItems σ d 0 (fs ++ p)).length : Int) - ((bitsItems σ d 0 (fs ++ p)).length : Int)) = 0 := by
      split <;> omega
    rw [hz]
    show R.ok ⟨_, s.pos + n + _ + 0, d'⟩ = _
    congr 2 <;> omega
  | .union n f els, K, p, s, b, hw, hf, hK, hat, hl, ho => by
    unfold wfItem at hw
    unfold fitsItem at hf
    unfold bitsItem at hat hl ho ⊢
    rw [List.append_assoc] at hat
    rw [List.length_append, length_put] at hl ho ⊢
    unfold decItem
    rw [hat.read hf.1]
    unfold opensItem at ho
    have hat2 := hat.step
    rw [length_put] at hat2
    obtain ⟨d', e, hd⟩ := decUnion_good σ blk els (σ (f :: p)) K p ⟨s.rem - n, s.pos + n, upd s.data (f :: p) (σ (f :: p))⟩ b hw hf.2
      (fun c hc => upd_good rfl _ (.inl (hK c hc))) hat2 (by show _ ≤ s.rem - _; omega) (by intro h; have := ho h; show s.rem - _ = _; omega)
    dsimp only
    rw [e]
    refine ⟨d', ?_, ?_⟩
    · congr 2 <;> dsimp only <;> omega
    · intro q hq
      refine hd q ?_
      show upd s.data (f :: p) (σ (f :: p)) q = σ q ∨ _
      unfold hasItem at hq
      rcases hq with hq | hq | hq
      · exact .inl (upd_good rfl q (.inl hq))
      · exact .inl (upd_good rfl q (.inr hq))
      · exact .inr hq
  | .varBitmap f cf size, K, p, s, b, hw, hf, hK, hat, hl, _ => by
    unfold wfItem at hw
    have hcf := hK cf (List.contains_iff_mem.1 hw)
    unfold fitsItem at hf
    unfold bitsItem at hat hl ⊢
    rw [length_rightBits] at hl ⊢
    unfold decItem
    dsimp only
    rw [hcf]
    obtain ⟨d', e, hd⟩ := storeRight_at hat hf.2.1 hf.2.2
    by_cases hz : σ (cf :: p) = 0
    · rw [if_pos hz, hz]
      refine ⟨s.data, ?_, ?_⟩
      · show R.ok s = R.ok ⟨s.rem - 0, s.pos, s.data⟩
        rw [Int.sub_zero]
      · intro q hq
        unfold hasItem at hq
        rw [hz] at hq
        exact hq.elim id (fun ⟨k, h, _⟩ => by omega)
    · rw [if_neg hz, if_neg (show ¬ s.rem - (σ (cf :: p) : Int) < 0 by omega), if_neg (show ¬ size < (σ (cf :: p) + 7) / 8 by omega), e]
      exact ⟨d', rfl, fun q hq => hd q (hq.imp id (by unfold hasItem; exact id))⟩
  | .leftVarBmp f cf size, K, p, s, b, hw, hf, hK, hat, hl, _ => by
    unfold wfItem at hw
    have hcf := hK cf (List.contains_iff_mem.1 hw)
    unfold fitsItem at hf
    unfold bitsItem at hat hl ⊢
    rw [length_leftBits] at hl ⊢
    unfold decItem
    dsimp only
    rw [hcf]
    obtain ⟨d', e, hd⟩ := storeLeft_at hat hf.2.1 hf.2.2
    by_cases hz : σ (cf :: p) = 0
    · rw [if_pos hz, hz]
      refine ⟨s.data, ?_, ?_⟩
      · show R.ok s = R.ok ⟨s.rem - 0, s.pos, s.data⟩
        rw [Int.sub_zero]
      · intro q hq
        unfold hasItem at hq
        rw [hz] at hq
        exact hq.elim id (fun ⟨k, h, _⟩ => by omega)
    · rw [if_neg hz, if_neg (show ¬ s.rem - (σ (cf :: p) : Int) < 0 by omega), if_neg (show ¬ size < (σ (cf :: p) + 7) / 8 by omega), e]
      exact ⟨d', rfl, fun q hq => hd q (hq.imp id (by unfold hasItem; exact id))⟩
  | .leftVarBmp1 f cf size, K, p, s, b, _, hf, _, hat, hl, ho => by
    unfold fitsItem at hf
    unfold bitsItem at hat hl ho ⊢
    rw [length_leftBits] at hl ho ⊢
    have ho := ho rfl
    unfold decItem
    dsimp only
    have hn : s.rem.toNat % 256 = σ (cf :: p) := by omega
    rw [hn]
    obtain ⟨d', e, hd⟩ := storeLeft_at (s := ⟨s.rem, s.pos, upd s.data (cf :: p) (σ (cf :: p))⟩) hat hf.2.2.1 hf.2.2.2
    by_cases hz : σ (cf :: p) = 0
    · rw [if_pos hz, hz]
      refine ⟨upd s.data (cf :: p) 0, ?_, ?_⟩
      · show R.ok ⟨s.rem, s.pos, _⟩ = R.ok ⟨s.rem - 0, s.pos, _⟩
        rw [Int.sub_zero]
      · intro q hq
        unfold hasItem at hq
        rw [hz] at hq
        rcases hq with hq | hq | ⟨k, h, _⟩
        · exact upd_good hz.symm q (.inl hq)
        · exact upd_good hz.symm q (.inr hq)
        · omega
    · rw [if_neg hz, if_neg (show ¬ s.rem - (σ (cf :: p) : Int) < 0 by omega), if_neg (show ¬ size < (σ (cf :: p) + 7) / 8 by omega), e]
      refine ⟨d', rfl, fun q hq => hd q ?_⟩
      unfold hasItem at hq
      show upd s.data (cf :: p) (σ (cf :: p)) q = σ q ∨ _
      rcases hq with hq | hq | hq
      · exact .inl (upd_good rfl q (.inl hq))
      · exact .inl (upd_good rfl q (.inr hq))
      · exact .inr hq
  | .padding, _, _, _, _, hw, _, _, _, _, _ => absurd hw (by unfold wfItem; exact Bool.false_ne_true)
  | .varArray f cf size, K, p, s, b, hw, hf, hK, hat, hl, _ => by
    unfold wfItem at hw
    have hcf := hK cf (List.contains_iff_mem.1 hw)
    unfold fitsItem at hf
    unfold bitsItem at hat hl ⊢
    rw [length_elems] at hl ⊢
    unfold decItem
    dsimp only
    rw [hcf]
    obtain ⟨d', e, hd⟩ := storeArray_elems hat hf.2
    by_cases hz : σ (cf :: p) = 0
    · rw [if_pos hz, hz]
      refine ⟨s.data, ?_, ?_⟩
      · show R.ok s = R.ok ⟨s.rem - 0, s.pos, s.data⟩
        rw [Int.sub_zero]
      · intro q hq
        unfold hasItem at hq
        rw [hz] at hq
        exact hq.elim id (fun ⟨k, h, _⟩ => by omega)
    · rw [if_neg hz, if_neg (show ¬ s.rem - ((8 * σ (cf :: p) : Nat) : Int) < 0 by omega), if_neg (show ¬ size < σ (cf :: p) by omega), e]
      exact ⟨d', rfl, fun q hq => hd q (hq.imp id (by unfold hasItem; exact id))⟩
  | .recArray n f cf size, K, p, s, b, _, hf, _, hat, hl, _ => by
    unfold fitsItem at hf
    unfold bitsItem at hat hl ⊢
    rw [range_eq] at hat hl ⊢
    rw [List.append_assoc, List.singleton_append] at hat
    rw [List.length_append, List.length_singleton] at hl ⊢
    unfold decItem
    have hfuel : σ (cf :: p) < s.rem.toNat + 2 := by
      rw [length_flat _ (n + 1) (fun k => by rw [List.length_cons, length_put]), List.length_range'] at hl
      have : (n + 1) * σ (cf :: p) ≥ 1 * σ (cf :: p) := Nat.mul_le_mul_right _ (by omega)
      omega
    exact (recArrayLoop_good hf.1 hf.2.1 rfl hf.2.2 (σ (cf :: p)) 0 _ s b (by omega) hfuel hat hl).mono
      (fun q => by unfold hasItem; exact fun h => h.imp id (fun ⟨k, h1, h2⟩ => ⟨k, by omega, by omega, h2⟩))
  | .recTArray d f cf size, K, p, s, b, hw, hf, _, hat, hl, _ => by
    unfold wfItem at hw
    simp only [Bool.and_eq_true, Bool.not_eq_true'] at hw
    unfold fitsItem at hf
    unfold bitsItem at hat hl ⊢
    rw [range_eq] at hat hl ⊢
    rw [List.append_assoc, List.singleton_append] at hat
    rw [List.length_append, List.length_singleton] at hl ⊢
    unfold decItem
    have hel : ElGood σ blk (fun k s => if s.rem < 0 then .err else decItems blk d 0 (k :: f :: p) s)
        (fun k => bitsItems σ d 0 (k :: f :: p)) (fun k => hasItems σ d 0 (k :: f :: p)) (σ (cf :: p)) := by
      intro k hk s b hat hl
      have := decItems_good σ blk d 0 [] [] (k :: f :: p) s b hw.1.1 (hf.2.2 k hk) (fun _ _ h => absurd h (List.not_mem_nil))
        (fun h => absurd rfl h) hat hl (fun h => absurd (hw.1.2 ▸ open_items σ _ _ h) Bool.false_ne_true)
      dsimp only
      rw [if_neg (show ¬ s.rem < 0 by omega)]
      rw [hw.2] at this
      exact this
    have hfuel : σ (cf :: p) < s.rem.toNat + 2 := by
      have := length_flat_ge (fun k => true :: bitsItems σ d 0 (k :: f :: p)) (fun k => by rw [List.length_cons]; omega) (List.range' 0 (σ (cf :: p)))
      rw [List.length_range'] at this
      omega
    exact (recLoop_good hf.1 hf.2.1 rfl hel (σ (cf :: p)) 0 _ s b (by omega) hfuel hat hl).mono
      (fun q => by unfold hasItem; exact fun h => h.imp id (fun ⟨k, h1, h2⟩ => ⟨k, by omega, by omega, h2⟩))
  | .recTArray1 d f cf size, K, p, s, b, hw, hf, _, hat, hl, _ => by
    unfold wfItem at hw
    simp only [Bool.and_eq_true, Bool.not_eq_true'] at hw
    unfold fitsItem at hf
    have hsh : ((List.range (σ (cf :: p) - 1)).flatMap fun k => true :: bitsItems σ d 0 ((k + 1) :: f :: p))
        = (List.range' (0 + 1) (σ (cf :: p) - 1)).flatMap fun k => true :: bitsItems σ d 0 (k :: f :: p) := by
      have : List.range' (0 + 1) (σ (cf :: p) - 1) = (List.range (σ (cf :: p) - 1)).map (· + 1) := by
        rw [List.range'_eq_map_range]
        exact List.map_congr_left fun a _ => by omega
      rw [this, List.flatMap_map]
    unfold bitsItem at hat hl ⊢
    rw [hsh] at hat hl ⊢
    rw [List.append_assoc, List.singleton_append] at hat
    rw [List.length_append, List.length_singleton] at hl ⊢
    unfold decItem
    have hel : ElGood σ blk (fun k s => if s.rem < 0 then .err else decItems blk d 0 (k :: f :: p) s)
        (fun k => bitsItems σ d 0 (k :: f :: p)) (fun k => hasItems σ d 0 (k :: f :: p)) (σ (cf :: p)) := by
      intro k hk s b hat hl
      have := decItems_good σ blk d 0 [] [] (k :: f :: p) s b hw.1.1 (hf.2.2.2 k hk) (fun _ _ h => absurd h (List.not_mem_nil))
        (fun h => absurd rfl h) hat hl (fun h => absurd (hw.1.2 ▸ open_items σ _ _ h) Bool.false_ne_true)
      dsimp only
      rw [if_neg (show ¬ s.rem < 0 by omega)]
      rw [hw.2] at this
      exact this
    have hfuel : σ (cf :: p) - 1 < s.rem.toNat + 2 := by
      have := length_flat_ge (fun k => true :: bitsItems σ d 0 (k :: f :: p)) (fun k => by rw [List.length_cons]; omega) (List.range' (0 + 1) (σ (cf :: p) - 1))
      rw [List.length_range'] at this
      rw [List.length_append] at hl
      omega
    exact (recLoop1_good hf.2.1 hf.2.2.1 rfl hel (σ (cf :: p) - 1) 0 _ s b (by omega) hfuel hat hl).mono
      (fun q => by unfold hasItem; exact fun h => h.imp id (fun ⟨k, h1, h2⟩ => ⟨k, by omega, by omega, h2⟩))
  | .fixed n v, K, p, s, b, _, hf, _, hat, hl, _ => by
    unfold fitsItem at hf
    unfold bitsItem at hat hl ⊢
    rw [length_put] at hl ⊢
    unfold decItem
    rw [hat.read hf]
    dsimp only
    rw [if_pos rfl]
    exact ⟨s.data, rfl, fun q hq => hq.elim id (by unfold hasItem; exact False.elim)⟩
  | .trap, _, _, _, _, _, hf, _, _, _, _ => absurd hf (by unfold fitsItem; exact id)

theorem decItems_good (σ : Data) (blk : List Bool) : ∀ (is : Items) (skip : Nat) (K ends : List Nat) (p : Path) (s : S) (b : List Bool),
    wfItems is K ends = true → fitsItems σ is p → (skip = 0 → ∀ c ∈ K, s.data (c :: p) = σ (c :: p)) →
    (skip ≠ 0 → skip ∈ ends) →
    At blk s.pos (bitsItems σ is skip p ++ b) → ((bitsItems σ is skip p).length : Int) ≤ s.rem →
    (opensItems σ is p = true → s.rem = (bitsItems σ is skip p).length) →
    Good σ (decItems blk is skip p s) (if is.padded then 0 else s.rem - (bitsItems σ is skip p).length)
      (s.pos + (bitsItems σ is skip p).length) s.data (hasItems σ is skip p)
  | .nil, skip, K, ends, p, s, b, _, _, _, _, _, _, _ => by
    rw [bitsItems, decItems]
    refine ⟨s.data, ?_, fun q hq => hq.elim id (by rw [hasItems]; exact False.elim)⟩
    show R.ok s = R.ok ⟨s.rem - 0, s.pos, s.data⟩
    rw [Int.sub_zero]
  | .cons i is, skip + 1, K, ends, p, s, b, hw, hf, hK, he, hat, hl, ho => by
    rw [bitsItems] at hat hl ho ⊢
    rw [decItems]
    rw [fitsItems] at hf
    have he := he (by omega)
    rw [wfItems] at hw
    by_cases hp : i.isPad = true
    · rw [if_pos hp] at hw
      simp only [Bool.and_eq_true] at hw
      rw [List.isEmpty_iff.1 hw.2] at he
      exact absurd he List.not_mem_nil
    · rw [if_neg hp] at hw
      simp only [Bool.and_eq_true] at hw
      have hpd : (Items.cons i is).padded = is.padded := by
        show ((i.isPad && is.isEnd) || is.padded) = is.padded
        rw [Bool.eq_false_iff.2 hp]; rfl
      rw [hpd]
      refine (decItems_good σ blk is skip _ _ p s b hw.2 hf.2 ?_ ?_ hat hl ?_).mono ?_
      · intro h0 c hc
        subst h0
        rw [if_pos (List.contains_iff_mem.2 he)] at hc
        exact absurd hc List.not_mem_nil
      · intro h0
        refine List.mem_filter.2 ⟨List.mem_map.2 ⟨skip + 1, he, rfl⟩, ?_⟩
        exact bne_iff_ne.2 h0
      · intro h
        exact ho (by rw [opensItems, h, Bool.or_true])
      · intro q
        rw [hasItems]; exact id
  | .opt f orNull nulls sk is, skip + 1, K, ends, p, s, b, hw, hf, hK, he, hat, hl, ho => by
    rw [bitsItems] at hat hl ho ⊢
    rw [decItems]
    rw [fitsItems] at hf
    have he := he (by omega)
    rw [wfItems] at hw
    simp only [Bool.and_eq_true] at hw
    rw [Items.padded]
    refine (decItems_good σ blk is skip _ _ p s b hw.2 hf.2 ?_ ?_ hat hl ?_).mono ?_
    · intro h0 c hc
      subst h0
      rw [if_pos (List.contains_iff_mem.2 he)] at hc
      exact absurd hc List.not_mem_nil
    · intro h0
      refine List.mem_append_right _ (List.mem_filter.2 ⟨List.mem_map.2 ⟨skip + 1, he, rfl⟩, ?_⟩)
      exact bne_iff_ne.2 h0
    · intro h
      exact ho (by rw [opensItems, h])
    · intro q
      rw [hasItems]; exact id
  | .cons i is, 0, K, ends, p, s, b, hw, hf, hK, _, hat, hl, ho => by
    rw [bitsItems, List.append_assoc] at hat
    rw [bitsItems, List.length_append] at hl ho ⊢
    rw [decItems]
    rw [fitsItems] at hf
    rw [wfItems] at hw
    have hK := hK rfl
    by_cases hp : i.isPad = true
    · rw [if_pos hp] at hw
      simp only [Bool.and_eq_true] at hw
      cases is with
      | nil =>
        cases i <;> try (exact absurd hp (by unfold Item.isPad; exact Bool.false_ne_true))
        rw [decItem, bitsItem, bitsItems]
        refine ⟨s.data, ?_, ?_⟩
        · dsimp only [R.bind]
          rw [if_neg (show ¬ (0 : Int) < 0 by omega), decItems]
          rfl
        · intro q hq
          rw [hasItems, hasItem, hasItems] at hq
          exact hq.elim id (fun h => h.elim False.elim False.elim)
      | cons _ _ => exact absurd hw.1 (by unfold Items.isEnd; exact Bool.false_ne_true)
      | opt _ _ _ _ _ => exact absurd hw.1 (by unfold Items.isEnd; exact Bool.false_ne_true)
    · rw [if_neg hp] at hw
      simp only [Bool.and_eq_true, Bool.or_eq_true, Bool.not_eq_true'] at hw
      have hpd : (Items.cons i is).padded = is.padded := by
        show ((i.isPad && is.isEnd) || is.padded) = is.padded
        rw [Bool.eq_false_iff.2 hp]; rfl
      rw [hpd]
      obtain ⟨d1, e1, hd1⟩ := decItem_good σ blk i K p s _ hw.1.1 hf.1 hK hat (by omega) (by
        intro h
        have h1 := ho (by rw [opensItems, h, Bool.true_or])
        have h2 : (bitsItems σ is 0 p).length = 0 := by
          rcases hw.1.2 with (h3 | h3) | h3
          · rw [open_item σ i p h] at h3; exact absurd h3.symm Bool.false_ne_true
          · cases is with
            | nil => rw [bitsItems]; rfl
            | cons _ _ => exact absurd h3 (by unfold Items.isEnd; exact Bool.false_ne_true)
            | opt _ _ _ _ _ => exact absurd h3 (by unfold Items.isEnd; exact Bool.false_ne_true)
          · cases is with
            | nil => rw [bitsItems]; rfl
            | opt _ _ _ _ _ => exact absurd h3 (by unfold Items.isPad; exact Bool.false_ne_true)
            | cons j js =>
              unfold Items.isPad at h3
              simp only [Bool.and_eq_true] at h3
              cases js with
              | cons _ _ => exact absurd h3.2 (by unfold Items.isEnd; exact Bool.false_ne_true)
              | opt _ _ _ _ _ => exact absurd h3.2 (by unfold Items.isEnd; exact Bool.false_ne_true)
              | nil =>
                cases j <;> try (exact absurd h3.1 (by unfold Item.isPad; exact Bool.false_ne_true))
                rw [bitsItems, bitsItem, bitsItems]; rfl
        omega)
      rw [e1]
      dsimp only [R.bind]
      rw [if_neg (show ¬ s.rem - ((bitsItem σ i p).length : Int) < 0 by omega)]
      obtain ⟨d2, e2, hd2⟩ := decItems_good σ blk is 0 _ _ p ⟨s.rem - (bitsItem σ i p).length, s.pos + (bitsItem σ i p).length, d1⟩ b hw.2 hf.2
        (by
          intro _ c hc
          show d1 (c :: p) = σ (c :: p)
          by_cases h1 : ends.contains 1 = true
          · rw [if_pos h1] at hc; exact absurd hc List.not_mem_nil
          · rw [if_neg h1] at hc
            rcases List.mem_append.1 hc with hc | hc
            · refine hd1 _ (.inr ?_)
              cases i <;> first
                | (exact absurd hc (by unfold Item.writes; exact List.not_mem_nil))
                | (unfold Item.writes at hc; rw [List.mem_singleton.1 hc]; unfold hasItem; rfl)
            · exact hd1 _ (.inl (hK c hc)))
        (fun h => absurd rfl h) hat.step (by show _ ≤ s.rem - _; omega)
        (by intro h; have := ho (by rw [opensItems, h, Bool.or_true]); show s.rem - _ = _; omega)
      refine ⟨d2, ?_, ?_⟩
      · rw [e2]
        dsimp only
        congr 2
        · split <;> omega
        · omega
      · intro q hq
        refine hd2 q ?_
        rw [hasItems] at hq
        rcases hq with hq | hq | hq
        · exact .inl (hd1 q (.inl hq))
        · exact .inl (hd1 q (.inr hq))
        · exact .inr hq
  | .opt f orNull nulls skip is, 0, K, ends, p, s, b, hw, hf, hK, _, hat, hl, ho => by
    rw [bitsItems, List.append_assoc] at hat
    rw [bitsItems, List.length_append, length_put] at hl ho ⊢
    rw [decItems]
    rw [fitsItems] at hf
    rw [wfItems] at hw
    simp only [Bool.and_eq_true, Bool.or_eq_true, Bool.not_eq_true'] at hw
    have hK := hK rfl
    have hc : ¬ (orNull && decide (s.rem = 0)) = true := by
      intro h
      simp only [Bool.and_eq_true, decide_eq_true_eq] at h
      omega
    rw [if_neg hc, hat.read hf.1]
    dsimp only
    rw [if_neg (show ¬ s.rem - 1 < 0 by omega), Items.padded]
    have hn : (if σ (f :: p) = 1 then (if s.rem = 1 then nulls else false) else true) = decide (σ (f :: p) = 0) := by
      by_cases h1 : σ (f :: p) = 1
      · rw [if_pos h1, h1]
        by_cases h2 : s.rem = 1
        · rw [if_pos h2]
          rcases hw.1 with h3 | h3
          · rw [h3]; rfl
          · have := nonempty_items σ is p h3
            rw [if_neg (show ¬ σ (f :: p) = 0 by omega)] at hl
            omega
        · rw [if_neg h2]; rfl
      · rw [if_neg h1, show σ (f :: p) = 0 by omega]; rfl
    rw [hn]
    have hv : (!decide (σ (f :: p) = 0)).toNat = σ (f :: p) := by
      have : σ (f :: p) = 0 ∨ σ (f :: p) = 1 := by omega
      rcases this with h | h <;> rw [h] <;> rfl
    rw [hv]
    have hsk : (if decide (σ (f :: p) = 0) = true then skip else 0) = (if σ (f :: p) = 0 then skip else 0) := by
      simp only [decide_eq_true_eq]
    rw [hsk]
    have hat2 := hat.step
    rw [length_put] at hat2
    obtain ⟨d2, e2, hd2⟩ := decItems_good σ blk is (if σ (f :: p) = 0 then skip else 0) _ _ p
      ⟨s.rem - 1, s.pos + 1, upd s.data (f :: p) (σ (f :: p))⟩ b hw.2 hf.2
      (by
        intro _ c hc
        show upd s.data _ _ (c :: p) = σ (c :: p)
        by_cases h1 : ends.contains 1 = true
        · rw [if_pos h1] at hc; exact absurd hc List.not_mem_nil
        · rw [if_neg h1] at hc
          exact upd_good rfl _ (.inl (hK c hc)))
      (by
        intro h
        by_cases h0 : σ (f :: p) = 0
        · rw [if_pos h0] at h ⊢
          rw [if_neg h]
          exact List.mem_append_left _ (List.mem_singleton.2 rfl)
        · rw [if_neg h0] at h
          exact absurd rfl h)
      hat2 (by show _ ≤ s.rem - 1; omega)
      (by intro h; have := ho (by rw [opensItems, h]); show s.rem - 1 = _; omega)
    refine ⟨d2, ?_, ?_⟩
    · rw [e2]
      dsimp only
      congr 2
      · split <;> omega
      · omega
    · intro q hq
      refine hd2 q ?_
      show upd s.data _ _ q = σ q ∨ _
      rw [hasItems] at hq
      rcases hq with hq | hq | hq
      · exact .inl (upd_good rfl q (.inl hq))
      · exact .inl (upd_good rfl q (.inr hq))
      · exact .inr hq

theorem decAlts_good (σ : Data) (blk : List Bool) : ∀ (as : Alts) (j k f : Nat) (K : List Nat) (p : Path) (s : S) (b : List Bool),
    wfAlts as K = true → fitsAlts σ as j p → σ (f :: p) = k + j → (∀ c ∈ K, s.data (c :: p) = σ (c :: p)) →
    At blk s.pos (bitsAlts σ as j p ++ b) → ((bitsAlts σ as j p).length : Int) ≤ s.rem →
    (opensAlts σ as j p = true → s.rem = (bitsAlts σ as j p).length) →
    Good σ (decAlts blk as k f p s) (s.rem - (bitsAlts σ as j p).length)
      (s.pos + (bitsAlts σ as j p).length) s.data (fun q => q = f :: p ∨ hasAlts σ as j p q)
  | .nil, _, _, _, _, _, _, _, _, hf, _, _, _, _, _ => absurd hf (by unfold fitsAlts; exact id)
  | .cons bits value i as, 0, k, f, K, p, s, b, hw, hf, hk, hK, hat, hl, ho => by
    rw [bitsAlts, List.append_assoc] at hat
    rw [bitsAlts, List.length_append, length_put] at hl ho ⊢
    rw [decAlts]
    rw [fitsAlts] at hf
    rw [wfAlts] at hw
    simp only [Bool.and_eq_true] at hw
    rw [hat.read hf.1]
    dsimp only
    rw [if_pos rfl, if_neg (show ¬ s.rem - (bits : Int) < 0 by omega)]
    have hat2 := hat.step
    rw [length_put] at hat2
    obtain ⟨d', e, hd⟩ := decItem_good σ blk i K p ⟨s.rem - bits, s.pos + bits, upd s.data (f :: p) k⟩ b hw.1.1 hf.2
      (fun c hc => upd_good (by omega) _ (.inl (hK c hc))) hat2 (by show _ ≤ s.rem - _; omega)
      (by intro h; have := ho (by rw [opensAlts, h]); show s.rem - _ = _; omega)
    rw [e]
    dsimp only [R.bind]
    rw [if_neg (show ¬ s.rem - (bits : Int) - ((bitsItem σ i p).length : Int) < 0 by omega)]
    refine ⟨d', ?_, ?_⟩
    · congr 2 <;> omega
    · intro q hq
      refine hd q ?_
      show upd s.data _ _ q = σ q ∨ _
      simp only [hasAlts] at hq
      rcases hq with hq | hq | hq
      · exact .inl (upd_good (by omega) q (.inl hq))
      · exact .inl (upd_good (by omega) q (.inr hq))
      · exact .inr hq
  | .cons bits value i as, j + 1, k, f, K, p, s, b, hw, hf, hk, hK, hat, hl, ho => by
    rw [bitsAlts] at hat hl ho ⊢
    rw [fitsAlts] at hf
    rw [wfAlts] at hw
    simp only [Bool.and_eq_true] at hw
    obtain ⟨b', v', tl, e, h1, h2, h3⟩ := avoid_bits σ bits value p as j hw.1.2 hf
    have hr : readField blk s.pos bits = (v' / 2 ^ (b' - bits), s.pos + bits) := by
      have h := hat
      rw [e, List.append_assoc] at h
      exact h.read_prefix h1 h3
    rw [decAlts, hr]
    dsimp only
    rw [if_neg h2, Nat.add_sub_cancel]
    exact (decAlts_good σ blk as j (k + 1) f K p s b hw.2 hf (by omega) hK hat hl
      (by intro h; exact ho (by rw [opensAlts, h]))).mono
      (fun q h => h.imp id (by rw [hasAlts]; exact id))

theorem decUnion_good (σ : Data) (blk : List Bool) : ∀ (is : Items) (k : Nat) (K : List Nat) (p : Path) (s : S) (b : List Bool),
    wfUnion is K = true → fitsUnion σ is k p → (∀ c ∈ K, s.data (c :: p) = σ (c :: p)) →
    At blk s.pos (bitsUnion σ is k p ++ b) → ((bitsUnion σ is k p).length : Int) ≤ s.rem →
    (opensUnion σ is k p = true → s.rem = (bitsUnion σ is k p).length) →
    Good σ (decUnion blk is k p s) (s.rem - (bitsUnion σ is k p).length)
      (s.pos + (bitsUnion σ is k p).length) s.data (hasUnion σ is k p)
  | .nil, _, _, _, _, _, _, hf, _, _, _, _ => absurd hf (by unfold fitsUnion; exact id)
  | .opt _ _ _ _ _, _, _, _, _, _, _, hf, _, _, _, _ => absurd hf (by unfold fitsUnion; exact id)
  | .cons i is, k, K, p, s, b, hw, hf, hK, hat, hl, ho => by
    rw [wfUnion] at hw
    simp only [Bool.and_eq_true] at hw
    rw [fitsUnion] at hf
    rw [bitsUnion] at hat hl ho ⊢
    rw [decUnion]
    have hh : hasUnion σ (.cons i is) k p = fun q => if (decide (k = 0) || is.isEnd) = true then hasItem σ i p q else hasUnion σ is (k - 1) p q := by
      funext q; rw [hasUnion]
    rw [hh]
    by_cases hc : (decide (k = 0) || is.isEnd) = true
    · rw [if_pos hc] at hat hl ho hf ⊢
      rw [if_pos hc]
      refine (decItem_good σ blk i K p s b hw.1 hf hK hat hl (fun h => ho (by rw [opensUnion, if_pos hc, h]))).mono ?_
      intro q h
      rw [if_pos hc] at h
      exact h
    · rw [if_neg hc] at hat hl ho hf ⊢
      rw [if_neg hc]
      refine (decUnion_good σ blk is (k - 1) K p s b hw.2 hf hK hat hl (fun h => ho (by rw [opensUnion, if_neg hc, h]))).mono ?_
      intro q h
      rw [if_neg hc] at h
      exact h
end

end Verif.Csn1
