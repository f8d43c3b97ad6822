import Verif.Lemmas.Segment
/-! What a receiver makes of the block layouts the sender produces. -/
namespace Verif.Seg

theorem block_eq (a : Asm) (edge : Bool) (mem : Nat → Nat) (n : Nat) (e cv : Nat)
    (ch : List Ext) (offs : Nat) (rd : List Nat) (ps : List Piece)
    (he : e = 0)
    (hp : (if edge then parseEgprs mem n (decide (cv = 0)) (some 16) (n + 2) 0 [] []
      else parseGprs mem n (decide (cv = 0)) (some 16) (n + 2) 0 [] []) = .ok ch offs rd)
    (hpl : place n offs ch = some ps) :
    a.block edge mem n ⟨e, cv, false, false⟩ = runPieces mem a ps := by
  subst he
  have : (fromUl edge mem n ⟨0, cv, false, false⟩ (some 16)).pieces = some ps := by
    unfold fromUl
    simp only [ne_eq, not_true_eq_false, if_false]
    cases edge
    · simp only [Bool.false_eq_true, if_false] at hp ⊢
      rw [hp]; simp [hpl]
    · simp only [if_true] at hp ⊢
      rw [hp]; simp [hpl]
  unfold Asm.block
  rw [this]; rfl

/-- A block without length octets. -/
theorem block_plain (a : Asm) (edge : Bool) (R : List Nat) (junk : Nat → Nat) (n cv : Nat)
    (hR : R ≠ []) (hn : R.length = n) :
    a.block edge (memOf R junk) n ⟨1, cv, false, false⟩ = a.piece R (decide (cv = 0)) := by
  have hl : 0 < R.length := List.length_pos_iff.2 hR
  have hpl : place n 0 [(toEnd, decide (cv = 0))] = some [⟨0, n, decide (cv = 0)⟩] := by
    simp only [place]
    rw [if_neg (by omega)]
    simp
  have : (fromUl edge (memOf R junk) n ⟨1, cv, false, false⟩ (some 16)).pieces =
      some [⟨0, n, decide (cv = 0)⟩] := by
    unfold fromUl
    simp [hpl]
  unfold Asm.block
  rw [this]
  have hb := bytes_mid [] R [] junk 0 n (decide (cv = 0)) rfl hn.symm
  simp only [List.nil_append, List.append_nil] at hb
  simp only [List.foldl_cons, List.foldl_nil]
  rw [hb]

section
variable (a : Asm) (qs : List (List Nat)) (p R : List Nat) (junk : Nat → Nat) (n cv : Nat)

/-- GPRS, last length octet with M=0: the rest is filling. -/
theorem block_gprs_fill (hq : ∀ q ∈ qs, 1 ≤ q.length ∧ q.length < 64)
    (hp : 1 ≤ p.length ∧ p.length < 64) (hk : qs.length + 2 ≤ 16)
    (data : List Nat)
    (hd : data = qs.map (fun q => 4 * q.length + 2) ++ [4 * p.length + 1] ++ (qs ++ [p]).flatten ++ R)
    (hn : data.length = n) :
    a.block false (memOf data junk) n ⟨0, cv, false, false⟩ = asmAll a (qs ++ [p]) := by
  have hlen : qs.length + 1 + (qs ++ [p]).flatten.length + R.length = n := by
    rw [← hn, hd]
    simp only [List.length_append, List.length_map, List.length_cons, List.length_nil]
  have hd1 : data = [] ++ qs.map (fun q => 4 * q.length + 2) ++
      ([4 * p.length + 1] ++ (qs ++ [p]).flatten ++ R) := by rw [hd]; simp [List.append_assoc]
  obtain ⟨rd', h⟩ := parseGprs_cont junk n (decide (cv = 0)) (n + 2 - qs.length) qs []
    ([4 * p.length + 1] ++ (qs ++ [p]).flatten ++ R) 0 [] [] rfl hq (by simp; omega) (by simp; omega)
  rw [← hd1] at h
  have hf : n + 2 - qs.length + qs.length = n + 2 := by omega
  rw [hf] at h
  have hm : memOf data junk (0 + qs.length) = 4 * p.length + 1 := by
    have : data = qs.map (fun q => 4 * q.length + 2) ++ (4 * p.length + 1) ::
        ((qs ++ [p]).flatten ++ R) := by rw [hd]; simp [List.append_assoc]
    rw [this]; exact memOf_at _ _ _ _ _ (by simp)
  have h2 := (parseGprs_last (memOf data junk) n (decide (cv = 0)) (n + 1 - qs.length)
    (0 + qs.length) ([] ++ qs.map (fun q => (q.length, true))) rd' p.length hp.1 (by omega)
    (by simp; omega)).1 hm
  have hf2 : n + 1 - qs.length + 1 = n + 2 - qs.length := by omega
  rw [hf2] at h2
  rw [h2] at h
  obtain ⟨pieces, h3, h4⟩ := (place_fold junk n (qs ++ [p])
    (qs.map (fun q => 4 * q.length + 2) ++ [4 * p.length + 1]) R a
    (by intro q hq'; simp only [List.mem_append, List.mem_singleton] at hq'
        rcases hq' with hq' | rfl
        · exact Nat.lt_trans (hq q hq').2 (by omega)
        · omega) (by simp only [List.length_append, List.length_map, List.length_cons,
                      List.length_nil] at hlen ⊢; omega)).1
  rw [← hd] at h4
  rw [← h4]
  refine block_eq a false _ n 0 cv _ _ _ pieces rfl (by simp only [Bool.false_eq_true, if_false]; exact h) ?_
  rw [← h3]
  simp

/-- GPRS, last length octet with M=1, E=1: one more piece follows, up to the end. -/
theorem block_gprs_more (hq : ∀ q ∈ qs, 1 ≤ q.length ∧ q.length < 64)
    (hp : 1 ≤ p.length ∧ p.length < 64) (hk : qs.length + 2 ≤ 16) (hR : R ≠ [])
    (data : List Nat)
    (hd : data = qs.map (fun q => 4 * q.length + 2) ++ [4 * p.length + 3] ++ (qs ++ [p]).flatten ++ R)
    (hn : data.length = n) :
    a.block false (memOf data junk) n ⟨0, cv, false, false⟩ =
      (asmAll a (qs ++ [p])).piece R (decide (cv = 0)) := by
  have hlen : qs.length + 1 + (qs ++ [p]).flatten.length + R.length = n := by
    rw [← hn, hd]
    simp only [List.length_append, List.length_map, List.length_cons, List.length_nil]
  have hd1 : data = [] ++ qs.map (fun q => 4 * q.length + 2) ++
      ([4 * p.length + 3] ++ (qs ++ [p]).flatten ++ R) := by rw [hd]; simp [List.append_assoc]
  obtain ⟨rd', h⟩ := parseGprs_cont junk n (decide (cv = 0)) (n + 2 - qs.length) qs []
    ([4 * p.length + 3] ++ (qs ++ [p]).flatten ++ R) 0 [] [] rfl hq (by simp; omega) (by simp; omega)
  rw [← hd1] at h
  have hf : n + 2 - qs.length + qs.length = n + 2 := by omega
  rw [hf] at h
  have hm : memOf data junk (0 + qs.length) = 4 * p.length + 3 := by
    have : data = qs.map (fun q => 4 * q.length + 2) ++ (4 * p.length + 3) ::
        ((qs ++ [p]).flatten ++ R) := by rw [hd]; simp [List.append_assoc]
    rw [this]; exact memOf_at _ _ _ _ _ (by simp)
  have h2 := (parseGprs_last (memOf data junk) n (decide (cv = 0)) (n + 1 - qs.length)
    (0 + qs.length) ([] ++ qs.map (fun q => (q.length, true))) rd' p.length hp.1 (by omega)
    (by simp; omega)).2.1 hm
  have hf2 : n + 1 - qs.length + 1 = n + 2 - qs.length := by omega
  rw [hf2] at h2
  rw [h2] at h
  obtain ⟨pieces, h3, h4⟩ := (place_fold junk n (qs ++ [p])
    (qs.map (fun q => 4 * q.length + 2) ++ [4 * p.length + 3]) R a
    (by intro q hq'; simp only [List.mem_append, List.mem_singleton] at hq'
        rcases hq' with hq' | rfl
        · exact Nat.lt_trans (hq q hq').2 (by omega)
        · omega) (by simp only [List.length_append, List.length_map, List.length_cons,
                      List.length_nil] at hlen ⊢; omega)).2 (decide (cv = 0))
  rw [if_neg hR] at h4
  rw [← hd] at h4
  rw [← h4]
  refine block_eq a false _ n 0 cv _ _ _ pieces rfl (by simp only [Bool.false_eq_true, if_false]; exact h) ?_
  rw [← h3]
  simp

/-- GPRS, last length octet with LI=0: the frame goes on in the next block. -/
theorem block_gprs_li0 (hq : ∀ q ∈ qs, 1 ≤ q.length ∧ q.length < 64)
    (hk : qs.length + 2 ≤ 16)
    (data : List Nat)
    (hd : data = qs.map (fun q => 4 * q.length + 2) ++ [1] ++ qs.flatten ++ R)
    (hn : data.length = n) :
    a.block false (memOf data junk) n ⟨0, cv, false, false⟩ =
      if R = [] then asmAll a qs else (asmAll a qs).piece R (decide (cv = 0)) := by
  have hlen : qs.length + 1 + qs.flatten.length + R.length = n := by
    rw [← hn, hd]
    simp only [List.length_append, List.length_map, List.length_cons, List.length_nil]
  have hd1 : data = [] ++ qs.map (fun q => 4 * q.length + 2) ++
      ([1] ++ qs.flatten ++ R) := by rw [hd]; simp [List.append_assoc]
  obtain ⟨rd', h⟩ := parseGprs_cont junk n (decide (cv = 0)) (n + 2 - qs.length) qs []
    ([1] ++ qs.flatten ++ R) 0 [] [] rfl hq (by simp; omega) (by simp; omega)
  rw [← hd1] at h
  have hf : n + 2 - qs.length + qs.length = n + 2 := by omega
  rw [hf] at h
  have hm : memOf data junk (0 + qs.length) = 1 := by
    have : data = qs.map (fun q => 4 * q.length + 2) ++ 1 ::
        (qs.flatten ++ R) := by rw [hd]; simp [List.append_assoc]
    rw [this]; exact memOf_at _ _ _ _ _ (by simp)
  have h2 := (parseGprs_last (memOf data junk) n (decide (cv = 0)) (n + 1 - qs.length)
    (0 + qs.length) ([] ++ qs.map (fun q => (q.length, true))) rd' 1 (by omega) (by omega)
    (by simp; omega)).2.2 hm
  have hf2 : n + 1 - qs.length + 1 = n + 2 - qs.length := by omega
  rw [hf2] at h2
  rw [h2] at h
  obtain ⟨pieces, h3, h4⟩ := (place_fold junk n qs
    (qs.map (fun q => 4 * q.length + 2) ++ [1]) R a
    (by intro q hq'; exact Nat.lt_trans (hq q hq').2 (by omega))
    (by simp only [List.length_append, List.length_map, List.length_cons,
                      List.length_nil] at hlen ⊢; omega)).2 (decide (cv = 0))
  rw [← hd] at h4
  rw [← h4]
  refine block_eq a false _ n 0 cv _ _ _ pieces rfl (by simp only [Bool.false_eq_true, if_false]; exact h) ?_
  rw [← h3]
  simp

/-- EGPRS, last length octet with E=1: the rest, if any, is one more piece. -/
theorem block_egprs_more (hq : ∀ q ∈ qs ++ [p], q.length < 127)
    (hz : ∀ q ∈ (qs ++ [p]).tail, q ≠ []) (hk : qs.length + 2 ≤ 16)
    (data : List Nat)
    (hd : data = qs.map (fun q => 2 * q.length) ++ [2 * p.length + 1] ++ (qs ++ [p]).flatten ++ R)
    (hn : data.length = n) :
    a.block true (memOf data junk) n ⟨0, cv, false, false⟩ =
      if R = [] then asmAll a (qs ++ [p]) else (asmAll a (qs ++ [p])).piece R (decide (cv = 0)) := by
  have hlen : qs.length + 1 + (qs ++ [p]).flatten.length + R.length = n := by
    rw [← hn, hd]
    simp only [List.length_append, List.length_map, List.length_cons, List.length_nil]
  have hd1 : data = [] ++ qs.map (fun q => 2 * q.length) ++
      ([2 * p.length + 1] ++ (qs ++ [p]).flatten ++ R) := by rw [hd]; simp [List.append_assoc]
  have hzq : ∀ q ∈ qs.tail, q ≠ [] := by
    intro q hq'
    apply hz
    cases qs with
    | nil => simp at hq'
    | cons x xs => simp at hq' ⊢; exact Or.inl hq'
  obtain ⟨rd', h⟩ := parseEgprs_cont junk n (decide (cv = 0)) (n + 2 - qs.length) qs []
    ([2 * p.length + 1] ++ (qs ++ [p]).flatten ++ R) 0 [] [] rfl (fun q hq' => hq q (by simp [hq']))
    hzq (by simp) (by simp; omega) (by simp; omega)
  rw [← hd1] at h
  have hf : n + 2 - qs.length + qs.length = n + 2 := by omega
  rw [hf] at h
  have hm : memOf data junk (0 + qs.length) = 2 * p.length + 1 := by
    have : data = qs.map (fun q => 2 * q.length) ++ (2 * p.length + 1) ::
        ((qs ++ [p]).flatten ++ R) := by rw [hd]; simp [List.append_assoc]
    rw [this]; exact memOf_at _ _ _ _ _ (by simp)
  have h2 := (parseEgprs_last (memOf data junk) n (decide (cv = 0)) (n + 1 - qs.length)
    (0 + qs.length) ([] ++ qs.map (fun q => (q.length, true))) rd' p.length (hq p (by simp))
    (by intro hne h0
        have hqs : qs ≠ [] := by intro h; subst h; exact hne rfl
        cases qs with
        | nil => exact hqs rfl
        | cons x xs => exact hz p (by simp) (List.length_eq_zero_iff.1 h0))
    (by omega) (by simp; omega)).1 hm
  have hf2 : n + 1 - qs.length + 1 = n + 2 - qs.length := by omega
  rw [hf2] at h2
  rw [h2] at h
  obtain ⟨pieces, h3, h4⟩ := (place_fold junk n (qs ++ [p])
    (qs.map (fun q => 2 * q.length) ++ [2 * p.length + 1]) R a
    (by intro q hq'; exact Nat.lt_trans (hq q hq') (by omega))
    (by simp only [List.length_append, List.length_map, List.length_cons,
                      List.length_nil] at hlen ⊢; omega)).2 (decide (cv = 0))
  rw [← hd] at h4
  rw [← h4]
  refine block_eq a true _ n 0 cv _ _ _ pieces rfl (by simp only [if_true]; exact h) ?_
  rw [← h3]
  simp

/-- EGPRS, last length octet LI=127: the rest is filling. -/
theorem block_egprs_fill (hq : ∀ q ∈ qs, q.length < 127)
    (hz : ∀ q ∈ qs.tail, q ≠ []) (hk : qs.length + 2 ≤ 16)
    (data : List Nat)
    (hd : data = qs.map (fun q => 2 * q.length) ++ [255] ++ qs.flatten ++ R)
    (hn : data.length = n) :
    a.block true (memOf data junk) n ⟨0, cv, false, false⟩ = asmAll a qs := by
  have hlen : qs.length + 1 + qs.flatten.length + R.length = n := by
    rw [← hn, hd]
    simp only [List.length_append, List.length_map, List.length_cons, List.length_nil]
  have hd1 : data = [] ++ qs.map (fun q => 2 * q.length) ++
      ([255] ++ qs.flatten ++ R) := by rw [hd]; simp [List.append_assoc]
  obtain ⟨rd', h⟩ := parseEgprs_cont junk n (decide (cv = 0)) (n + 2 - qs.length) qs []
    ([255] ++ qs.flatten ++ R) 0 [] [] rfl hq hz (by simp) (by simp; omega) (by simp; omega)
  rw [← hd1] at h
  have hf : n + 2 - qs.length + qs.length = n + 2 := by omega
  rw [hf] at h
  have hm : memOf data junk (0 + qs.length) = 255 := by
    have : data = qs.map (fun q => 2 * q.length) ++ 255 ::
        (qs.flatten ++ R) := by rw [hd]; simp [List.append_assoc]
    rw [this]; exact memOf_at _ _ _ _ _ (by simp)
  have h2 := (parseEgprs_last (memOf data junk) n (decide (cv = 0)) (n + 1 - qs.length)
    (0 + qs.length) ([] ++ qs.map (fun q => (q.length, true))) rd' 1 (by omega) (by omega) (by omega)
    (by simp; omega)).2 hm
  have hf2 : n + 1 - qs.length + 1 = n + 2 - qs.length := by omega
  rw [hf2] at h2
  rw [h2] at h
  obtain ⟨pieces, h3, h4⟩ := (place_fold junk n qs
    (qs.map (fun q => 2 * q.length) ++ [255]) R a
    (by intro q hq'; exact Nat.lt_trans (hq q hq') (by omega))
    (by simp only [List.length_append, List.length_map, List.length_cons,
                      List.length_nil] at hlen ⊢; omega)).1
  rw [← hd] at h4
  rw [← h4]
  refine block_eq a true _ n 0 cv _ _ _ pieces rfl (by simp only [if_true]; exact h) ?_
  rw [← h3]
  simp

end

end Verif.Seg
