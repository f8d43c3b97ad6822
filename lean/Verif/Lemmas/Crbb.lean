import Verif.Spec.Crbb
namespace Verif.Crbb

theorem search_append (t : Tree) : ∀ (bs rest : List Bool) (n run : Nat),
    search t bs = some (n, run) → search t (bs ++ rest) = some (n, run) := by
  induction t with
  | nil => intro bs rest n run h; simp [search] at h
  | node l r x ihl ihr =>
    intro bs rest n run h
    cases x with
    | some y => simpa [search] using h
    | none =>
      cases bs with
      | nil => simp [search] at h
      | cons b bs =>
        simp only [List.cons_append, search] at h ⊢
        cases b with
        | true =>
          simp only [if_true] at h ⊢
          cases hr : search r bs with
          | none => rw [hr] at h; cases h
          | some p => rw [hr] at h; rw [ihr bs rest _ _ hr]; exact h
        | false =>
          simp only [Bool.false_eq_true, if_false] at h ⊢
          cases hr : search l bs with
          | none => rw [hr] at h; cases h
          | some p => rw [hr] at h; rw [ihl bs rest _ _ hr]; exact h

/-- Every entry of the decoder's code list is found with its own run length. -/
theorem search_codes : ∀ (start : Bool) (i : Fin 79),
    search (tree start) (bitsOf ((codes start)[i.val]!).1 ((codes start)[i.val]!).2) =
      some (((codes start)[i.val]!).1, runOf i.val) := by
  decide +kernel

theorem search_word (c : Bool) (i : Nat) (h : i < 79) :
    search (tree c) (word c i) = some ((word c i).length, runOf i) := by
  have := search_codes c ⟨i, h⟩
  simp only at this
  unfold word
  rw [this]; simp [bitsOf]

theorem term_table : ∀ (c : Bool) (i : Fin 64), codeword c i.val = word c i.val := by
  decide +kernel

theorem makeup_table : ∀ (c : Bool) (i : Fin 15), codeword c ((i.val + 1) * 64) = word c (63 + (i.val + 1)) := by
  decide +kernel

theorem length_bitsOf (len v : Nat) : (bitsOf len v).length = len := by simp [bitsOf]

theorem root_none (start : Bool) : search (tree start) [] = none := by
  cases start <;> decide +kernel

theorem search_pos {start : Bool} {bs : List Bool} {n run : Nat} (h : search (tree start) bs = some (n, run)) :
    0 < n := by
  have hroot : ∃ l r, tree start = .node l r none := by
    have : ∀ s : Bool, (match tree s with | .node _ _ none => true | _ => false) = true := by decide +kernel
    have := this start
    split at this
    · rename_i l r hh; exact ⟨l, r, hh⟩
    · cases this
  obtain ⟨l, r, hh⟩ := hroot
  rw [hh] at h
  cases bs with
  | nil => simp [search] at h
  | cons b bs =>
    simp only [search] at h
    cases hc : search (if b = true then r else l) bs with
    | none => rw [hc] at h; cases h
    | some p => rw [hc] at h; simp at h; omega

/-! ### Writing runs -/

theorem writeRun_spec (start : Bool) : ∀ (fuel run : Nat) (v : BV),
    run ≤ fuel → v.bits.length + run ≤ v.cap →
    writeRun start fuel run (v, v.bits.length) =
      ({ v with bits := v.bits ++ List.replicate run start }, v.bits.length + run) := by
  intro fuel
  induction fuel with
  | zero =>
    intro run v h1 h2
    have : run = 0 := by omega
    subst this; simp [writeRun]
  | succ fuel ih =>
    intro run v h1 h2
    simp only [writeRun]
    by_cases h0 : run = 0
    · subst h0; simp
    · rw [if_neg h0]
      by_cases h8 : run > 8
      · rw [if_pos h8]
        have hw : v.writeField v.bits.length (List.replicate 8 start) =
            ({ v with bits := v.bits ++ List.replicate 8 start }, v.bits.length + 8) := by
          unfold BV.writeField
          simp only [List.take_length, List.length_append, List.length_replicate]
          rw [if_pos (by omega)]
        rw [hw]
        have := ih (run - 8) { v with bits := v.bits ++ List.replicate 8 start } (by omega) (by simp; omega)
        simp only [List.length_append, List.length_replicate] at this
        rw [this]
        simp only [List.append_assoc, List.replicate_append_replicate]
        rw [show 8 + (run - 8) = run by omega, show v.bits.length + 8 + (run - 8) = v.bits.length + run by omega]
      · rw [if_neg h8]
        unfold BV.writeField
        simp only [List.take_length, List.length_append, List.length_replicate]
        rw [if_pos h2]

/-! ### Decoding -/

/-- Decoding `code` from colour `start` appends `l` and succeeds. -/
def Decodes (start : Bool) (code l : List Bool) : Prop :=
  ∀ (fuel : Nat) (v : BV), code.length ≤ fuel → v.bits.length + l.length ≤ v.cap →
    decompLoop fuel start code (v, v.bits.length) = ({ v with bits := v.bits ++ l }, true)

theorem Decodes.nil (start : Bool) : Decodes start [] [] := by
  intro fuel v _ _
  cases fuel <;> simp [decompLoop]

theorem Decodes.step {start : Bool} {cw rest l : List Bool} {run : Nat}
    (hs : search (tree start) cw = some (cw.length, run))
    (hr : Decodes (if run < 64 then !start else start) rest l) :
    Decodes start (cw ++ rest) (List.replicate run start ++ l) := by
  intro fuel v hf hc
  have hpos := search_pos hs
  rw [List.length_append] at hf
  simp only [List.length_append, List.length_replicate] at hc
  cases fuel with
  | zero => omega
  | succ fuel =>
    simp only [decompLoop]
    rw [if_neg (by rw [List.length_append]; omega), search_append _ _ rest _ _ hs]
    simp only [List.drop_left]
    rw [writeRun_spec start run run v (Nat.le_refl _) (by omega)]
    have := hr fuel { v with bits := v.bits ++ List.replicate run start } (by omega) (by simp; omega)
    simp only [List.length_append, List.length_replicate] at this
    rw [this, List.append_assoc]

/-- Everything with a meaning decodes to it. -/
theorem Means.decodes {c : Bool} {code l : List Bool} (h : Means c code l) : Decodes c code l := by
  induction h with
  | nil c => exact Decodes.nil c
  | term c i rest l hi _ ih =>
    have hs := search_word c i (by omega)
    rw [show runOf i = i by simp [runOf, hi]] at hs
    exact Decodes.step hs (by rw [if_pos hi]; exact ih)
  | makeUp c k rest l h1 h2 _ ih =>
    have hs := search_word c (63 + k) (by omega)
    rw [show runOf (63 + k) = 64 * k by unfold runOf; rw [if_neg (by omega)]; omega] at hs
    exact Decodes.step hs (by rw [if_neg (by omega)]; exact ih)

/-! ### Encoding -/

theorem takeWhile_replicate (b : Bool) (bits : List Bool) :
    bits.takeWhile (· == b) = List.replicate (runLength b bits) b := by
  unfold runLength
  rw [List.eq_replicate_iff]
  refine ⟨rfl, ?_⟩
  intro x hx
  have := List.all_takeWhile (l := bits) (p := (· == b))
  rw [List.all_eq_true] at this
  simpa using this x hx

theorem drop_run (b : Bool) (bits : List Bool) :
    bits.drop (runLength b bits) = bits.dropWhile (· == b) := by
  unfold runLength
  induction bits with
  | nil => rfl
  | cons x xs ih =>
    rw [List.takeWhile_cons, List.dropWhile_cons]
    split
    · simpa using ih
    · rfl

theorem take_run (b : Bool) (bits : List Bool) (k : Nat) (hk : k ≤ runLength b bits) :
    bits.take k = List.replicate k b := by
  have h := List.takeWhile_append_dropWhile (p := (· == b)) (l := bits)
  rw [takeWhile_replicate] at h
  generalize runLength b bits = r at h hk
  rw [← h, List.take_append_of_le_length (by rw [List.length_replicate]; omega),
    List.take_replicate, Nat.min_eq_left hk]

theorem runLength_le (b : Bool) (bits : List Bool) : runLength b bits ≤ bits.length := by
  unfold runLength
  exact (List.takeWhile_sublist _).length_le

theorem runLength_pos {b : Bool} {bits : List Bool} (hne : bits ≠ []) (h : bits.headD b = b) :
    0 < runLength b bits := by
  cases bits with
  | nil => exact absurd rfl hne
  | cons x xs =>
    simp only [List.headD_cons] at h
    subst h
    unfold runLength
    rw [List.takeWhile_cons]; simp

theorem headD_drop_run (b : Bool) (bits : List Bool) :
    (bits.drop (runLength b bits)).headD (!b) = !b := by
  rw [drop_run]
  have hd := List.head?_dropWhile_not (p := (· == b)) (l := bits)
  cases hx : bits.dropWhile (· == b) with
  | nil => rfl
  | cons y ys =>
    rw [hx] at hd
    simp only [List.head?_cons] at hd
    simp only [List.headD_cons]
    have : (y == b) = false := by simpa using hd
    cases y <;> cases b <;> simp_all

theorem Means.makeUp' {b : Bool} {k : Nat} {rest l : List Bool} (h1 : 0 < k) (h2 : k ≤ 15) (hr : Means b rest l) :
    Means b (codeword b (k * 64) ++ rest) (List.replicate (k * 64) b ++ l) := by
  have ht := makeup_table b ⟨k - 1, by omega⟩
  simp only [show k - 1 + 1 = k by omega] at ht
  rw [ht, Nat.mul_comm]
  exact Means.makeUp b k rest l h1 h2 hr

/-- One run is coded to itself. -/
theorem Means.run {b : Bool} {r : Nat} {rest l : List Bool} (h : r < 1024) (hr : Means (!b) rest l) :
    Means b ((if r ≥ 64 then codeword b (r / 64 * 64) else []) ++ codeword b (r % 64) ++ rest)
      (List.replicate r b ++ l) := by
  have hm : r % 64 < 64 := Nat.mod_lt _ (by omega)
  have ht : Means b (codeword b (r % 64) ++ rest) (List.replicate (r % 64) b ++ l) := by
    have := term_table b ⟨r % 64, hm⟩
    simp only at this
    rw [this]
    exact Means.term b _ rest l hm hr
  by_cases h64 : r ≥ 64
  · rw [if_pos h64, List.append_assoc]
    have hm := Means.makeUp' (k := r / 64) (by omega) (by omega) ht
    rw [← List.append_assoc (List.replicate _ _), List.replicate_append_replicate] at hm
    rw [show r / 64 * 64 + r % 64 = r by omega] at hm
    exact hm
  · rw [if_neg h64, List.nil_append]
    rw [show r % 64 = r by omega] at ht ⊢
    exact ht

/-- What the encoder loop has added when it stops: code bits `ext`, which stand for the next
`m` bits; `m` is what was counted, unless a run of 64 or more was cut off after its
make-up code. -/
theorem compLoop_spec (maxBits : Nat) : ∀ (fuel : Nat) (bits : List Bool) (b : Bool) (e : Enc),
    bits.length ≤ fuel → bits.length < 1024 → bits.headD b = b → e.clen = e.out.length →
    ∃ ext m, (compLoop maxBits fuel bits b e).out.take (compLoop maxBits fuel bits b e).clen = e.out ++ ext ∧
      (compLoop maxBits fuel bits b e).clen = e.clen + ext.length ∧
      m ≤ bits.length ∧ Means b ext (bits.take m) ∧
      (((compLoop maxBits fuel bits b e).uclen = e.uclen + m ∧
          (e.clen ≤ maxBits → (compLoop maxBits fuel bits b e).clen ≤ maxBits)) ∨
       ∃ j k, j + k * 64 = m ∧ 0 < k ∧ (compLoop maxBits fuel bits b e).uclen = e.uclen + j) := by
  intro fuel
  induction fuel with
  | zero =>
    intro bits b e h1 h2 h3 h4
    have : bits = [] := List.eq_nil_of_length_eq_zero (by omega)
    subst this
    exact ⟨[], 0, by simp [compLoop, h4], by simp [compLoop], Nat.le_refl _, Means.nil b, Or.inl (by simp [compLoop])⟩
  | succ fuel ih =>
    intro bits b e h1 h2 h3 h4
    by_cases h0 : bits.length = 0
    · have : bits = [] := List.eq_nil_of_length_eq_zero h0
      subst this
      exact ⟨[], 0, by simp [compLoop, h4], by simp [compLoop], Nat.le_refl _, Means.nil b, Or.inl (by simp [compLoop])⟩
    · have hne : bits ≠ [] := fun h => h0 (by rw [h]; rfl)
      have hp := runLength_pos hne h3
      have hle := runLength_le b bits
      have hrun : runLength b bits < 1024 := by omega
      simp only [compLoop]
      rw [if_neg h0]
      generalize hmk : (if runLength b bits ≥ 64 then codeword b (runLength b bits / 64 * 64) else []) = mk
      generalize htm : codeword b (runLength b bits % 64) = tm
      split
      · -- overflow: back to the make-up code
        rename_i hov
        refine ⟨mk, runLength b bits / 64 * 64, ?_, ?_, by omega, ?_, ?_⟩
        · dsimp only
          rw [show e.clen + mk.length + tm.length - tm.length = (e.out ++ mk).length by
            rw [List.length_append, h4]; omega]
          rw [List.take_left]
        · dsimp only; omega
        · by_cases h64 : runLength b bits ≥ 64
          · rw [if_pos h64] at hmk
            have hm := Means.makeUp' (k := runLength b bits / 64) (by omega) (by omega) (Means.nil b)
            rw [hmk, List.append_nil, List.append_nil] at hm
            have := take_run b bits (runLength b bits / 64 * 64) (by omega)
            rw [this]; exact hm
          · rw [if_neg h64] at hmk
            rw [← hmk, show runLength b bits / 64 * 64 = 0 by omega, List.take_zero]
            exact Means.nil b
        · by_cases h64 : runLength b bits ≥ 64
          · right
            exact ⟨0, runLength b bits / 64, by omega, by omega, by dsimp only; omega⟩
          · left
            rw [if_neg h64] at hmk
            subst hmk
            refine ⟨by dsimp only; omega, fun hh => ?_⟩
            dsimp only [List.length_nil]; omega
      · rename_i hov
        have hov : ¬ (e.clen + mk.length + tm.length > maxBits) := hov
        obtain ⟨ext, m, i1, i2, i3, i4, i5⟩ :=
          ih (bits.drop (runLength b bits)) (!b)
            { out := e.out ++ mk ++ tm, clen := e.clen + mk.length + tm.length, uclen := e.uclen + runLength b bits }
            (by rw [List.length_drop]; omega) (by rw [List.length_drop]; omega)
            (headD_drop_run b bits) (by simp [h4]; omega)
        dsimp only at i1 i2 i5
        refine ⟨mk ++ tm ++ ext, runLength b bits + m, ?_, ?_, ?_, ?_, ?_⟩
        · rw [i1]; simp only [List.append_assoc]
        · rw [i2]; simp only [List.length_append]; omega
        · rw [List.length_drop] at i3; omega
        · have := Means.run hrun i4
          rw [hmk, htm] at this
          have e2 : bits.take (runLength b bits + m) =
              List.replicate (runLength b bits) b ++ (bits.drop (runLength b bits)).take m := by
            rw [List.take_add, take_run b bits _ (Nat.le_refl _)]
          rw [e2]; exact this
        · rcases i5 with ⟨i5, i6⟩ | ⟨j, k, j1, j2, j3⟩
          · left
            exact ⟨by omega, fun _ => i6 (by omega)⟩
          · right
            exact ⟨runLength b bits + j, k, by omega, j2, by omega⟩

end Verif.Crbb
