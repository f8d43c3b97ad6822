import Verif.Lemmas.Crbb
/-!
C39: compressed EGPRS receive bitmaps.

`Means` (Spec/Crbb.lean) is the meaning of a compressed bitmap according to TS 44.060.
The decoder is correct without restriction. The encoder always produces code words that
stand for a prefix of the bitmap, but the *length* it claims for that prefix is wrong in two
cases (`C39_claim_*` counterexamples); it is proved right outside of them.
-/
namespace Verif.Crbb

/-- The code tables are prefix-free: no code word starts another one of the same colour. -/
theorem C39_prefix_free (c : Bool) (i j : Nat) (hi : i < 79) (hj : j < 79) (rest : List Bool)
    (h : word c j = word c i ++ rest) : i = j := by
  have h1 := search_append _ _ rest _ _ (search_word c i hi)
  have h2 := search_word c j hj
  rw [h, h1] at h2
  have h3 : runOf i = runOf j := by
    injection h2 with h2; injection h2
  unfold runOf at h3
  split at h3 <;> split at h3 <;> omega

/-- Decoding is right for everything with a meaning: exactly the meant bits are appended, as
long as they fit. -/
theorem C39_decode_meaning (c : Bool) (code l : List Bool) (h : Means c code l) (dest : BV)
    (hfit : dest.bits.length + l.length ≤ dest.cap) :
    decompress c code dest = ({ dest with bits := dest.bits ++ l }, true) :=
  h.decodes code.length dest (Nat.le_refl _) hfit

theorem writeField_bounded (v : BV) (wp : Nat) (f : List Bool) (p : List Bool) (hp : p.length ≤ v.cap)
    (h1 : wp ≤ v.bits.length) (h2 : v.bits.length ≤ v.cap) (h3 : p.length ≤ wp) (h4 : v.bits.take p.length = p) :
    let r := v.writeField wp f
    r.1.cap = v.cap ∧ r.2 ≤ r.1.bits.length ∧ r.1.bits.length ≤ v.cap ∧ p.length ≤ r.2 ∧
      r.1.bits.take p.length = p := by
  unfold BV.writeField
  have e : (v.bits.take wp ++ f).take p.length = p := by
    rw [List.take_append_of_le_length (by rw [List.length_take]; omega), List.take_take,
      Nat.min_eq_left h3, h4]
  dsimp only
  split
  · rename_i hh
    refine ⟨rfl, ?_, hh, by dsimp only; omega, e⟩
    simp only [List.length_append, List.length_take]; omega
  · rename_i hh
    simp only [List.length_append, List.length_take] at hh
    refine ⟨rfl, ?_, ?_, by dsimp only; omega, ?_⟩
    · simp only [List.length_append, List.length_take]; omega
    · rw [List.length_take]; omega
    · dsimp only; rw [List.take_take, Nat.min_eq_left hp, e]

theorem writeRun_bounded (c : Bool) (p : List Bool) : ∀ (fuel run : Nat) (v : BV) (wp : Nat), p.length ≤ v.cap →
    wp ≤ v.bits.length → v.bits.length ≤ v.cap → p.length ≤ wp → v.bits.take p.length = p →
    let r := writeRun c fuel run (v, wp)
    r.1.cap = v.cap ∧ r.2 ≤ r.1.bits.length ∧ r.1.bits.length ≤ v.cap ∧ p.length ≤ r.2 ∧
      r.1.bits.take p.length = p := by
  intro fuel
  induction fuel with
  | zero => intro run v wp _ h1 h2 h3 h4; exact ⟨rfl, h1, h2, h3, h4⟩
  | succ fuel ih =>
    intro run v wp hp h1 h2 h3 h4
    simp only [writeRun]
    split
    · exact ⟨rfl, h1, h2, h3, h4⟩
    · split
      · obtain ⟨a1, a2, a3, a4, a5⟩ := writeField_bounded v wp (List.replicate 8 c) p hp h1 h2 h3 h4
        generalize v.writeField wp (List.replicate 8 c) = q at a1 a2 a3 a4 a5
        obtain ⟨v', wp'⟩ := q
        simp only at a1 a2 a3 a4 a5
        have := ih (run - 8) v' wp' (by omega) a2 (by omega) a4 a5
        rw [a1] at this
        exact this
      · exact writeField_bounded v wp _ p hp h1 h2 h3 h4

/-- Whatever a mobile sends as compressed bitmap, decoding it stays inside the destination
and leaves the bits already there alone. -/
theorem C39_decode_bounded (c : Bool) (code : List Bool) (dest : BV) (h : dest.bits.length ≤ dest.cap) :
    (decompress c code dest).1.cap = dest.cap ∧
    (decompress c code dest).1.bits.length ≤ dest.cap ∧
    (decompress c code dest).1.bits.take dest.bits.length = dest.bits := by
  have key : ∀ (p : List Bool) (fuel : Nat) (c : Bool) (code : List Bool) (v : BV) (wp : Nat), p.length ≤ v.cap →
      wp ≤ v.bits.length → v.bits.length ≤ v.cap → p.length ≤ wp → v.bits.take p.length = p →
      (decompLoop fuel c code (v, wp)).1.cap = v.cap ∧ (decompLoop fuel c code (v, wp)).1.bits.length ≤ v.cap ∧
      (decompLoop fuel c code (v, wp)).1.bits.take p.length = p := by
    intro p fuel
    induction fuel with
    | zero => intro c code v wp _ h1 h2 h3 h4; exact ⟨rfl, h2, h4⟩
    | succ fuel ih =>
      intro c code v wp hp h1 h2 h3 h4
      simp only [decompLoop]
      split
      · exact ⟨rfl, h2, h4⟩
      · split
        · exact ⟨rfl, h2, h4⟩
        · rename_i n run _
          obtain ⟨a1, a2, a3, a4, a5⟩ := writeRun_bounded c p run run v wp hp h1 h2 h3 h4
          generalize writeRun c run run (v, wp) = q at a1 a2 a3 a4 a5
          obtain ⟨v', wp'⟩ := q
          simp only at a1 a2 a3 a4 a5
          have := ih (if run < 64 then !c else c) (code.drop n) v' wp' (by omega) a2 (by omega) a4 a5
          rw [a1] at this
          exact this
  exact key dest.bits code.length c code dest dest.bits.length h (Nat.le_refl _) h (Nat.le_refl _) (by simp)

/-- The meaning of a compressed bitmap is unique. -/
theorem C39_unambiguous (c : Bool) (code l l' : List Bool) (h : Means c code l) (h' : Means c code l') : l = l' := by
  have e1 := C39_decode_meaning c code l h { bits := [], cap := l.length + l'.length } (by simp)
  have e2 := C39_decode_meaning c code l' h' { bits := [], cap := l.length + l'.length } (by simp)
  rw [e1] at e2
  simpa using e2

/-- Encoder: for every bitmap (at most 1023 bits: the largest EGPRS window) and every space
limit, the result stands for a prefix of the bitmap. -/
theorem C39_encode_prefix (maxBits : Nat) (bits : List Bool) (h : bits.length < 1024) :
    ∃ m, m ≤ bits.length ∧ Means (startColor bits) (compress maxBits bits).crbb (bits.take m) := by
  obtain ⟨ext, m, h1, h2, h3, h4, h5⟩ := compLoop_spec maxBits bits.length bits (startColor bits)
    { out := [], clen := 0, uclen := 0 } (Nat.le_refl _) h (by unfold startColor; cases bits <;> simp) rfl
  refine ⟨m, h3, ?_⟩
  unfold compress
  simp only at h1 ⊢
  rw [h1]; exact h4

/-- No run of 64 or more equal bits. -/
def shortRuns (bits : List Bool) : Prop :=
  ∀ (i : Nat) (c : Bool), i + 64 ≤ bits.length → ¬ (bits.drop i).take 64 = List.replicate 64 c

theorem shortRuns_drop {bits : List Bool} (h : shortRuns bits) (k : Nat) : shortRuns (bits.drop k) := by
  intro i c hi
  rw [List.length_drop] at hi
  rw [List.drop_drop]
  exact h (k + i) c (by omega)

/-- Without runs of 64 or more, the encoder never takes back a terminating code only. -/
theorem compLoop_short (maxBits : Nat) : ∀ (fuel : Nat) (bits : List Bool) (b : Bool) (e : Enc),
    bits.length ≤ fuel → bits.headD b = b → e.clen = e.out.length → shortRuns bits →
    ∃ ext m, (compLoop maxBits fuel bits b e).out.take (compLoop maxBits fuel bits b e).clen = e.out ++ ext ∧
      m ≤ bits.length ∧ Means b ext (bits.take m) ∧
      (compLoop maxBits fuel bits b e).uclen = e.uclen + m ∧
      (e.clen ≤ maxBits → (compLoop maxBits fuel bits b e).clen ≤ maxBits) := by
  intro fuel
  induction fuel with
  | zero =>
    intro bits b e h1 h3 h4 _
    have : bits = [] := List.eq_nil_of_length_eq_zero (by omega)
    subst this
    exact ⟨[], 0, by simp [compLoop, h4], Nat.le_refl _, Means.nil b, by simp [compLoop], by simp [compLoop]⟩
  | succ fuel ih =>
    intro bits b e h1 h3 h4 hs
    by_cases h0 : bits.length = 0
    · have : bits = [] := List.eq_nil_of_length_eq_zero h0
      subst this
      exact ⟨[], 0, by simp [compLoop, h4], Nat.le_refl _, Means.nil b, by simp [compLoop], by simp [compLoop]⟩
    · have hne : bits ≠ [] := fun h => h0 (by rw [h]; rfl)
      have hp := runLength_pos hne h3
      have hle := runLength_le b bits
      have hrun : runLength b bits < 64 := by
        rcases Nat.lt_or_ge (runLength b bits) 64 with x | x
        · exact x
        · exact absurd (by rw [List.drop_zero]; exact take_run b bits 64 x) (hs 0 b (by omega))
      simp only [compLoop]
      rw [if_neg h0]
      have hmk : (if runLength b bits ≥ 64 then codeword b (runLength b bits / 64 * 64) else []) = [] :=
        if_neg (by omega)
      generalize htm : codeword b (runLength b bits % 64) = tm
      simp only [hmk, List.append_nil, List.length_nil, Nat.add_zero]
      split
      · refine ⟨[], 0, ?_, by omega, by rw [List.take_zero]; exact Means.nil b, ?_, fun hh => ?_⟩
        · dsimp only
          rw [show e.clen + tm.length - tm.length = e.out.length by omega, List.take_left, List.append_nil]
        · dsimp only; omega
        · dsimp only; omega
      · rename_i hov
        obtain ⟨ext, m, i1, i3, i4, i5, i6⟩ :=
          ih (bits.drop (runLength b bits)) (!b)
            { out := e.out ++ tm, clen := e.clen + tm.length, uclen := e.uclen + runLength b bits }
            (by rw [List.length_drop]; omega) (headD_drop_run b bits) (by simp [h4]) (shortRuns_drop hs _)
        dsimp only at i1 i5 i6
        refine ⟨tm ++ ext, runLength b bits + m, ?_, ?_, ?_, by omega, fun _ => i6 (by omega)⟩
        · rw [i1]; simp only [List.append_assoc]
        · rw [List.length_drop] at i3; omega
        · have := Means.run (r := runLength b bits) (by omega) i4
          rw [if_neg (by omega), htm, List.nil_append] at this
          have e2 : bits.take (runLength b bits + m) =
              List.replicate (runLength b bits) b ++ (bits.drop (runLength b bits)).take m := by
            rw [List.take_add, take_run b bits _ (Nat.le_refl _)]
          rw [e2]; exact this

/-- Bitmaps of less than 256 bits without runs of 64 or more: the compressed bitmap stands
for exactly the first `uclen` bits, as claimed, and respects the space limit. Missing: the
claim is wrong for longer bitmaps and for cut-off long runs, see below. -/
theorem C39_encode_claim_partial (maxBits : Nat) (bits : List Bool) (h : bits.length < 256) (hs : shortRuns bits) :
    Means (startColor bits) (compress maxBits bits).crbb (bits.take (compress maxBits bits).uclen) ∧
    (compress maxBits bits).uclen ≤ bits.length ∧ (compress maxBits bits).crbb.length ≤ maxBits := by
  obtain ⟨ext, m, h1, h3, h4, h5, h6⟩ := compLoop_short maxBits bits.length bits (startColor bits)
    { out := [], clen := 0, uclen := 0 } (Nat.le_refl _) (by unfold startColor; cases bits <;> simp) rfl hs
  unfold compress
  simp only at h1 h5 h6 ⊢
  rw [h1, h5, Nat.zero_add, Nat.mod_eq_of_lt (by omega), List.nil_append]
  refine ⟨h4, h3, ?_⟩
  have := h6 (Nat.zero_le _)
  have h1 := congrArg List.length h1
  rw [List.length_take] at h1
  simp only [List.nil_append] at h1
  omega

/-- Bitmaps of less than 256 bits, with any runs: if the encoder claims to have encoded the
whole bitmap, it has. -/
theorem C39_encode_whole_partial (maxBits : Nat) (bits : List Bool) (h : bits.length < 256)
    (hw : (compress maxBits bits).uclen = bits.length) :
    Means (startColor bits) (compress maxBits bits).crbb bits := by
  obtain ⟨ext, m, h1, h2, h3, h4, h5⟩ := compLoop_spec maxBits bits.length bits (startColor bits)
    { out := [], clen := 0, uclen := 0 } (Nat.le_refl _) (by omega) (by unfold startColor; cases bits <;> simp) rfl
  unfold compress at hw ⊢
  simp only at h1 h5 hw ⊢
  rw [h1, List.nil_append]
  have : bits.take m = bits := by
    apply List.take_of_length_le
    rcases h5 with ⟨h5, _⟩ | ⟨j, k, h5, h6, h7⟩
    · rw [h5] at hw; omega
    · rw [h7] at hw; omega
  rw [this] at h4; exact h4

/-- Round trip: what the encoder wrote for a whole bitmap decodes to that bitmap. -/
theorem C39_roundtrip (maxBits : Nat) (bits : List Bool) (h : bits.length < 256)
    (hw : (compress maxBits bits).uclen = bits.length) (cap : Nat) (hcap : bits.length ≤ cap) :
    decompress (startColor bits) (compress maxBits bits).crbb { bits := [], cap := cap } =
      ({ bits := bits, cap := cap }, true) := by
  rw [C39_decode_meaning _ _ _ (C39_encode_whole_partial maxBits bits h hw) _ (by simpa using hcap)]
  simp

theorem codeword_len_table : ∀ (c : Bool), (∀ i : Fin 64, (codeword c i.val).length ≤ 12) ∧
    (∀ i : Fin 15, (codeword c ((i.val + 1) * 64)).length ≤ 13) := by decide +kernel

/-- The encoder never writes more than 25 bits beyond its limit, so for limits up to 159 bits
it stays inside the 23 octet buffer of `write_packet_ack_nack_desc_egprs`
(encoding.cpp:935; the bit vector claims a length of 127 octets). -/
theorem C39_encoder_buffer (maxBits : Nat) (hm : maxBits ≤ 159) (bits : List Bool) (h : bits.length < 1024) :
    (compLoop maxBits bits.length bits (startColor bits) { out := [], clen := 0, uclen := 0 }).out.length ≤ 23 * 8 := by
  have key : ∀ (fuel : Nat) (bits : List Bool) (b : Bool) (e : Enc), bits.length < 1024 →
      e.clen = e.out.length → e.clen ≤ maxBits → (compLoop maxBits fuel bits b e).out.length ≤ maxBits + 25 := by
    intro fuel
    induction fuel with
    | zero => intro bits b e _ h1 h2; simp only [compLoop]; omega
    | succ fuel ih =>
      intro bits b e hl h1 h2
      simp only [compLoop]
      have hle := runLength_le b bits
      have l1 : (if runLength b bits ≥ 64 then codeword b (runLength b bits / 64 * 64) else []).length ≤ 13 := by
        split
        · have := (codeword_len_table b).2 ⟨runLength b bits / 64 - 1, by omega⟩
          simp only [show runLength b bits / 64 - 1 + 1 = runLength b bits / 64 by omega] at this
          exact this
        · simp
      have l2 : (codeword b (runLength b bits % 64)).length ≤ 12 :=
        (codeword_len_table b).1 ⟨runLength b bits % 64, Nat.mod_lt _ (by omega)⟩
      generalize (if runLength b bits ≥ 64 then codeword b (runLength b bits / 64 * 64) else []) = mk at l1 ⊢
      generalize codeword b (runLength b bits % 64) = tm at l2 ⊢
      split
      · omega
      · split
        · simp only [List.length_append]; omega
        · rename_i hov
          refine ih (bits.drop (runLength b bits)) (!b) _ (by rw [List.length_drop]; omega) ?_ ?_
          · simp only [List.length_append]; omega
          · exact Nat.le_of_not_gt hov
  have := key bits.length bits (startColor bits) { out := [], clen := 0, uclen := 0 } h rfl (Nat.zero_le _)
  omega

/-- Counterexample to the claimed length: a run whose make-up code still fits, but whose
terminating code does not. The encoder claims 60 bits; its output stands for 124. The
uncompressed bits that follow on the air are then attributed to the wrong blocks. -/
theorem C39_claim_wrong_after_cut :
    ∃ bits : List Bool, (compress 20 bits).gain = true ∧ (compress 20 bits).uclen = 60 ∧
      decompress (startColor bits) (compress 20 bits).crbb { bits := [], cap := 1024 } =
        ({ bits := bits.take 124, cap := 1024 }, true) ∧ bits.length = 130 :=
  ⟨List.replicate 60 true ++ List.replicate 70 false, by decide +kernel, by decide +kernel, by
    rw [show (compress 20 (List.replicate 60 true ++ List.replicate 70 false)).crbb =
      codeword true 60 ++ codeword false 64 by decide +kernel]
    rw [C39_decode_meaning _ _ (List.replicate 60 true ++ List.replicate 64 false) ?_ _ ?_]
    · simp [List.take_append]
    · have e1 : codeword true 60 = word true 60 := term_table true ⟨60, by omega⟩
      have e2 : codeword false 64 = word false (63 + 1) := makeup_table false ⟨0, by omega⟩
      rw [e1, e2]
      have := Means.term true 60 _ _ (by omega) (Means.makeUp (!true) 1 [] [] (by omega) (by omega) (Means.nil _))
      simpa [startColor] using this
    · simp, by simp⟩

/-- Counterexample to the claimed length: it is returned in an octet. 300 received blocks in
a row are encoded, the claimed length is 44. -/
theorem C39_claim_truncated :
    (compress 100 (List.replicate 300 true)).gain = true ∧
    (compress 100 (List.replicate 300 true)).uclen = 44 ∧
    Means true (compress 100 (List.replicate 300 true)).crbb (List.replicate 300 true) := by
  refine ⟨by decide +kernel, by decide +kernel, ?_⟩
  rw [show (compress 100 (List.replicate 300 true)).crbb = codeword true (4 * 64) ++ codeword true 44 by decide +kernel]
  have e1 : codeword true 44 = word true 44 := term_table true ⟨44, by omega⟩
  have := Means.makeUp' (b := true) (k := 4) (by omega) (by omega) (Means.term true 44 [] [] (by omega) (Means.nil _))
  rw [List.append_nil, List.append_nil, List.replicate_append_replicate] at this
  rw [e1]; exact this

/-- Non-vacuity of the claims: 30 ones, 3 zeros, 20 ones compress with gain. -/
example : (compress 60 (List.replicate 30 true ++ List.replicate 3 false ++ List.replicate 20 true)).gain = true ∧
    (compress 60 (List.replicate 30 true ++ List.replicate 3 false ++ List.replicate 20 true)).uclen = 53 ∧
    shortRuns (List.replicate 30 true ++ List.replicate 3 false ++ List.replicate 20 true) := by
  refine ⟨by decide +kernel, by decide +kernel, ?_⟩
  intro i c hi
  simp at hi

end Verif.Crbb
