import Verif.Spec.SegStream
/-! Lemmas about segmentation and length-indicator parsing. -/
namespace Verif.Seg

/-! ## List surgery -/

theorem putAt_app (X F d : List Nat) (o : Nat) (ho : o = X.length) :
    putAt (X ++ F) o d = X ++ d ++ F.drop d.length := by
  subst ho
  simp [putAt, List.drop_append]

theorem openGap_app (A P F : List Nat) (d o : Nat) (hd : d = A.length)
    (ho : o = A.length + P.length) :
    ∃ g, openGap (A ++ P ++ F) d o = A ++ g :: (P ++ F.drop 1) := by
  subst hd; subst ho
  refine ⟨(A ++ P ++ F).getD A.length 0, ?_⟩
  unfold openGap
  have e1 : (A ++ P ++ F).take A.length = A := by simp [List.append_assoc]
  have e2 : (A ++ P ++ F).drop A.length = P ++ F := by simp [List.append_assoc]
  have e3 : (A ++ P ++ F).drop (A.length + P.length + 1) = F.drop 1 := by
    rw [List.append_assoc, List.drop_append, List.drop_append]
    have h1 : A.length + P.length + 1 - A.length = P.length + 1 := by omega
    have h2 : P.length + 1 - P.length = 1 := by omega
    rw [h1, h2]
    rw [List.drop_of_length_le (by omega), List.drop_of_length_le (by omega)]
    simp
  rw [e1, e2, e3]
  have h3 : A.length + P.length - A.length = P.length := by omega
  rw [h3]
  have e4 : (P ++ F).take P.length = P := by simp
  rw [e4]
  simp

theorem set_app (A R : List Nat) (g v d : Nat) (hd : d = A.length) :
    (A ++ g :: R).set d v = A ++ v :: R := by
  subst hd
  simp

theorem modify_app (A R : List Nat) (x d : Nat) (f : Nat → Nat) (hd : d = A.length) :
    (A ++ x :: R).modify d f = A ++ f x :: R := by
  subst hd
  induction A with
  | nil => simp [List.modify]
  | cons y A ih => simp only [List.cons_append, List.length_cons, List.modify_succ_cons]; rw [ih]

theorem onPrev_zero (f : Nat → Nat) (l : List Nat) : onPrev 0 f l = l := by simp [onPrev]

theorem onPrev_app (A R : List Nat) (x d : Nat) (f : Nat → Nat) (hd : d = A.length + 1) :
    onPrev d f (A ++ x :: R) = A ++ f x :: R := by
  subst hd
  simp only [onPrev]
  rw [if_pos (by omega)]
  exact modify_app _ _ _ _ _ (by omega)

theorem bits_or2 : ∀ c, c < 64 → (4 * c + 1) ||| 2 = 4 * c + 3 := by decide
theorem bits_or1 : ∀ c, c < 64 → (4 * c + 1) ||| 1 = 4 * c + 1 := by decide
theorem bits_cont : ∀ c, c < 64 → ((4 * c + 1) &&& 0xfe) ||| 2 = 4 * c + 2 := by decide
theorem bits_e0 : ∀ c, c < 128 → (2 * c + 1) &&& 0xfe = 2 * c := by decide

/-! ## Reassembly of pieces -/

/-- Feed a list of complete pieces. -/
def asmAll (a : Asm) (ps : List (List Nat)) : Asm := ps.foldl (fun a p => a.piece p true) a

theorem asmAll_append (a : Asm) (ps : List (List Nat)) (p : List Nat) :
    asmAll a (ps ++ [p]) = (asmAll a ps).piece p true := by
  simp [asmAll]

def runPieces (mem : Nat → Nat) (a : Asm) (ps : List Piece) : Asm :=
  ps.foldl (fun a p => a.piece (p.bytes mem) p.complete) a

theorem memOf_mid (A P R : List Nat) (junk : Nat → Nat) (i : Nat) (hi : i < P.length) :
    memOf (A ++ P ++ R) junk (A.length + i) = P[i] := by
  unfold memOf
  have : (A ++ P ++ R)[A.length + i]? = some P[i] := by
    rw [List.append_assoc, List.getElem?_append_right (by omega)]
    have : A.length + i - A.length = i := by omega
    rw [this, List.getElem?_append_left hi]
    exact List.getElem?_eq_getElem hi
  rw [this]; rfl

theorem bytes_mid (A P R : List Nat) (junk : Nat → Nat) (o l : Nat) (c : Bool)
    (ho : o = A.length) (hl : l = P.length) :
    (⟨o, l, c⟩ : Piece).bytes (memOf (A ++ P ++ R) junk) = P := by
  subst ho; subst hl
  unfold Piece.bytes
  apply List.ext_getElem
  · simp
  · intro i h1 h2
    simp only [List.getElem_map, List.getElem_range]
    exact memOf_mid A P R junk i h2

/-- Placing complete pieces, then some tail. -/
theorem place_complete (junk : Nat → Nat) (tail : List Ext) (n : Nat) :
    ∀ (ps : List (List Nat)) (A R : List Nat) (a : Asm) (o : Nat),
      o = A.length →
      (∀ p ∈ ps, p.length < 128) →
      A.length + ps.flatten.length + R.length = n →
      ∀ (a' : Asm) (tp : List Piece),
        place n (o + ps.flatten.length) tail = some tp →
        runPieces (memOf (A ++ ps.flatten ++ R) junk) (asmAll a ps) tp = a' →
        ∃ pieces, place n o (ps.map (fun p => (p.length, true)) ++ tail) = some pieces ∧
          runPieces (memOf (A ++ ps.flatten ++ R) junk) a pieces = a'
  | [], A, R, a, o, ho, hps, hn, a', tp, htp, hr => by
    refine ⟨tp, ?_, ?_⟩
    · simpa using htp
    · exact hr
  | p :: ps, A, R, a, o, ho, hps, hn, a', tp, htp, hr => by
    have hp : p.length < 128 := hps p (by simp)
    have hfl : (p :: ps).flatten = p ++ ps.flatten := by simp
    have hl : (p :: ps).flatten.length = p.length + ps.flatten.length := by simp
    rw [hl] at hn htp
    have hblk : A ++ (p :: ps).flatten ++ R = (A ++ p) ++ ps.flatten ++ R := by
      rw [hfl]; simp [List.append_assoc]
    rw [hblk] at hr ⊢
    obtain ⟨pieces, h1, h2⟩ := place_complete junk tail n ps (A ++ p) R (a.piece p true)
      (o + p.length) (by simp [ho]) (fun q hq => hps q (by simp [hq]))
      (by rw [List.length_append]; omega) a' tp
      (by rw [← htp]; congr 1; omega) hr
    refine ⟨⟨o, p.length, true⟩ :: pieces, ?_, ?_⟩
    · have hne : ¬ (p.length = toEnd ∧ o = n) := by unfold toEnd; omega
      have hne2 : ¬ p.length = toEnd := by unfold toEnd; omega
      simp only [List.map_cons, List.cons_append, place]
      rw [if_neg hne]
      simp only [if_neg hne2]
      rw [if_neg (by omega), h1]
      rfl
    · show runPieces _ (a.piece ((⟨o, p.length, true⟩ : Piece).bytes _) true) pieces = a'
      have hb : A ++ p ++ ps.flatten ++ R = A ++ p ++ (ps.flatten ++ R) := by
        simp [List.append_assoc]
      have := bytes_mid A p (ps.flatten ++ R) junk o p.length true ho rfl
      rw [← hb] at this
      rw [this]
      exact h2

/-- What a block's LLC part contributes: complete pieces `ps`, and an unterminated rest. -/
theorem place_fold (junk : Nat → Nat) (n : Nat) (ps : List (List Nat)) (A R : List Nat) (a : Asm)
    (hps : ∀ p ∈ ps, p.length < 128) (hn : A.length + ps.flatten.length + R.length = n) :
    (∃ pieces, place n A.length (ps.map (fun p => (p.length, true))) = some pieces ∧
      runPieces (memOf (A ++ ps.flatten ++ R) junk) a pieces = asmAll a ps) ∧
    (∀ b, ∃ pieces, place n A.length (ps.map (fun p => (p.length, true)) ++ [(toEnd, b)]) =
        some pieces ∧
      runPieces (memOf (A ++ ps.flatten ++ R) junk) a pieces =
        if R = [] then asmAll a ps else (asmAll a ps).piece R b) := by
  constructor
  · have := place_complete junk [] n ps A R a A.length rfl hps hn (asmAll a ps) [] rfl rfl
    simpa using this
  · intro b
    by_cases hR : R = []
    · subst hR
      rw [if_pos rfl]
      refine place_complete junk [(toEnd, b)] n ps A [] a A.length rfl hps hn _ [] ?_ rfl
      simp only [place]
      rw [if_pos ⟨trivial, by simpa using hn⟩]
    · rw [if_neg hR]
      have hRl : 0 < R.length := List.length_pos_iff.2 hR
      refine place_complete junk [(toEnd, b)] n ps A R a A.length rfl hps hn _
        [⟨A.length + ps.flatten.length, R.length, b⟩] ?_ ?_
      · simp only [place]
        rw [if_neg (by omega)]
        simp only [if_true]
        rw [if_neg (by omega)]
        have : n - (A.length + ps.flatten.length) = R.length := by omega
        rw [this]; rfl
      · show (asmAll a ps).piece _ b = _
        have := bytes_mid (A ++ ps.flatten) R [] junk (A.length + ps.flatten.length) R.length b
          (by simp) rfl
        rw [List.append_nil] at this
        rw [this]

/-! ## Reading the length octets -/

theorem memOf_at (A R : List Nat) (x : Nat) (junk : Nat → Nat) (d : Nat) (hd : d = A.length) :
    memOf (A ++ x :: R) junk d = x := by
  subst hd
  simp [memOf]

/-- GPRS: octets saying "LI, M=1, E=0" are read one by one. -/
theorem parseGprs_cont (junk : Nat → Nat) (n : Nat) (last : Bool) (k : Nat) :
    ∀ (qs : List (List Nat)) (A R : List Nat) (offs : Nat) (acc : List Ext) (rd : List Nat),
      offs = A.length →
      (∀ q ∈ qs, 1 ≤ q.length ∧ q.length < 64) →
      acc.length + qs.length ≤ 16 → A.length + qs.length ≤ n →
      ∃ rd', parseGprs (memOf (A ++ qs.map (fun q => 4 * q.length + 2) ++ R) junk) n last
          (some 16) (k + qs.length) offs acc rd =
        parseGprs (memOf (A ++ qs.map (fun q => 4 * q.length + 2) ++ R) junk) n last
          (some 16) k (offs + qs.length) (acc ++ qs.map (fun q => (q.length, true))) rd'
  | [], A, R, offs, acc, rd, ho, hq, ha, hl => ⟨rd, by simp⟩
  | q :: qs, A, R, offs, acc, rd, ho, hq, ha, hl => by
    have hq1 := hq q (by simp)
    simp only [List.length_cons] at ha hl
    have hblk : A ++ (q :: qs).map (fun q => 4 * q.length + 2) ++ R
        = (A ++ [4 * q.length + 2]) ++ qs.map (fun q => 4 * q.length + 2) ++ R := by
      simp [List.append_assoc]
    have hmem : memOf (A ++ (q :: qs).map (fun q => 4 * q.length + 2) ++ R) junk offs
        = 4 * q.length + 2 := by
      have : A ++ (q :: qs).map (fun q => 4 * q.length + 2) ++ R
        = A ++ (4 * q.length + 2) :: (qs.map (fun q => 4 * q.length + 2) ++ R) := by simp
      rw [this]; exact memOf_at _ _ _ _ _ ho
    obtain ⟨rd', h⟩ := parseGprs_cont junk n last k qs (A ++ [4 * q.length + 2]) R (offs + 1)
      (acc ++ [(q.length, true)]) (rd ++ [offs]) (by simp [ho]) (fun r hr => hq r (by simp [hr]))
      (by simp only [List.length_append, List.length_cons, List.length_nil]; omega)
      (by simp only [List.length_append, List.length_cons, List.length_nil]; omega)
    refine ⟨rd', ?_⟩
    rw [← hblk] at h
    have hfuel : k + (q :: qs).length = (k + qs.length) + 1 := by simp; omega
    rw [hfuel]
    conv => lhs; unfold parseGprs
    rw [if_neg (by omega), hmem]
    have e1 : (4 * q.length + 2) / 4 = q.length := by omega
    have e2 : (4 * q.length + 2) % 2 = 0 := by omega
    have e3 : (4 * q.length + 2) / 2 % 2 = 1 := by omega
    have e4 : ¬ q.length = 0 := by omega
    have e5 : ¬ acc.length = 16 := by omega
    have e7 : (decide (q.length ≠ 0) || last) = true := by simp [e4]
    simp only [e1, e2, e3, e7, e4, e5, if_false]
    simp only [show ((1:Nat) = 0) = False by simp, show ((0:Nat) = 1) = False by simp, false_and, if_false,
      if_true]
    rw [h]
    simp [Nat.add_comm, Nat.add_left_comm]

/-- GPRS: the last length octet.  `f = 1`: "LI, M=0, E=1"; `f = 3`: "LI, M=1, E=1". -/
theorem parseGprs_last (mem : Nat → Nat) (n : Nat) (last : Bool) (k offs : Nat) (acc : List Ext)
    (rd : List Nat) (c : Nat) (hc : 1 ≤ c) (ho : offs ≤ n) (ha : acc.length + 2 ≤ 16) :
    (mem offs = 4 * c + 1 →
      parseGprs mem n last (some 16) (k + 1) offs acc rd = .ok (acc ++ [(c, true)]) (offs + 1)
        (rd ++ [offs])) ∧
    (mem offs = 4 * c + 3 →
      parseGprs mem n last (some 16) (k + 1) offs acc rd =
        .ok (acc ++ [(c, true)] ++ [(toEnd, last)]) (offs + 1) (rd ++ [offs])) ∧
    (mem offs = 1 →
      parseGprs mem n last (some 16) (k + 1) offs acc rd =
        .ok (acc ++ [(toEnd, last)]) (offs + 1) (rd ++ [offs])) := by
  have e5 : ¬ acc.length = 16 := by omega
  have e6 : ¬ acc.length + 1 = 16 := by omega
  refine ⟨?_, ?_, ?_⟩
  · intro hm
    unfold parseGprs
    have e1 : (4 * c + 1) / 4 = c := by omega
    have e2 : (4 * c + 1) % 2 = 1 := by omega
    have e3 : (4 * c + 1) / 2 % 2 = 0 := by omega
    have e4 : ¬ c = 0 := by omega
    rw [if_neg (by omega), hm]
    simp [e1, e2, e3, e4, e5]
  · intro hm
    unfold parseGprs
    have e1 : (4 * c + 3) / 4 = c := by omega
    have e2 : (4 * c + 3) % 2 = 1 := by omega
    have e3 : (4 * c + 3) / 2 % 2 = 1 := by omega
    have e4 : ¬ c = 0 := by omega
    rw [if_neg (by omega), hm]
    simp [e1, e2, e3, e4, e5, e6]
  · intro hm
    unfold parseGprs
    rw [if_neg (by omega), hm]
    simp [e5]

/-- EGPRS: octets saying "LI, E=0"; only the very first LI of a block may be 0. -/
theorem parseEgprs_cont (junk : Nat → Nat) (n : Nat) (last : Bool) (k : Nat) :
    ∀ (qs : List (List Nat)) (A R : List Nat) (offs : Nat) (acc : List Ext) (rd : List Nat),
      offs = A.length →
      (∀ q ∈ qs, q.length < 127) →
      (∀ q ∈ qs.tail, q ≠ []) → (acc ≠ [] → ∀ q ∈ qs, q ≠ []) →
      acc.length + qs.length ≤ 16 → A.length + qs.length ≤ n →
      ∃ rd', parseEgprs (memOf (A ++ qs.map (fun q => 2 * q.length) ++ R) junk) n last
          (some 16) (k + qs.length) offs acc rd =
        parseEgprs (memOf (A ++ qs.map (fun q => 2 * q.length) ++ R) junk) n last
          (some 16) k (offs + qs.length) (acc ++ qs.map (fun q => (q.length, true))) rd'
  | [], A, R, offs, acc, rd, ho, hq, hz, hz', ha, hl => ⟨rd, by simp⟩
  | q :: qs, A, R, offs, acc, rd, ho, hq, hz, hz', ha, hl => by
    have hq1 := hq q (by simp)
    simp only [List.length_cons] at ha hl
    have hblk : A ++ (q :: qs).map (fun q => 2 * q.length) ++ R
        = (A ++ [2 * q.length]) ++ qs.map (fun q => 2 * q.length) ++ R := by
      simp [List.append_assoc]
    have hmem : memOf (A ++ (q :: qs).map (fun q => 2 * q.length) ++ R) junk offs
        = 2 * q.length := by
      have : A ++ (q :: qs).map (fun q => 2 * q.length) ++ R
        = A ++ (2 * q.length) :: (qs.map (fun q => 2 * q.length) ++ R) := by simp
      rw [this]; exact memOf_at _ _ _ _ _ ho
    have hzt : ∀ r ∈ qs, r ≠ [] := by simpa using hz
    obtain ⟨rd', h⟩ := parseEgprs_cont junk n last k qs (A ++ [2 * q.length]) R (offs + 1)
      (acc ++ [(q.length, true)]) (rd ++ [offs]) (by simp [ho]) (fun r hr => hq r (by simp [hr]))
      (fun r hr => hzt r (List.mem_of_mem_tail hr)) (fun _ => hzt)
      (by simp only [List.length_append, List.length_cons, List.length_nil]; omega)
      (by simp only [List.length_append, List.length_cons, List.length_nil]; omega)
    refine ⟨rd', ?_⟩
    rw [← hblk] at h
    have hfuel : k + (q :: qs).length = (k + qs.length) + 1 := by simp; omega
    rw [hfuel]
    conv => lhs; unfold parseEgprs
    rw [if_neg (by omega), hmem]
    have e1 : (2 * q.length) / 2 = q.length := by omega
    have e2 : (2 * q.length) % 2 = 0 := by omega
    have e4 : ¬ q.length = 127 := by omega
    have e5 : ¬ acc.length = 16 := by omega
    have e6 : ¬ (q.length = 0 ∧ acc.length ≠ 0) := by
      rintro ⟨h1, h2⟩
      have h3 : acc ≠ [] := by intro h; subst h; exact h2 rfl
      exact hz' h3 q (by simp) (List.length_eq_zero_iff.1 h1)
    simp only [e1, e2, e4, e5, e6, if_false, false_and]
    simp only [show ((0:Nat) = 1) = False by simp, if_false, if_true]
    rw [h]
    simp [Nat.add_comm, Nat.add_left_comm]

/-- EGPRS: the last length octet, and the padding octet. -/
theorem parseEgprs_last (mem : Nat → Nat) (n : Nat) (last : Bool) (k offs : Nat) (acc : List Ext)
    (rd : List Nat) (c : Nat) (hc : c < 127) (hz : acc ≠ [] → c ≠ 0) (ho : offs ≤ n)
    (ha : acc.length + 2 ≤ 16) :
    (mem offs = 2 * c + 1 →
      parseEgprs mem n last (some 16) (k + 1) offs acc rd =
        .ok (acc ++ [(c, true)] ++ [(toEnd, last)]) (offs + 1) (rd ++ [offs])) ∧
    (mem offs = 255 →
      parseEgprs mem n last (some 16) (k + 1) offs acc rd = .ok acc (offs + 1) (rd ++ [offs])) := by
  have e5 : ¬ acc.length = 16 := by omega
  have e7 : ¬ acc.length + 1 = 16 := by omega
  constructor
  · intro hm
    unfold parseEgprs
    have e1 : (2 * c + 1) / 2 = c := by omega
    have e2 : (2 * c + 1) % 2 = 1 := by omega
    have e4 : ¬ c = 127 := by omega
    have e6 : ¬ (c = 0 ∧ acc.length ≠ 0) := by
      rintro ⟨h1, h2⟩
      have h3 : acc ≠ [] := by intro h; subst h; exact h2 rfl
      exact hz h3 h1
    rw [if_neg (by omega), hm]
    simp only [e1, e2, e4, e5, e6, if_false, false_and]
    simp [e7]
  · intro hm
    unfold parseEgprs
    rw [if_neg (by omega), hm]
    simp [e5]

end Verif.Seg
