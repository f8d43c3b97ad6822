import Verif.Lemmas.SegBlock
import Verif.Spec.LlcSeg
/-! Reading of the blocks of `Spec/LlcSeg`. -/

namespace Verif.Seg

open Verif.LlcSeg

/-! ### Length octets -/

theorem gprsLis_li0 (qs : List (List Nat)) (l : List Nat) :
    gprsLis qs (.li0 l) = qs.map (fun q : List Nat => 4 * q.length + 2) ++ [1] := by
  induction qs with
  | nil => rfl
  | cons q qs ih => cases qs <;> simp_all [gprsLis] <;> omega

theorem gprsLis_tail (qs : List (List Nat)) (p l : List Nat) :
    gprsLis (qs ++ [p]) (.tail l) = qs.map (fun q : List Nat => 4 * q.length + 2) ++ [4 * p.length + 3] := by
  induction qs with
  | nil => simp [gprsLis]; omega
  | cons q qs ih => cases qs <;> simp_all [gprsLis] <;> omega

theorem gprsLis_fill (qs : List (List Nat)) (p l : List Nat) :
    gprsLis (qs ++ [p]) (.fill l) = qs.map (fun q : List Nat => 4 * q.length + 2) ++ [4 * p.length + 1] := by
  induction qs with
  | nil => simp [gprsLis]; omega
  | cons q qs ih => cases qs <;> simp_all [gprsLis] <;> omega

theorem egprsLis_fill (qs : List (List Nat)) (l : List Nat) :
    egprsLis qs (.fill l) = qs.map (fun q : List Nat => 2 * q.length) ++ [255] := by
  induction qs with
  | nil => rfl
  | cons q qs ih => cases qs <;> simp_all [egprsLis] <;> omega

theorem egprsLis_tail (qs : List (List Nat)) (p l : List Nat) :
    egprsLis (qs ++ [p]) (.tail l) = qs.map (fun q : List Nat => 2 * q.length) ++ [2 * p.length + 1] := by
  induction qs with
  | nil => simp [egprsLis]; omega
  | cons q qs ih => cases qs <;> simp_all [egprsLis] <;> omega

/-- The entries the reader makes of what follows the delimited segments. -/
def ext (last : Bool) : After → List Ext
  | .tail _ => [(toEnd, last)]
  | .li0 _ => [(toEnd, last)]
  | .fill _ => []

theorem nonempty_snoc {l : List (List Nat)} (h : l ≠ []) : ∃ qs p, l = qs ++ [p] :=
  ⟨l.dropLast, l.getLast h, (List.dropLast_concat_getLast h).symm⟩

theorem parse_gprs_lis (ends : List (List Nat)) (after : After) (last : Bool) (junk : Nat → Nat) (n : Nat) (R : List Nat)
    (hv : (Content.mk ends after).Valid false) (hk : ends.length ≤ 14) (hl : gprsLis ends after ≠ [])
    (hn : (gprsLis ends after).length ≤ n) :
    ∃ rd, parseGprs (memOf (gprsLis ends after ++ R) junk) n last (some 16) (n + 2) 0 [] []
      = .ok (ends.map (fun p : List Nat => (p.length, true)) ++ ext last after) (gprsLis ends after).length rd := by
  have main : ∀ (qs : List (List Nat)) (x : Nat) (e : List Ext), (∀ q ∈ qs, 1 ≤ q.length ∧ q.length < 64) → qs.length ≤ 14 →
      qs.length + 1 ≤ n →
      (∀ mem k acc rd, acc.length + 2 ≤ 16 → mem qs.length = x →
        parseGprs mem n last (some 16) (k + 1) qs.length acc rd = .ok (acc ++ e) (qs.length + 1) (rd ++ [qs.length])) →
      ∃ rd, parseGprs (memOf (qs.map (fun q : List Nat => 4 * q.length + 2) ++ [x] ++ R) junk) n last (some 16) (n + 2) 0 [] []
        = .ok (qs.map (fun p : List Nat => (p.length, true)) ++ e) (qs.map (fun q : List Nat => 4 * q.length + 2) ++ [x]).length rd := by
    intro qs x e hq hk hn hlast
    obtain ⟨rd', h⟩ := parseGprs_cont junk n last (n + 2 - qs.length) qs [] ([x] ++ R) 0 [] [] rfl hq (by simp; omega) (by simp; omega)
    have hm : memOf (qs.map (fun q : List Nat => 4 * q.length + 2) ++ [x] ++ R) junk qs.length = x := by
      have : qs.map (fun q : List Nat => 4 * q.length + 2) ++ [x] ++ R = qs.map (fun q : List Nat => 4 * q.length + 2) ++ x :: R := by simp
      rw [this]; exact memOf_at _ _ _ _ _ (by simp)
    have e1 : n + 2 - qs.length + qs.length = n + 2 := by omega
    have e2 : n + 2 - qs.length = (n + 1 - qs.length) + 1 := by omega
    rw [e1] at h
    have h2 := hlast (memOf (qs.map (fun q : List Nat => 4 * q.length + 2) ++ [x] ++ R) junk) (n + 1 - qs.length)
      (qs.map (fun q : List Nat => (q.length, true))) rd' (by simp; omega) hm
    refine ⟨rd' ++ [qs.length], ?_⟩
    simp only [List.nil_append, Nat.zero_add, List.append_assoc] at h h2 ⊢
    rw [h, e2, h2]
    simp
  simp only [Content.Valid, Bool.false_eq_true, if_false] at hv
  obtain ⟨hv1, hv2⟩ := hv
  cases after with
  | li0 l =>
    rw [gprsLis_li0] at hn ⊢
    exact main ends 1 _ hv1 hk (by simp at hn; omega) (fun mem k acc rd ha hm =>
      (parseGprs_last mem n last k ends.length acc rd 1 (by omega) (by simp at hn; omega) ha).2.2 hm)
  | tail l =>
    have hne : ends ≠ [] := by rintro rfl; exact hl rfl
    obtain ⟨qs, p, rfl⟩ := nonempty_snoc hne
    rw [gprsLis_tail] at hn ⊢
    have hp := hv1 p (by simp)
    obtain ⟨rd, h⟩ := main qs (4 * p.length + 3) [(p.length, true), (toEnd, last)] (fun q hq => hv1 q (by simp [hq]))
      (by simp at hk; omega) (by simp at hn; omega) (fun mem k acc rd ha hm => by
        rw [(parseGprs_last mem n last k qs.length acc rd p.length hp.1 (by simp at hn; omega) ha).2.1 hm]; simp)
    exact ⟨rd, by rw [h]; simp [ext]⟩
  | fill l =>
    obtain ⟨qs, p, rfl⟩ := nonempty_snoc hv2
    rw [gprsLis_fill] at hn ⊢
    have hp := hv1 p (by simp)
    obtain ⟨rd, h⟩ := main qs (4 * p.length + 1) [(p.length, true)] (fun q hq => hv1 q (by simp [hq]))
      (by simp at hk; omega) (by simp at hn; omega) (fun mem k acc rd ha hm =>
        (parseGprs_last mem n last k qs.length acc rd p.length hp.1 (by simp at hn; omega) ha).1 hm)
    exact ⟨rd, by rw [h]; simp [ext]⟩

theorem parse_egprs_lis (ends : List (List Nat)) (after : After) (last : Bool) (junk : Nat → Nat) (n : Nat) (R : List Nat)
    (hv : (Content.mk ends after).Valid true) (hk : ends.length ≤ 14) (hl : egprsLis ends after ≠ [])
    (hn : (egprsLis ends after).length ≤ n) :
    ∃ rd, parseEgprs (memOf (egprsLis ends after ++ R) junk) n last (some 16) (n + 2) 0 [] []
      = .ok (ends.map (fun p : List Nat => (p.length, true)) ++ ext last after) (egprsLis ends after).length rd := by
  have main : ∀ (qs : List (List Nat)) (x : Nat) (e : List Ext), (∀ q ∈ qs, q.length < 127) → (∀ q ∈ qs.tail, q ≠ []) → qs.length ≤ 14 →
      qs.length + 1 ≤ n →
      (∀ mem k rd, mem qs.length = x →
        parseEgprs mem n last (some 16) (k + 1) qs.length (qs.map (fun q : List Nat => (q.length, true))) rd
          = .ok (qs.map (fun q : List Nat => (q.length, true)) ++ e) (qs.length + 1) (rd ++ [qs.length])) →
      ∃ rd, parseEgprs (memOf (qs.map (fun q : List Nat => 2 * q.length) ++ [x] ++ R) junk) n last (some 16) (n + 2) 0 [] []
        = .ok (qs.map (fun p : List Nat => (p.length, true)) ++ e) (qs.map (fun q : List Nat => 2 * q.length) ++ [x]).length rd := by
    intro qs x e hq hz hk hn hlast
    obtain ⟨rd', h⟩ := parseEgprs_cont junk n last (n + 2 - qs.length) qs [] ([x] ++ R) 0 [] [] rfl hq hz (by simp) (by simp; omega) (by simp; omega)
    have hm : memOf (qs.map (fun q : List Nat => 2 * q.length) ++ [x] ++ R) junk qs.length = x := by
      have : qs.map (fun q : List Nat => 2 * q.length) ++ [x] ++ R = qs.map (fun q : List Nat => 2 * q.length) ++ x :: R := by simp
      rw [this]; exact memOf_at _ _ _ _ _ (by simp)
    have e1 : n + 2 - qs.length + qs.length = n + 2 := by omega
    have e2 : n + 2 - qs.length = (n + 1 - qs.length) + 1 := by omega
    rw [e1] at h
    have h2 := hlast (memOf (qs.map (fun q : List Nat => 2 * q.length) ++ [x] ++ R) junk) (n + 1 - qs.length) rd' hm
    refine ⟨rd' ++ [qs.length], ?_⟩
    simp only [List.nil_append, Nat.zero_add, List.append_assoc] at h h2 ⊢
    rw [h, e2, h2]
    simp
  simp only [Content.Valid, if_true] at hv
  obtain ⟨hv1, hv2, hv3⟩ := hv
  cases after with
  | li0 l => exact hv3.elim
  | tail l =>
    have hne : ends ≠ [] := by rintro rfl; exact hl rfl
    obtain ⟨qs, p, rfl⟩ := nonempty_snoc hne
    rw [egprsLis_tail] at hn ⊢
    have hp := hv1 p (by simp)
    have hzq : ∀ q ∈ qs.tail, q ≠ [] := by
      intro q hq'
      apply hv2
      cases qs with
      | nil => simp at hq'
      | cons x xs => simp at hq' ⊢; exact Or.inl hq'
    obtain ⟨rd, h⟩ := main qs (2 * p.length + 1) [(p.length, true), (toEnd, last)] (fun q hq => hv1 q (by simp [hq])) hzq
      (by simp at hk; omega) (by simp at hn; omega) (fun mem k rd hm => by
        rw [(parseEgprs_last mem n last k qs.length _ rd p.length hp (by
          intro hne h0
          cases qs with
          | nil => exact hne rfl
          | cons x xs => exact hv2 p (by simp) (List.length_eq_zero_iff.1 h0)) (by simp at hn; omega) (by simp at hk ⊢; omega)).1 hm]
        simp)
    exact ⟨rd, by rw [h]; simp [ext]⟩
  | fill l =>
    rw [egprsLis_fill] at hn ⊢
    obtain ⟨rd, h⟩ := main ends 255 [] hv1 hv2 hk (by simp at hn; omega) (fun mem k rd hm => by
      rw [(parseEgprs_last mem n last k ends.length _ rd 1 (by omega) (by omega) (by simp at hn; omega) (by simp; omega)).2 hm]; simp)
    exact ⟨rd, by rw [h]; simp [ext]⟩

/-! ### Blocks -/

/-- What reassembly does with a content. -/
def afterBlock (a : Asm) (last : Bool) (c : Content) : Asm :=
  match c.after with
  | .fill _ => asmAll a c.ends
  | .tail l => if l = [] then asmAll a c.ends else (asmAll a c.ends).piece l last
  | .li0 l => if l = [] then asmAll a c.ends else (asmAll a c.ends).piece l last

theorem valid_lt {edge : Bool} {c : Content} (hv : c.Valid edge) : ∀ p ∈ c.ends, p.length < 128 := by
  intro p hp
  cases edge
  · simp only [Content.Valid, Bool.false_eq_true, if_false] at hv
    have := (hv.1 p hp).2; omega
  · simp only [Content.Valid, if_true] at hv
    have := hv.1 p hp; omega

theorem lis_nil {edge : Bool} {c : Content} (hv : c.Valid edge) (h : c.lis edge = []) : c.ends = [] ∧ ∃ l, c.after = .tail l := by
  obtain ⟨ends, after⟩ := c
  cases edge
  · simp only [Content.lis, Bool.false_eq_true, if_false] at h
    simp only [Content.Valid, Bool.false_eq_true, if_false] at hv
    cases after with
    | li0 l => rw [gprsLis_li0] at h; simp at h
    | fill l => obtain ⟨qs, p, rfl⟩ := nonempty_snoc hv.2; rw [gprsLis_fill] at h; simp at h
    | tail l =>
      refine ⟨Classical.byContradiction fun hne => ?_, l, rfl⟩
      obtain ⟨qs, p, rfl⟩ := nonempty_snoc hne; rw [gprsLis_tail] at h; simp at h
  · simp only [Content.lis, if_true] at h
    simp only [Content.Valid, if_true] at hv
    cases after with
    | li0 l => exact hv.2.2.elim
    | fill l => rw [egprsLis_fill] at h; simp at h
    | tail l =>
      refine ⟨Classical.byContradiction fun hne => ?_, l, rfl⟩
      obtain ⟨qs, p, rfl⟩ := nonempty_snoc hne; rw [egprsLis_tail] at h; simp at h

/-- The reader's entries. -/
theorem parse_content (edge : Bool) (c : Content) (last : Bool) (junk : Nat → Nat) (n : Nat) (R : List Nat)
    (hv : c.Valid edge) (hk : c.ends.length ≤ 14) (hn : (c.lis edge).length ≤ n) :
    ∃ rd, (if c.e edge ≠ 0 then (Parsed.ok [(toEnd, last)] 0 [] : Parsed)
      else if edge then parseEgprs (memOf (c.lis edge ++ R) junk) n last (some 16) (n + 2) 0 [] []
      else parseGprs (memOf (c.lis edge ++ R) junk) n last (some 16) (n + 2) 0 [] [])
      = .ok (c.ends.map (fun p : List Nat => (p.length, true)) ++ ext last c.after) (c.lis edge).length rd := by
  by_cases h : c.lis edge = []
  · obtain ⟨h1, l, h2⟩ := lis_nil hv h
    refine ⟨[], ?_⟩
    rw [if_pos (by simp [Content.e, h]), h, h1, h2]
    rfl
  · rw [if_neg (by simp [Content.e, h])]
    cases edge
    · exact parse_gprs_lis c.ends c.after last junk n R hv hk h hn
    · exact parse_egprs_lis c.ends c.after last junk n R hv hk h hn

theorem block_content (a : Asm) (edge : Bool) (c : Content) (cv : Nat) (tl : List Nat) (ti : Bool) (junk : Nat → Nat)
    (hv : c.Valid edge) (hk : c.ends.length ≤ 14) (ht : tl.length = if ti then 4 else 0) :
    a.block edge (memOf (c.octets edge tl) junk) (c.octets edge tl).length ⟨c.e edge, cv, ti, false⟩
      = afterBlock a (decide (cv = 0)) c := by
  have hd : c.octets edge tl = c.lis edge ++ (tl ++ c.ends.flatten ++ c.after.octets) := by
    simp [Content.octets, List.append_assoc]
  have hd2 : c.octets edge tl = (c.lis edge ++ tl) ++ c.ends.flatten ++ c.after.octets := by
    simp [Content.octets, List.append_assoc]
  generalize hn : (c.octets edge tl).length = n
  have hlen : (c.lis edge).length + tl.length + c.ends.flatten.length + c.after.octets.length = n := by
    rw [← hn, hd2]; simp only [List.length_append]
  obtain ⟨rd, hp⟩ := parse_content edge c (decide (cv = 0)) junk n (tl ++ c.ends.flatten ++ c.after.octets) hv hk (by omega)
  rw [← hd] at hp
  have hpf := place_fold junk n c.ends (c.lis edge ++ tl) c.after.octets a (valid_lt hv)
    (by rw [List.length_append]; exact hlen)
  rw [← hd2, List.length_append] at hpf
  have hfin : ∃ ps, place n ((c.lis edge).length + tl.length) (c.ends.map (fun p : List Nat => (p.length, true)) ++ ext (decide (cv = 0)) c.after) = some ps
      ∧ runPieces (memOf (c.octets edge tl) junk) a ps = afterBlock a (decide (cv = 0)) c := by
    unfold afterBlock
    cases hc : c.after with
    | fill l =>
      obtain ⟨ps, h1, h2⟩ := hpf.1
      exact ⟨ps, by simpa [ext] using h1, h2⟩
    | tail l =>
      obtain ⟨ps, h1, h2⟩ := hpf.2 (decide (cv = 0))
      rw [hc] at h2
      exact ⟨ps, h1, h2⟩
    | li0 l =>
      obtain ⟨ps, h1, h2⟩ := hpf.2 (decide (cv = 0))
      rw [hc] at h2
      exact ⟨ps, h1, h2⟩
  obtain ⟨ps, h1, h2⟩ := hfin
  have key : (fromUl edge (memOf (c.octets edge tl) junk) n ⟨c.e edge, cv, ti, false⟩ (some 16)).pieces = some ps := by
    unfold fromUl
    simp only
    rw [hp]
    cases ti
    · simp only [Bool.false_eq_true, if_false, false_and] at ht ⊢
      rw [ht] at h1
      exact h1
    · simp only [if_true, true_and, Bool.false_eq_true, if_false] at ht ⊢
      rw [if_neg (by omega)]
      rw [ht] at h1
      exact h1
  unfold Asm.block
  rw [key]
  exact h2

end Verif.Seg
