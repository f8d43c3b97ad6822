import Verif.Lemmas.SegBlock
import Verif.Lemmas.LlcSeg
/-! The sender's loop against the receiver. -/
namespace Verif.Seg

open Verif.LlcSeg

/-- Length octets of the finished pieces of a block under construction. -/
def lisOf (edge : Bool) (ps : List (List Nat)) : List Nat :=
  if edge then ps.dropLast.map (fun q => 2 * q.length) ++
    (ps.getLast?.toList.map (fun q => 2 * q.length + 1))
  else ps.dropLast.map (fun q => 4 * q.length + 2) ++
    (ps.getLast?.toList.map (fun q => 4 * q.length + 1))

theorem lisOf_nil (edge : Bool) : lisOf edge [] = [] := by cases edge <;> rfl

theorem lisOf_gprs (qs : List (List Nat)) (p : List Nat) :
    lisOf false (qs ++ [p]) = qs.map (fun q => 4 * q.length + 2) ++ [4 * p.length + 1] := by
  simp [lisOf]

theorem lisOf_egprs (qs : List (List Nat)) (p : List Nat) :
    lisOf true (qs ++ [p]) = qs.map (fun q => 2 * q.length) ++ [2 * p.length + 1] := by
  simp [lisOf]

theorem snoc_cases (ps : List (List Nat)) : ps = [] ∨ ∃ qs p, ps = qs ++ [p] := by
  rcases List.eq_nil_or_concat ps with h | ⟨qs, p, h⟩
  · exact Or.inl h
  · exact Or.inr ⟨qs, p, by rw [h, List.concat_eq_append]⟩

/-- A block under construction holding the finished pieces `ps`. -/
structure Mid (edge : Bool) (n : Nat) (t : Tx) (ps : List (List Nat)) : Prop where
  blk : ∃ F, t.blk = lisOf edge ps ++ ps.flatten ++ F ∧ F.length = n - t.off
  num : t.num = ps.length
  off : t.off = ps.length + ps.flatten.length
  lt : t.off < n
  e : t.e = if ps = [] then 1 else 0
  cv : t.cv = 15
  szs : ∀ p ∈ ps, p.length < (if edge then 127 else 64)
  pos : ∀ p ∈ ps.tail, p ≠ []
  posG : edge = false → ∀ p ∈ ps, p ≠ []
  cnt : 6 * ps.length ≤ t.off + 5

theorem lisOf_length (edge : Bool) (ps : List (List Nat)) : (lisOf edge ps).length = ps.length := by
  rcases snoc_cases ps with rfl | ⟨qs, p, rfl⟩
  · rw [lisOf_nil]; rfl
  · cases edge
    · rw [lisOf_gprs]; simp
    · rw [lisOf_egprs]; simp

theorem gapG (ps : List (List Nat)) (F : List Nat) (v : Nat) (hps : ∀ p ∈ ps, p.length < 64) :
    (onPrev ps.length (fun b => (b &&& 0xfe) ||| 2)
      (openGap (lisOf false ps ++ ps.flatten ++ F) ps.length (ps.length + ps.flatten.length))).set
        ps.length v =
      ps.map (fun q => 4 * q.length + 2) ++ v :: (ps.flatten ++ F.drop 1) := by
  obtain ⟨g, hg⟩ := openGap_app (lisOf false ps) ps.flatten F ps.length
    (ps.length + ps.flatten.length) (lisOf_length _ _).symm (by rw [lisOf_length])
  rw [hg]
  rcases snoc_cases ps with rfl | ⟨qs, p, rfl⟩
  · rw [lisOf_nil]; simp [onPrev]
  · have hp := hps p (by simp)
    rw [lisOf_gprs]
    have e : qs.map (fun q => 4 * q.length + 2) ++ [4 * p.length + 1] ++
        g :: ((qs ++ [p]).flatten ++ F.drop 1) =
        qs.map (fun q => 4 * q.length + 2) ++ (4 * p.length + 1) ::
          (g :: ((qs ++ [p]).flatten ++ F.drop 1)) := by simp
    rw [e, onPrev_app _ _ _ _ _ (by simp), bits_cont _ hp]
    have e2 : qs.map (fun q => 4 * q.length + 2) ++ (4 * p.length + 2) ::
          (g :: ((qs ++ [p]).flatten ++ F.drop 1)) =
        (qs ++ [p]).map (fun q => 4 * q.length + 2) ++
          g :: ((qs ++ [p]).flatten ++ F.drop 1) := by simp
    rw [e2, set_app _ _ _ _ _ (by simp)]

theorem gapE (ps : List (List Nat)) (F : List Nat) (v : Nat) (hps : ∀ p ∈ ps, p.length < 127) :
    onPrev ps.length (fun b => b &&& 0xfe)
      ((openGap (lisOf true ps ++ ps.flatten ++ F) ps.length (ps.length + ps.flatten.length)).set
        ps.length v) =
      ps.map (fun q => 2 * q.length) ++ v :: (ps.flatten ++ F.drop 1) := by
  obtain ⟨g, hg⟩ := openGap_app (lisOf true ps) ps.flatten F ps.length
    (ps.length + ps.flatten.length) (lisOf_length _ _).symm (by rw [lisOf_length])
  rw [hg, set_app _ _ _ _ _ (lisOf_length _ _).symm]
  rcases snoc_cases ps with rfl | ⟨qs, p, rfl⟩
  · rw [lisOf_nil]; simp [onPrev]
  · have hp := hps p (by simp)
    rw [lisOf_egprs]
    have e : qs.map (fun q => 2 * q.length) ++ [2 * p.length + 1] ++
        v :: ((qs ++ [p]).flatten ++ F.drop 1) =
        qs.map (fun q => 2 * q.length) ++ (2 * p.length + 1) ::
          (v :: ((qs ++ [p]).flatten ++ F.drop 1)) := by simp
    rw [e, onPrev_app _ _ _ _ _ (by simp), bits_e0 _ (by omega)]
    simp

theorem drop_take_length {c : List Nat} {m : Nat} (h : m ≤ c.length) : (c.take m).length = m := by
  simp; omega

/-- The block holds the content `k`. -/
structure Holds (edge : Bool) (blk : List Nat) (e : Nat) (k : Content) : Prop where
  valid : k.Valid edge
  few : k.ends.length ≤ 14
  octets : blk = k.octets edge []
  e : e = k.e edge

theorem Holds.read {edge : Bool} {blk : List Nat} {e : Nat} {k : Content} (h : Holds edge blk e k) (a : Asm) (junk : Nat → Nat)
    (n cv : Nat) (hn : blk.length = n) :
    a.block edge (memOf blk junk) n ⟨e, cv, false, false⟩ = afterBlock a (decide (cv = 0)) k := by
  rw [← hn, h.octets, h.e]
  exact block_content a edge k cv [] false junk h.valid h.few rfl

theorem holds_plain (edge : Bool) (R : List Nat) (h : R ≠ []) : Holds edge R 1 ⟨[], .tail R⟩ := by
  cases edge
  · exact ⟨by simp [Content.Valid, h], by simp, by simp [Content.octets, Content.lis, gprsLis, After.octets], by simp [Content.e, Content.lis, gprsLis]⟩
  · exact ⟨by simp [Content.Valid, h], by simp, by simp [Content.octets, Content.lis, egprsLis, After.octets], by simp [Content.e, Content.lis, egprsLis]⟩

theorem holds_gprs_more (qs : List (List Nat)) (p R : List Nat) (hq : ∀ q ∈ qs ++ [p], 1 ≤ q.length ∧ q.length < 64)
    (hk : (qs ++ [p]).length ≤ 14) (hR : R ≠ []) (blk : List Nat)
    (hb : blk = qs.map (fun q => 4 * q.length + 2) ++ [4 * p.length + 3] ++ (qs ++ [p]).flatten ++ R) :
    Holds false blk 0 ⟨qs ++ [p], .tail R⟩ := by
  have hl : (⟨qs ++ [p], .tail R⟩ : Content).lis false = qs.map (fun q => 4 * q.length + 2) ++ [4 * p.length + 3] :=
    gprsLis_tail qs p R
  exact ⟨by simp only [Content.Valid, Bool.false_eq_true, if_false]; exact ⟨hq, hR⟩, hk,
    by rw [hb, Content.octets, hl]; simp [After.octets], by rw [Content.e, hl]; simp⟩

theorem holds_gprs_fill (qs : List (List Nat)) (p F : List Nat) (hq : ∀ q ∈ qs ++ [p], 1 ≤ q.length ∧ q.length < 64)
    (hk : (qs ++ [p]).length ≤ 14) (blk : List Nat)
    (hb : blk = qs.map (fun q => 4 * q.length + 2) ++ [4 * p.length + 1] ++ (qs ++ [p]).flatten ++ F) :
    Holds false blk 0 ⟨qs ++ [p], .fill F⟩ := by
  have hl : (⟨qs ++ [p], .fill F⟩ : Content).lis false = qs.map (fun q => 4 * q.length + 2) ++ [4 * p.length + 1] :=
    gprsLis_fill qs p F
  exact ⟨by simp only [Content.Valid, Bool.false_eq_true, if_false]; exact ⟨hq, by simp⟩, hk,
    by rw [hb, Content.octets, hl]; simp [After.octets], by rw [Content.e, hl]; simp⟩

theorem holds_gprs_li0 (ps : List (List Nat)) (R : List Nat) (hq : ∀ q ∈ ps, 1 ≤ q.length ∧ q.length < 64)
    (hk : ps.length ≤ 14) (blk : List Nat)
    (hb : blk = ps.map (fun q => 4 * q.length + 2) ++ [1] ++ ps.flatten ++ R) :
    Holds false blk 0 ⟨ps, .li0 R⟩ := by
  have hl : (⟨ps, .li0 R⟩ : Content).lis false = ps.map (fun q => 4 * q.length + 2) ++ [1] := gprsLis_li0 ps R
  exact ⟨by simp only [Content.Valid, Bool.false_eq_true, if_false]; exact ⟨hq, trivial⟩, hk,
    by rw [hb, Content.octets, hl]; simp [After.octets], by rw [Content.e, hl]; simp⟩

theorem holds_egprs_more (qs : List (List Nat)) (p R : List Nat) (hq : ∀ q ∈ qs ++ [p], q.length < 127)
    (hz : ∀ q ∈ (qs ++ [p]).tail, q ≠ []) (hk : (qs ++ [p]).length ≤ 14) (blk : List Nat)
    (hb : blk = qs.map (fun q => 2 * q.length) ++ [2 * p.length + 1] ++ (qs ++ [p]).flatten ++ R) :
    Holds true blk 0 ⟨qs ++ [p], .tail R⟩ := by
  have hl : (⟨qs ++ [p], .tail R⟩ : Content).lis true = qs.map (fun q => 2 * q.length) ++ [2 * p.length + 1] :=
    egprsLis_tail qs p R
  exact ⟨by simp only [Content.Valid, if_true]; exact ⟨hq, hz, by simp⟩, hk,
    by rw [hb, Content.octets, hl]; simp [After.octets], by rw [Content.e, hl]; simp⟩

theorem holds_egprs_fill (ps : List (List Nat)) (F : List Nat) (hq : ∀ q ∈ ps, q.length < 127)
    (hz : ∀ q ∈ ps.tail, q ≠ []) (hk : ps.length ≤ 14) (blk : List Nat)
    (hb : blk = ps.map (fun q => 2 * q.length) ++ [255] ++ ps.flatten ++ F) :
    Holds true blk 0 ⟨ps, .fill F⟩ := by
  have hl : (⟨ps, .fill F⟩ : Content).lis true = ps.map (fun q => 2 * q.length) ++ [255] := egprsLis_fill ps F
  exact ⟨by simp only [Content.Valid, if_true]; exact ⟨hq, hz, trivial⟩, hk,
    by rw [hb, Content.octets, hl]; simp [After.octets], by rw [Content.e, hl]; simp⟩

/-- What one append does, as seen by the receiver. -/
def AppendSpec (edge : Bool) (n : Nat) (fin : Bool) (t : Tx) (ps : List (List Nat)) (c : List Nat)
    (r : Tx × AR) : Prop :=
  (r.2 = .needMore ∧ r.1.blk.length = n ∧ r.1.cv = 15 ∧ r.1.cur = t.cur ∧
    ∃ m, r.1.idx = t.idx + m ∧ m ≤ c.length ∧
      (edge = false → m < c.length) ∧ (ps = [] → 0 < m) ∧
      ∃ k, Holds edge r.1.blk r.1.e k ∧ ∀ a : Asm, afterBlock a false k = (asmAll a ps).piece (c.take m) false) ∨
  (r.2 = .filled ∧ r.1.blk.length = n ∧ (r.1.cv = 0 ↔ fin = true) ∧
    ∃ k, Holds edge r.1.blk r.1.e k ∧ ∀ a : Asm, afterBlock a (decide (r.1.cv = 0)) k = asmAll a (ps ++ [c])) ∨
  (r.2 = .spaceLeft ∧ fin = false ∧ Mid edge n r.1 (ps ++ [c]))

theorem piece_nil (a : Asm) : a.piece [] false = a := by
  cases a; simp [Asm.piece]

theorem appendGprs_spec (n : Nat) (fin : Bool) (t : Tx) (ps : List (List Nat)) (c : List Nat)
    (hcdef : t.cur.drop t.idx = c)
    (hn : LegalLen false n) (hm : Mid false n t ps)
    (hc : t.idx < t.cur.length) (hc5 : ps ≠ [] → 5 ≤ t.cur.length - t.idx)
    (hok : ¬ (fin = true ∧ ps ≠ [] ∧ t.cur.length - t.idx = n - t.off)) :
    AppendSpec false n fin t ps c (appendGprs n fin t) := by
  obtain ⟨hn1, hn2⟩ := hn
  simp only [Bool.false_eq_true, if_false] at hn2
  obtain ⟨F, hblk, hF⟩ := hm.blk
  have hnum := hm.num
  have hoff := hm.off
  have hlt := hm.lt
  have hcnt := hm.cnt
  have hpos := hm.posG rfl
  have hszs : ∀ p ∈ ps, p.length < 64 := by simpa using hm.szs
  have hq : ∀ q ∈ ps, 1 ≤ q.length ∧ q.length < 64 := fun q hq =>
    ⟨List.length_pos_iff.2 (hpos q hq), hszs q hq⟩
  have hcl : c.length = t.cur.length - t.idx := by rw [← hcdef]; simp
  have hcl0 : 0 < c.length := by omega
  have hlislen := lisOf_length false ps
  unfold appendGprs AppendSpec
  dsimp only
  rw [hcdef]
  rw [← hcl]
  rw [← hcl] at hok
  by_cases h1 : c.length > n - t.off
  · rw [if_pos h1]
    left
    have hput : putAt (onPrev t.num (· ||| 2) t.blk) t.off (c.take (n - t.off)) =
        onPrev t.num (· ||| 2) (lisOf false ps) ++ ps.flatten ++ c.take (n - t.off) := by
      have hpre : onPrev t.num (· ||| 2) t.blk =
          onPrev t.num (· ||| 2) (lisOf false ps) ++ ps.flatten ++ F := by
        rw [hblk, hnum]
        rcases snoc_cases ps with rfl | ⟨qs, p, rfl⟩
        · simp [onPrev, lisOf_nil]
        · rw [lisOf_gprs]
          have e : qs.map (fun q => 4 * q.length + 2) ++ [4 * p.length + 1] ++ (qs ++ [p]).flatten ++ F
            = qs.map (fun q => 4 * q.length + 2) ++ (4 * p.length + 1) :: ((qs ++ [p]).flatten ++ F) := by
              simp [List.append_assoc]
          rw [e, onPrev_app _ _ _ _ _ (by simp), onPrev_app _ _ _ _ _ (by simp)]
          simp [List.append_assoc]
      rw [hpre, putAt_app]
      · rw [drop_take_length (by omega)]
        rw [List.drop_of_length_le (by omega)]; simp
      · have : (onPrev t.num (· ||| 2) (lisOf false ps)).length = ps.length := by
          unfold onPrev; split
          · rw [List.length_modify, hlislen]
          · exact hlislen
        rw [List.length_append, this, hoff]
    have hRne : c.take (n - t.off) ≠ [] := by
      intro h
      have := congrArg List.length h
      rw [drop_take_length (by omega)] at this
      simp at this; omega
    dsimp only
    rw [hput]
    have hlen : (onPrev t.num (· ||| 2) (lisOf false ps) ++ ps.flatten ++ c.take (n - t.off)).length = n := by
      have : (onPrev t.num (· ||| 2) (lisOf false ps)).length = ps.length := by
        unfold onPrev; split
        · rw [List.length_modify, hlislen]
        · exact hlislen
      rw [List.length_append, List.length_append, this, drop_take_length (by omega)]; omega
    refine ⟨rfl, hlen, hm.cv, rfl, n - t.off, rfl, by omega, fun _ => by omega, fun _ => by omega, ?_⟩
    rw [hm.e]
    refine ⟨⟨ps, .tail (c.take (n - t.off))⟩, ?_, fun a => by simp only [afterBlock]; rw [if_neg hRne]⟩
    rcases snoc_cases ps with rfl | ⟨qs, p, rfl⟩
    · simp only [if_true]
      rw [hnum]
      simp only [List.length_nil, onPrev_zero, lisOf_nil, List.flatten_nil, List.nil_append]
      exact holds_plain false _ hRne
    · rw [if_neg (by simp)]
      rw [hnum]
      rw [lisOf_gprs, onPrev_app _ _ _ _ _ (by simp)]
      rw [bits_or2 _ (hq p (by simp)).2]
      exact holds_gprs_more qs p _ hq (by omega) hRne _ (by simp)
  · rw [if_neg h1]
    by_cases h2 : c.length = n - t.off ∧ fin = true
    · rw [if_pos h2]
      have hps : ps = [] := by
        rcases snoc_cases ps with h | ⟨qs, p, h⟩
        · exact h
        · exact absurd ⟨h2.2, by rw [h]; simp, h2.1⟩ hok
      subst hps
      right; left
      simp only [List.length_nil] at hnum
      simp only [List.length_nil, List.flatten_nil, Nat.add_zero] at hoff
      have hct : c.take (n - t.off) = c := List.take_of_length_le (by omega)
      rw [hct, hnum, onPrev_zero, hblk, lisOf_nil]
      have hput : putAt ([] ++ ([] : List (List Nat)).flatten ++ F) t.off c = c := by
        simp only [List.flatten_nil, List.nil_append]
        have := putAt_app [] F c t.off (by simpa using hoff)
        simp only [List.nil_append] at this
        rw [this, List.drop_of_length_le (by omega)]; simp
      rw [hput]
      have hcne : c ≠ [] := by intro h; rw [h] at hcl0; simp at hcl0
      refine ⟨rfl, by dsimp only; omega, by simp [h2.2], ⟨[], .tail c⟩, ?_, fun a => ?_⟩
      · dsimp only
        rw [hm.e]
        exact holds_plain false c hcne
      · simp only [afterBlock]; rw [if_neg hcne]; rfl
    · rw [if_neg h2]
      by_cases h3 : c.length = n - t.off
      · rw [if_pos h3]
        left
        have hb3 : (onPrev t.num (fun b => (b &&& 0xfe) ||| 2) (openGap t.blk t.num t.off)).set
            t.num 1 = ps.map (fun q => 4 * q.length + 2) ++ 1 :: (ps.flatten ++ F.drop 1) := by
          rw [hnum, hoff, hblk]; exact gapG ps F 1 hszs
        rw [hb3]
        have hput : putAt (ps.map (fun q => 4 * q.length + 2) ++ 1 :: (ps.flatten ++ F.drop 1))
            (t.off + 1) (c.take (n - t.off - 1)) =
            ps.map (fun q => 4 * q.length + 2) ++ [1] ++ ps.flatten ++ c.take (n - t.off - 1) := by
          have e : ps.map (fun q => 4 * q.length + 2) ++ 1 :: (ps.flatten ++ F.drop 1) =
            (ps.map (fun q => 4 * q.length + 2) ++ [1] ++ ps.flatten) ++ F.drop 1 := by simp
          rw [e, putAt_app _ _ _ _ (by simp only [List.length_append, List.length_map, List.length_cons, List.length_nil]; omega),
            drop_take_length (by omega)]
          rw [List.drop_of_length_le (by simp; omega)]; simp
        rw [hput]
        have hlen : (ps.map (fun (q : List Nat) => 4 * q.length + 2) ++ [1] ++ ps.flatten ++
            c.take (n - t.off - 1)).length = n := by
          simp only [List.length_append, List.length_map, List.length_cons, List.length_nil]
          rw [drop_take_length (by omega)]; omega
        refine ⟨rfl, hlen, hm.cv, rfl, n - t.off - 1, rfl, by omega, fun _ => by omega, ?_, ?_⟩
        · intro h; rw [h] at hoff; simp at hoff; omega
        refine ⟨⟨ps, .li0 (c.take (n - t.off - 1))⟩, holds_gprs_li0 ps _ hq (by omega) _ rfl, fun a => ?_⟩
        simp only [afterBlock]
        split
        · rename_i h; rw [h, piece_nil]
        · rfl
      · rw [if_neg h3]
        have hct : c.take c.length = c := List.take_of_length_le (by omega)
        have hmod : c.length % 64 = c.length := Nat.mod_eq_of_lt (by omega)
        have hb3 : (onPrev t.num (fun b => (b &&& 0xfe) ||| 2) (openGap t.blk t.num t.off)).set
            t.num (c.length % 64 * 4 + 1) = ps.map (fun q => 4 * q.length + 2) ++
              (4 * c.length + 1) :: (ps.flatten ++ F.drop 1) := by
          rw [hmod, Nat.mul_comm c.length 4, hnum, hoff, hblk]; exact gapG ps F _ hszs
        rw [hb3, hct]
        have hput : putAt (ps.map (fun q => 4 * q.length + 2) ++
              (4 * c.length + 1) :: (ps.flatten ++ F.drop 1))
            (t.off + 1) c =
            ps.map (fun q => 4 * q.length + 2) ++ [4 * c.length + 1] ++ (ps ++ [c]).flatten ++
              (F.drop 1).drop c.length := by
          have e : ps.map (fun q => 4 * q.length + 2) ++
              (4 * c.length + 1) :: (ps.flatten ++ F.drop 1) =
            (ps.map (fun q => 4 * q.length + 2) ++ [4 * c.length + 1] ++ ps.flatten) ++ F.drop 1 := by
              simp
          rw [e, putAt_app _ _ _ _ (by simp only [List.length_append, List.length_map, List.length_cons, List.length_nil]; omega)]
          simp [List.append_assoc]
        rw [hput]
        have hlen : (ps.map (fun (q : List Nat) => 4 * q.length + 2) ++ [4 * c.length + 1] ++ (ps ++ [c]).flatten ++
              (F.drop 1).drop c.length).length = n := by
          simp only [List.length_append, List.length_map, List.length_cons, List.length_nil,
            List.flatten_append, List.length_drop, List.flatten_cons, List.flatten_nil]
          omega
        have hq' : ∀ q ∈ ps ++ [c], 1 ≤ q.length ∧ q.length < 64 := by
          intro p hp
          simp only [List.mem_append, List.mem_singleton] at hp
          rcases hp with hp | rfl
          · exact hq p hp
          · omega
        have hdec := holds_gprs_fill ps c ((F.drop 1).drop c.length) hq'
            (by simp only [List.length_append, List.length_cons, List.length_nil]; omega) _ rfl
        by_cases h4 : n - t.off - 1 - c.length > 0 ∧ fin = false
        · rw [if_pos h4]
          right; right
          refine ⟨rfl, h4.2, ?_⟩
          refine ⟨⟨(F.drop 1).drop c.length, ?_, ?_⟩, ?_, ?_, ?_, ?_, hm.cv, ?_, ?_, ?_, ?_⟩
          · rw [lisOf_gprs]
          · simp only [List.length_drop]; omega
          · simp [hnum]
          · simp only [List.length_append, List.flatten_append, List.flatten_cons, List.flatten_nil, List.length_cons, List.length_nil]; omega
          · dsimp only; omega
          · rw [if_neg (by simp)]
          · intro p hp
            simp only [List.mem_append, List.mem_singleton] at hp
            simp only [Bool.false_eq_true, if_false]
            rcases hp with hp | rfl
            · exact hszs p hp
            · omega
          · intro p hp
            have := List.mem_of_mem_tail hp
            simp only [List.mem_append, List.mem_singleton] at this
            rcases this with hp | rfl
            · exact hpos p hp
            · intro h; rw [h] at hcl0; simp at hcl0
          · intro _ p hp
            simp only [List.mem_append, List.mem_singleton] at hp
            rcases hp with hp | rfl
            · exact hpos p hp
            · intro h; rw [h] at hcl0; simp at hcl0
          · simp only [List.length_append, List.length_cons, List.length_nil]
            by_cases hps : ps = []
            · subst hps; simp; omega
            · have := hc5 hps; omega
        · rw [if_neg h4]
          right; left
          by_cases h5 : fin = true
          · rw [if_pos h5]
            exact ⟨rfl, hlen, by simp [h5], _, hdec, fun a => rfl⟩
          · rw [if_neg h5]
            exact ⟨rfl, hlen, by simp [h5, hm.cv], _, hdec, fun a => rfl⟩

theorem appendEgprs_spec (n : Nat) (fin : Bool) (t : Tx) (ps : List (List Nat)) (c : List Nat)
    (hcdef : t.cur.drop t.idx = c)
    (hn : LegalLen true n) (hm : Mid true n t ps)
    (hc : t.idx ≤ t.cur.length) (hc5 : ps ≠ [] → 5 ≤ t.cur.length - t.idx) :
    AppendSpec true n fin t ps c (appendEgprs n fin t) := by
  obtain ⟨hn1, hn2⟩ := hn
  simp only [if_true] at hn2
  obtain ⟨F, hblk, hF⟩ := hm.blk
  have hnum := hm.num
  have hoff := hm.off
  have hlt := hm.lt
  have hcnt := hm.cnt
  have hpos := hm.pos
  have hszs : ∀ p ∈ ps, p.length < 127 := by simpa using hm.szs
  have hcl : c.length = t.cur.length - t.idx := by rw [← hcdef]; simp
  have hlislen := lisOf_length true ps
  -- a block filled to the end with `R`
  have hmore : ∀ R, R.length = n - t.off →
      putAt t.blk t.off R = lisOf true ps ++ ps.flatten ++ R ∧
      (lisOf true ps ++ ps.flatten ++ R).length = n ∧
      Holds true (lisOf true ps ++ ps.flatten ++ R) t.e ⟨ps, .tail R⟩ ∧
      ∀ (a : Asm) last, afterBlock a last ⟨ps, .tail R⟩ = (asmAll a ps).piece R last := by
    intro R hR
    have hRne : R ≠ [] := by intro h; rw [h] at hR; simp at hR; omega
    have hlen : (lisOf true ps ++ ps.flatten ++ R).length = n := by
      simp only [List.length_append]; omega
    refine ⟨?_, hlen, ?_, fun a last => by simp only [afterBlock]; rw [if_neg hRne]⟩
    · rw [hblk, putAt_app _ _ _ _ (by rw [List.length_append]; omega),
        List.drop_of_length_le (by omega)]
      simp
    · rw [hm.e]
      rcases snoc_cases ps with rfl | ⟨qs, p, rfl⟩
      · rw [lisOf_nil]
        simp only [if_true, List.flatten_nil, List.nil_append]
        exact holds_plain true R hRne
      · rw [if_neg (by simp)]
        rw [lisOf_egprs]
        exact holds_egprs_more qs p R hszs hpos (by omega) _ rfl
  unfold appendEgprs AppendSpec
  dsimp only
  rw [hcdef, ← hcl]
  by_cases h1 : c.length > n - t.off
  · rw [if_pos h1]
    obtain ⟨e1, e2, e3, e4⟩ := hmore (c.take (n - t.off)) (drop_take_length (by omega))
    left
    dsimp only
    rw [e1, hm.cv]
    exact ⟨rfl, e2, rfl, rfl, n - t.off, rfl, by omega, by simp, fun _ => by omega, _, e3, fun a => e4 a false⟩
  · rw [if_neg h1]
    by_cases h2 : c.length = n - t.off ∧ fin = true
    · rw [if_pos h2]
      have hct : c.take (n - t.off) = c := List.take_of_length_le (by omega)
      obtain ⟨e1, e2, e3, e4⟩ := hmore c h2.1
      right; left
      dsimp only
      rw [hct, e1]
      refine ⟨rfl, e2, by simp [h2.2], _, e3, fun a => ?_⟩
      rw [asmAll_append]
      exact e4 a true
    · rw [if_neg h2]
      by_cases h3 : c.length = n - t.off
      · rw [if_pos h3]
        obtain ⟨e1, e2, e3, e4⟩ := hmore (c.take (n - t.off)) (drop_take_length (by omega))
        left
        dsimp only
        rw [e1, hm.cv]
        exact ⟨rfl, e2, rfl, rfl, n - t.off, rfl, by omega, by simp, fun _ => by omega, _, e3, fun a => e4 a false⟩
      · rw [if_neg h3]
        have hct : c.take c.length = c := List.take_of_length_le (by omega)
        have hmod : c.length % 128 = c.length := Nat.mod_eq_of_lt (by omega)
        have hb3 : onPrev t.num (fun b => b &&& 0xfe) ((openGap t.blk t.num t.off).set
            t.num (c.length % 128 * 2 + 1)) = ps.map (fun q => 2 * q.length) ++
              (2 * c.length + 1) :: (ps.flatten ++ F.drop 1) := by
          rw [hmod, Nat.mul_comm c.length 2, hnum, hoff, hblk]; exact gapE ps F _ hszs
        have hput : putAt (ps.map (fun q => 2 * q.length) ++
              (2 * c.length + 1) :: (ps.flatten ++ F.drop 1))
            (t.off + 1) c =
            ps.map (fun q => 2 * q.length) ++ [2 * c.length + 1] ++ (ps ++ [c]).flatten ++
              (F.drop 1).drop c.length := by
          have e : ps.map (fun q => 2 * q.length) ++
              (2 * c.length + 1) :: (ps.flatten ++ F.drop 1) =
            (ps.map (fun q => 2 * q.length) ++ [2 * c.length + 1] ++ ps.flatten) ++ F.drop 1 := by
              simp
          rw [e, putAt_app _ _ _ _ (by simp only [List.length_append, List.length_map, List.length_cons, List.length_nil]; omega)]
          simp [List.append_assoc]
        rw [hb3, hct, hput]
        have hlen : (ps.map (fun (q : List Nat) => 2 * q.length) ++ [2 * c.length + 1] ++ (ps ++ [c]).flatten ++
              (F.drop 1).drop c.length).length = n := by
          simp only [List.length_append, List.length_map, List.length_cons, List.length_nil,
            List.flatten_append, List.length_drop, List.flatten_cons, List.flatten_nil]
          omega
        have hFl : ((F.drop 1).drop c.length).length = n - t.off - 1 - c.length := by
          simp only [List.length_drop]; omega
        have hszs' : ∀ p ∈ ps ++ [c], p.length < 127 := by
          intro p hp
          simp only [List.mem_append, List.mem_singleton] at hp
          rcases hp with hp | rfl
          · exact hszs p hp
          · omega
        have hpos' : ∀ p ∈ (ps ++ [c]).tail, p ≠ [] := by
          intro p hp
          cases ps with
          | nil => simp at hp
          | cons x xs =>
            simp only [List.cons_append, List.tail_cons, List.mem_append, List.mem_singleton] at hp
            rcases hp with hp | rfl
            · exact hpos p (by simpa using hp)
            · intro h
              have := hc5 (by simp)
              rw [h] at hcl; simp at hcl; omega
        have hcnt' : 6 * (ps ++ [c]).length ≤ t.off + 1 + c.length + 5 := by
          simp only [List.length_append, List.length_cons, List.length_nil]
          by_cases hps : ps = []
          · subst hps; simp; omega
          · have := hc5 hps; omega
        have hflat : (ps ++ [c]).length + (ps ++ [c]).flatten.length = t.off + 1 + c.length := by
          simp only [List.length_append, List.flatten_append, List.flatten_cons, List.flatten_nil, List.length_cons, List.length_nil]; omega
        -- completely filled block
        have hfull := holds_egprs_more ps c ((F.drop 1).drop c.length) hszs' hpos' (by omega) _ rfl
        have hfull2 : n - t.off - 1 - c.length = 0 → ∀ (a : Asm) last,
            afterBlock a last ⟨ps ++ [c], .tail ((F.drop 1).drop c.length)⟩ = asmAll a (ps ++ [c]) := by
          intro h0 a last
          simp only [afterBlock]
          rw [if_pos (List.length_eq_zero_iff.1 (by omega))]
        by_cases h4 : fin = false
        · rw [if_pos h4]
          by_cases h5 : n - t.off - 1 - c.length > 0
          · rw [if_pos h5]
            right; right
            refine ⟨rfl, h4, ?_⟩
            refine ⟨⟨(F.drop 1).drop c.length, ?_, ?_⟩, ?_, ?_, ?_, ?_, hm.cv, ?_, hpos', by simp, hcnt'⟩
            · rw [lisOf_egprs]
            · rw [hFl]; dsimp only; omega
            · simp [hnum]
            · dsimp only; omega
            · dsimp only; omega
            · rw [if_neg (by simp)]
            · simpa using hszs'
          · rw [if_neg h5]
            right; left
            refine ⟨rfl, hlen, ?_, _, hfull, fun a => hfull2 (by omega) a _⟩
            dsimp only; rw [hm.cv, h4]; simp
        · rw [if_neg h4]
          have hfin : fin = true := by cases fin <;> simp_all
          by_cases h5 : n - t.off - 1 - c.length > 0
          · rw [if_pos h5]
            right; left
            unfold liPadding
            dsimp only
            have hg := gapE (ps ++ [c]) ((F.drop 1).drop c.length) (127 * 2 + 1) hszs'
            rw [lisOf_egprs, hflat] at hg
            have hnum' : (ps ++ [c]).length = t.num + 1 := by simp [hnum]
            rw [hnum'] at hg
            rw [hg]
            have e : (ps ++ [c]).map (fun q => 2 * q.length) ++ (127 * 2 + 1) ::
                ((ps ++ [c]).flatten ++ ((F.drop 1).drop c.length).drop 1) =
                (ps ++ [c]).map (fun q => 2 * q.length) ++ [255] ++
                  (ps ++ [c]).flatten ++ ((F.drop 1).drop c.length).drop 1 := by simp
            rw [e]
            have hlen2 : ((ps ++ [c]).map (fun (q : List Nat) => 2 * q.length) ++ [255] ++
                  (ps ++ [c]).flatten ++ ((F.drop 1).drop c.length).drop 1).length = n := by
              rw [List.length_append, List.length_append, List.length_append, List.length_map,
                List.length_drop, hFl]
              simp only [List.length_cons, List.length_nil]
              omega
            exact ⟨rfl, hlen2, by simp [hfin], _, holds_egprs_fill (ps ++ [c]) _ hszs' hpos' (by omega) _ rfl, fun a => rfl⟩
          · rw [if_neg h5]
            right; left
            exact ⟨rfl, hlen, by simp [hfin], _, hfull, fun a => hfull2 (by omega) a _⟩

end Verif.Seg
