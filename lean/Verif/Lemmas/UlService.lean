import Verif.Lemmas.LlcSeg
import Verif.Lemmas.UlComplete
import Verif.Spec.UlService
/-! The uplink service: frames through cutting, window and reassembly. -/

namespace Verif.Seg

open Verif.LlcSeg

/-- What remains to be delivered: the frame under construction and what is still to be sent. -/
def glue (acc : List Nat) : List (List Nat) → List (List Nat)
  | [] => []
  | r :: todo => (acc ++ r) :: todo

theorem asmAll_cons (a : Asm) (p : List Nat) (ps : List (List Nat)) :
    asmAll a (p :: ps) = ⟨[], a.out ++ (a.acc ++ p) :: ps⟩ := by
  induction ps generalizing a p with
  | nil => simp [asmAll, Asm.piece]
  | cons q ps ih =>
    show asmAll (a.piece p true) (q :: ps) = _
    rw [ih]
    simp [Asm.piece]

theorem asmAll_glue (a : Asm) (ends todo : List (List Nat)) :
    (asmAll a ends).out ++ glue (asmAll a ends).acc todo = a.out ++ glue a.acc (ends ++ todo) := by
  cases ends with
  | nil => rfl
  | cons p ps =>
    rw [asmAll_cons]
    cases todo <;> simp [glue]

/-- Reassembly and sender agree about all frames. -/
structure Agree (frames : List (List Nat)) (a : Asm) (st : List (List Nat)) : Prop where
  all : a.out ++ glue a.acc st = frames
  done : st = [] → a.acc = []

theorem asmAll_done (a : Asm) (ends : List (List Nat)) (h : ends = [] → a.acc = []) : (asmAll a ends).acc = [] := by
  cases ends with
  | nil => exact h rfl
  | cons p ps => rw [asmAll_cons]

theorem takes_agree {edge : Bool} {last : Bool} {st st' : List (List Nat)} {c : Content} (h : Takes edge last st c st')
    {frames : List (List Nat)} {a : Asm} (ha : Agree frames a st) : Agree frames (afterBlock a last c) st' := by
  cases h with
  | fill _ ends l _ hl =>
    refine ⟨?_, ?_⟩
    · show (asmAll a ends).out ++ glue (asmAll a ends).acc st' = _
      rw [asmAll_glue]; exact ha.all
    · intro e
      subst e
      exact asmAll_done a ends fun e => ha.done (by rw [e]; rfl)
  | exact _ ends _ _ hl =>
    refine ⟨?_, ?_⟩
    · show (asmAll a ends).out ++ glue (asmAll a ends).acc st' = _
      rw [asmAll_glue]; exact ha.all
    · intro e
      subst e
      exact asmAll_done a ends fun e => ha.done (by rw [e]; rfl)
  | tail ends t r todo ht _ =>
    have e : afterBlock a false ⟨ends, .tail t⟩ = ⟨(asmAll a ends).acc ++ t, (asmAll a ends).out⟩ := by
      simp [afterBlock, ht, Asm.piece]
    rw [e]
    refine ⟨?_, fun h => by cases h⟩
    have := asmAll_glue a ends ((t ++ r) :: todo)
    rw [ha.all] at this
    rw [← this]
    simp [glue]
  | final ends t ht =>
    have e : afterBlock a true ⟨ends, .tail t⟩ = ⟨[], (asmAll a ends).out ++ [(asmAll a ends).acc ++ t]⟩ := by
      simp [afterBlock, ht, Asm.piece]
    rw [e]
    refine ⟨?_, fun _ => rfl⟩
    have := asmAll_glue a ends [t]
    rw [ha.all] at this
    rw [← this]
    simp [glue]
  | li0 ends t x todo he =>
    have e : afterBlock a false ⟨ends, .li0 t⟩ = ⟨(asmAll a ends).acc ++ t, (asmAll a ends).out⟩ := by
      by_cases ht : t = []
      · simp [afterBlock, ht]
      · simp [afterBlock, ht, Asm.piece]
    rw [e]
    refine ⟨?_, fun h => by cases h⟩
    have := asmAll_glue a ends ((t ++ [x]) :: todo)
    rw [ha.all] at this
    rw [← this]
    simp [glue]

/-! ### Number of segments in a block -/

theorem lis_length {edge : Bool} {c : Content} (hv : c.Valid edge) : c.ends.length ≤ (c.lis edge).length := by
  obtain ⟨ends, after⟩ := c
  cases edge
  · simp only [Content.lis, Bool.false_eq_true, if_false]
    cases after with
    | li0 l => rw [gprsLis_li0]; simp
    | fill l =>
      simp only [Content.Valid, Bool.false_eq_true, if_false] at hv
      obtain ⟨qs, p, rfl⟩ := nonempty_snoc hv.2; rw [gprsLis_fill]; simp
    | tail l =>
      by_cases h : ends = []
      · subst h; simp
      · obtain ⟨qs, p, rfl⟩ := nonempty_snoc h; rw [gprsLis_tail]; simp
  · simp only [Content.lis, if_true]
    cases after with
    | li0 l => simp only [Content.Valid, if_true] at hv; exact hv.2.2.elim
    | fill l => rw [egprsLis_fill]; simp
    | tail l =>
      by_cases h : ends = []
      · subst h; simp
      · obtain ⟨qs, p, rfl⟩ := nonempty_snoc h; rw [egprsLis_tail]; simp

theorem flatten_ge (k : Nat) (l : List (List Nat)) (h : ∀ p ∈ l, k ≤ p.length) : k * l.length ≤ l.flatten.length := by
  induction l with
  | nil => simp
  | cons p l ih =>
    have h1 := h p (by simp)
    have h2 := ih fun q hq => h q (by simp [hq])
    simp only [List.length_cons, List.flatten_cons, List.length_append]
    rw [Nat.mul_add]; omega

theorem ends_few {edge : Bool} {c : Content} (hv : c.Valid edge) (tl : List Nat) (hn : (c.octets edge tl).length ≤ 74)
    (h5 : ∀ p ∈ c.ends.tail, 5 ≤ p.length) : c.ends.length ≤ 14 := by
  have h1 := lis_length hv
  have h2 := flatten_ge 5 c.ends.tail h5
  have h3 : c.ends.tail.flatten.length ≤ c.ends.flatten.length := by cases c.ends <;> simp
  have h4 : c.ends.tail.length = c.ends.length - 1 := by simp
  simp only [Content.octets, List.length_append] at hn
  omega

theorem takes_tail {edge : Bool} {last : Bool} {st st' : List (List Nat)} {c : Content} (h : Takes edge last st c st') :
    (∀ p ∈ c.ends.tail, p ∈ st.tail) ∧ (∀ p ∈ st'.tail, p ∈ st.tail) := by
  have main : ∀ (ends todo : List (List Nat)), (∀ p ∈ ends.tail, p ∈ (ends ++ todo).tail) ∧ (∀ p ∈ todo.tail, p ∈ (ends ++ todo).tail) := by
    intro ends todo
    cases ends with
    | nil => simp
    | cons e es =>
      refine ⟨fun p hp => ?_, fun p hp => ?_⟩
      · simp at hp ⊢; exact Or.inl hp
      · simp; exact Or.inr (List.mem_of_mem_tail hp)
  cases h with
  | fill _ ends l _ hl => exact main ends st'
  | exact _ ends _ _ hl => exact main ends st'
  | tail ends t r todo ht _ => exact ⟨(main ends _).1, (main ends ((t ++ r) :: todo)).2⟩
  | final ends t ht => exact ⟨(main ends _).1, by simp⟩
  | li0 ends t x todo he => exact ⟨(main ends _).1, (main ends ((t ++ [x]) :: todo)).2⟩

/-! ### Reading the TLLI -/

theorem nullGprs (mem : Nat → Nat) (n : Nat) (last : Bool) : ∀ (m k offs : Nat) (acc : List Ext) (rd : List Nat),
    (∀ i, i < m → 4 ≤ mem (offs + i) ∧ mem (offs + i) % 4 = 2) → mem (offs + m) % 2 = 1 → offs + m ≤ n → m + 1 ≤ k →
    ∃ rd', parseGprs mem n last none k offs acc rd = .ok acc (offs + m + 1) rd' := by
  intro m
  induction m with
  | zero =>
    intro k offs acc rd _ h1 h2 h3
    obtain ⟨k, rfl⟩ : ∃ j, k = j + 1 := ⟨k - 1, by omega⟩
    rw [Nat.add_zero] at h1
    refine ⟨rd ++ [offs], ?_⟩
    rw [parseGprs, if_neg (by omega)]
    simp only
    have he : (if mem offs / 4 = 0 then 1 else mem offs % 2) = 1 := by split <;> omega
    rw [he]
    simp
  | succ m ih =>
    intro k offs acc rd h0 h1 h2 h3
    obtain ⟨k, rfl⟩ : ∃ j, k = j + 1 := ⟨k - 1, by omega⟩
    have h00 := h0 0 (by omega)
    rw [Nat.add_zero] at h00
    have he : (if mem offs / 4 = 0 then 1 else mem offs % 2) = 0 := by rw [if_neg (by omega)]; omega
    have hm : (if mem offs / 4 = 0 then 0 else mem offs / 2 % 2) = 1 := by rw [if_neg (by omega)]; omega
    obtain ⟨rd', h⟩ := ih k (offs + 1) acc (rd ++ [offs])
      (fun i hi => by have := h0 (i + 1) (by omega); rwa [show offs + (i + 1) = offs + 1 + i by omega] at this)
      (by rwa [show offs + 1 + m = offs + (m + 1) by omega]) (by omega) (by omega)
    refine ⟨rd', ?_⟩
    rw [parseGprs, if_neg (by omega)]
    simp only
    rw [he, hm]
    simp only [Nat.succ_ne_zero, false_and, if_false, if_true]
    rw [h]
    congr 1; omega

theorem nullEgprs (mem : Nat → Nat) (n : Nat) (last : Bool) : ∀ (m k offs : Nat) (acc : List Ext) (rd : List Nat),
    (∀ i, i < m → mem (offs + i) % 2 = 0) → mem (offs + m) % 2 = 1 → offs + m ≤ n → m + 1 ≤ k →
    ∃ rd', parseEgprs mem n last none k offs acc rd = .ok acc (offs + m + 1) rd' := by
  intro m
  induction m with
  | zero =>
    intro k offs acc rd _ h1 h2 h3
    obtain ⟨k, rfl⟩ : ∃ j, k = j + 1 := ⟨k - 1, by omega⟩
    rw [Nat.add_zero] at h1
    refine ⟨rd ++ [offs], ?_⟩
    rw [parseEgprs, if_neg (by omega)]
    simp only
    rw [if_neg (by omega)]
  | succ m ih =>
    intro k offs acc rd h0 h1 h2 h3
    obtain ⟨k, rfl⟩ : ∃ j, k = j + 1 := ⟨k - 1, by omega⟩
    have h00 := h0 0 (by omega)
    rw [Nat.add_zero] at h00
    obtain ⟨rd', h⟩ := ih k (offs + 1) acc (rd ++ [offs])
      (fun i hi => by have := h0 (i + 1) (by omega); rwa [show offs + (i + 1) = offs + 1 + i by omega] at this)
      (by rwa [show offs + 1 + m = offs + (m + 1) by omega]) (by omega) (by omega)
    refine ⟨rd', ?_⟩
    rw [parseEgprs, if_neg (by omega)]
    simp only
    rw [if_pos h00, h]
    congr 1; omega

theorem memOf_map (f : List Nat → Nat) (qs : List (List Nat)) (x : Nat) (R : List Nat) (junk : Nat → Nat) :
    (∀ i, i < qs.length → ∃ q ∈ qs, memOf (qs.map f ++ [x] ++ R) junk i = f q) ∧ memOf (qs.map f ++ [x] ++ R) junk qs.length = x := by
  refine ⟨fun i hi => ⟨qs[i], by simp, ?_⟩, ?_⟩
  · simp [memOf, List.append_assoc, List.getElem?_append, hi]
  · have : qs.map f ++ [x] ++ R = qs.map f ++ x :: R := by simp
    rw [this]; exact memOf_at _ _ _ _ _ (by simp)

/-- Length octets: all but the last announce a further one. -/
theorem lis_gprs {c : Content} (hv : c.Valid false) (hl : c.lis false ≠ []) :
    ∃ (qs : List (List Nat)) (x : Nat), c.lis false = qs.map (fun q : List Nat => 4 * q.length + 2) ++ [x] ∧ x % 2 = 1 ∧ ∀ q ∈ qs, 1 ≤ q.length := by
  obtain ⟨ends, after⟩ := c
  simp only [Content.lis, Bool.false_eq_true, if_false] at hl ⊢
  simp only [Content.Valid, Bool.false_eq_true, if_false] at hv
  cases after with
  | li0 l => exact ⟨ends, 1, gprsLis_li0 .., rfl, fun q hq => (hv.1 q hq).1⟩
  | fill l =>
    obtain ⟨qs, p, rfl⟩ := nonempty_snoc hv.2
    exact ⟨qs, _, gprsLis_fill .., by omega, fun q hq => (hv.1 q (by simp [hq])).1⟩
  | tail l =>
    by_cases h : ends = []
    · subst h; exact (hl rfl).elim
    · obtain ⟨qs, p, rfl⟩ := nonempty_snoc h
      exact ⟨qs, _, gprsLis_tail .., by omega, fun q hq => (hv.1 q (by simp [hq])).1⟩

theorem lis_egprs {c : Content} (hv : c.Valid true) (hl : c.lis true ≠ []) :
    ∃ (qs : List (List Nat)) (x : Nat), c.lis true = qs.map (fun q : List Nat => 2 * q.length) ++ [x] ∧ x % 2 = 1 := by
  obtain ⟨ends, after⟩ := c
  simp only [Content.lis, if_true] at hl ⊢
  simp only [Content.Valid, if_true] at hv
  cases after with
  | li0 l => exact hv.2.2.elim
  | fill l => exact ⟨ends, 255, egprsLis_fill .., rfl⟩
  | tail l =>
    by_cases h : ends = []
    · subst h; exact (hl rfl).elim
    · obtain ⟨qs, p, rfl⟩ := nonempty_snoc h
      exact ⟨qs, _, egprsLis_tail .., by omega⟩

theorem null_content (edge : Bool) (c : Content) (last : Bool) (junk : Nat → Nat) (n : Nat) (R : List Nat)
    (hv : c.Valid edge) (hn : (c.lis edge).length ≤ n) :
    ∃ rd, (if c.e edge ≠ 0 then (Parsed.ok [] 0 [] : Parsed)
      else if edge then parseEgprs (memOf (c.lis edge ++ R) junk) n last none (n + 2) 0 [] []
      else parseGprs (memOf (c.lis edge ++ R) junk) n last none (n + 2) 0 [] [])
      = .ok [] (c.lis edge).length rd := by
  by_cases h : c.lis edge = []
  · refine ⟨[], ?_⟩
    rw [if_pos (by simp [Content.e, h]), h]
    rfl
  · rw [if_neg (by simp [Content.e, h])]
    cases edge
    · obtain ⟨qs, x, e, hx, hq⟩ := lis_gprs hv h
      rw [e] at hn ⊢
      obtain ⟨m1, m2⟩ := memOf_map (fun q : List Nat => 4 * q.length + 2) qs x R junk
      simp only [List.length_append, List.length_map, List.length_singleton] at hn ⊢
      obtain ⟨rd, g⟩ := nullGprs (memOf (qs.map (fun q : List Nat => 4 * q.length + 2) ++ [x] ++ R) junk) n last qs.length (n + 2) 0 [] []
        (fun i hi => by
          obtain ⟨q, hm, e⟩ := m1 i hi
          rw [Nat.zero_add, e]; have := hq q hm; omega) (by rw [Nat.zero_add, m2]; exact hx) (by omega) (by omega)
      exact ⟨rd, by rw [Nat.zero_add] at g; simpa using g⟩
    · obtain ⟨qs, x, e, hx⟩ := lis_egprs hv h
      rw [e] at hn ⊢
      obtain ⟨m1, m2⟩ := memOf_map (fun q : List Nat => 2 * q.length) qs x R junk
      simp only [List.length_append, List.length_map, List.length_singleton] at hn ⊢
      obtain ⟨rd, g⟩ := nullEgprs (memOf (qs.map (fun q : List Nat => 2 * q.length) ++ [x] ++ R) junk) n last qs.length (n + 2) 0 [] []
        (fun i hi => by
          obtain ⟨q, hm, e⟩ := m1 i hi
          rw [Nat.zero_add, e]; omega) (by rw [Nat.zero_add, m2]; exact hx) (by omega) (by omega)
      exact ⟨rd, by rw [Nat.zero_add] at g; simpa using g⟩

theorem ulTlli_content (edge : Bool) (c : Content) (cv t : Nat) (junk : Nat → Nat) (hv : c.Valid edge) (ht : t < 2 ^ 32) :
    UlData.ulTlli edge (memOf (c.octets edge (tlliOctets edge t)) junk) (c.octets edge (tlliOctets edge t)).length ⟨c.e edge, cv, true, false⟩
      = some t := by
  have h4 : (tlliOctets edge t).length = 4 := by cases edge <;> rfl
  have hd : c.octets edge (tlliOctets edge t) = c.lis edge ++ (tlliOctets edge t ++ (c.ends.flatten ++ c.after.octets)) := by
    simp [Content.octets, List.append_assoc]
  have hlen : (c.octets edge (tlliOctets edge t)).length = (c.lis edge).length + 4 + (c.ends.flatten ++ c.after.octets).length := by
    rw [hd]; simp only [List.length_append, h4]; omega
  obtain ⟨rd, hp⟩ := null_content edge c (decide (cv = 0)) junk (c.octets edge (tlliOctets edge t)).length
    (tlliOctets edge t ++ (c.ends.flatten ++ c.after.octets)) hv (by omega)
  have hm := memOf_mid (c.lis edge) (tlliOctets edge t) (c.ends.flatten ++ c.after.octets) junk
  rw [← hd] at hp
  rw [List.append_assoc, ← hd] at hm
  have e0 := hm 0 (by omega)
  have e1 := hm 1 (by omega)
  have e2 := hm 2 (by omega)
  have e3 := hm 3 (by omega)
  rw [Nat.add_zero] at e0
  unfold UlData.ulTlli
  simp only
  rw [hp]
  simp only
  rw [if_neg (by omega), if_neg (by simp), e0, e1, e2, e3]
  cases edge
  · simp only [tlliOctets, Bool.false_eq_true, if_false, List.getElem_cons_zero, List.getElem_cons_succ]
    congr 1
    omega
  · simp only [tlliOctets, if_true, List.reverse_cons, List.reverse_nil, List.nil_append, List.cons_append, List.getElem_cons_zero, List.getElem_cons_succ]
    congr 1
    omega

end Verif.Seg

namespace Verif.UlService

open Verif.LlcSeg Verif.Seg Verif.UlData
open Verif.RlcUl (Kind Rx isRecv Arrival ReachG StepG SysG okNumbers Inv reach_inv reachG_inv)

/-! ### Blocks of a mobile -/

/-- Reassembly after the first `k` blocks. -/
def asmAt (blks : List UlBlk) (k : Nat) : Asm :=
  (blks.take k).foldl (fun a b => afterBlock a b.last b.content) ⟨[], []⟩

theorem asmAt_succ {blks : List UlBlk} {k : Nat} {b : UlBlk} (h : blks[k]? = some b) :
    asmAt blks (k + 1) = afterBlock (asmAt blks k) b.last b.content := by
  unfold asmAt
  rw [List.take_add_one, List.foldl_append, h]
  rfl

theorem cuts_agree {edge : Bool} {st : List (List Nat)} {bs : List UlBlk} {st' : List (List Nat)} (h : Cuts edge st bs st') :
    ∀ {frames : List (List Nat)} {a : Asm}, Agree frames a st → Agree frames (bs.foldl (fun a b => afterBlock a b.last b.content) a) st' := by
  induction h with
  | nil st => intro _ _ ha; exact ha
  | cons st b st1 bs st2 _ _ _ _ ht _ ih => intro _ _ ha; exact ih (takes_agree ht ha)

theorem agree_start (frames : List (List Nat)) : Agree frames ⟨[], []⟩ frames := ⟨by cases frames <;> rfl, fun _ => rfl⟩

theorem cuts_take {edge : Bool} {st : List (List Nat)} {bs : List UlBlk} {st' : List (List Nat)} (h : Cuts edge st bs st') (k : Nat) :
    ∃ stk, Cuts edge st (bs.take k) stk := by
  induction h generalizing k with
  | nil st => exact ⟨st, by simpa using Cuts.nil st⟩
  | cons st b st1 bs st2 h1 h2 h3 h4 ht _ ih =>
    cases k with
    | zero => exact ⟨st, Cuts.nil st⟩
    | succ k =>
      obtain ⟨stk, h⟩ := ih k
      exact ⟨stk, Cuts.cons _ _ _ _ _ h1 h2 h3 h4 ht h⟩

/-- What is used of a block. -/
structure Fine (edge : Bool) (b : UlBlk) : Prop where
  valid : b.content.Valid edge
  last : decide (b.cv = 0) = b.last
  few : b.content.ends.length ≤ 14

theorem cuts_fine {edge : Bool} {st : List (List Nat)} {bs : List UlBlk} {st' : List (List Nat)} (h : Cuts edge st bs st')
    (h5 : ∀ p ∈ st.tail, 5 ≤ p.length) : ∀ b ∈ bs, Fine edge b := by
  induction h with
  | nil st => intro b hb; cases hb
  | cons st b st1 bs st2 hv hl _ hn ht _ ih =>
    intro x hx
    obtain ⟨t1, t2⟩ := takes_tail ht
    rcases List.mem_cons.1 hx with rfl | hx
    · refine ⟨hv, ?_, ends_few hv _ hn fun p hp => h5 p (t1 p hp)⟩
      cases hb : x.last
      · simp; rw [hl, hb]; simp
      · simp; rw [hl, hb]
    · exact ih (fun p hp => h5 p (t2 p hp)) x hx

theorem Mobile.fine {edge : Bool} {t : Nat} {frames rest : List (List Nat)} {blks : List UlBlk} (m : Mobile edge t frames blks rest) :
    ∀ b ∈ blks, Fine edge b :=
  cuts_fine m.cuts fun p hp => m.llc p (List.mem_of_mem_tail hp)

theorem tlli_length (edge : Bool) (o : Option Nat) : ((o.map (tlliOctets edge)).getD []).length = if o.isSome then 4 else 0 := by
  cases o with
  | none => rfl
  | some t => cases edge <;> rfl

theorem assemble_raw {edge : Bool} {sns : Nat} {blks : List UlBlk} {n : Nat} {b : UlBlk} (hb : blks[n]? = some b) (hf : Fine edge b)
    (junk : Nat → Nat) (a : Asm) : assemble edge junk a (some (raw edge sns blks n)) = afterBlock a b.last b.content := by
  simp only [assemble, raw, hb, UlBlk.octets]
  rw [block_content a edge b.content b.cv _ _ junk hf.valid hf.few (tlli_length edge b.tlli), hf.last]

theorem tlliCheck_raw {edge : Bool} {sns t : Nat} {blks : List UlBlk} {n : Nat} {b : UlBlk} (hb : blks[n]? = some b) (hf : Fine edge b)
    (ht : ∀ u, b.tlli = some u → u = t) (hr : t < 2 ^ 32 - 1) (junk : Nat → Nat) (o : Option Nat) (ho : o = none ∨ o = some t)
    (hn : o = none → b.tlli ≠ none) : tlliCheck edge junk o (raw edge sns blks n) = (.ok, some t) := by
  simp only [tlliCheck, raw, hb, UlBlk.octets]
  cases hbt : b.tlli with
  | none =>
    rcases ho with rfl | rfl
    · exact (hn rfl hbt).elim
    · simp
  | some u =>
    have := ht u hbt
    subst this
    have hu : u ≠ noTlli := by simp only [noTlli]; omega
    simp only [Option.isSome_some, if_true, Option.map_some, Option.getD_some]
    rw [ulTlli_content edge b.content b.cv u junk hf.valid (by omega)]
    rcases ho with rfl | rfl <;> simp [hu]

/-! ### One radio block -/

theorem oneBlock_out {α} (x : Rx α) (a : Arrival α) : (x.oneBlock a).1.out = x.out := by
  unfold Rx.oneBlock
  split
  · rfl
  · split
    · rfl
    · cases a.kind <;> rfl

theorem flush_init {α} (x : Rx α) (sns ws : Nat) (h : x.win = RlcUl.Win.init sns ws) : x.flush = x := by
  have e : x.win.raiseVq = (x.win, 0) := by
    unfold RlcUl.Win.raiseVq
    rw [h]
    cases sns with
    | zero => rfl
    | succ k =>
      show RlcUl.raiseVqLoop (k + 1) _ 0 = _
      rw [RlcUl.raiseVqLoop, if_neg (by simp [RlcUl.Win.init])]
  simp only [Rx.flush, e]
  simp

/-- Relation of a TBF before and after. -/
structure Rcvd (edge : Bool) (junk : Nat → Nat) (sns ws t : Nat) (s r : Tbf) : Prop where
  tlli : r.tlli = none ∨ r.tlli = some t
  fresh : r.tlli = none → r.rx.win = RlcUl.Win.init sns ws ∧ r.rx.out = []
  asm : r.asm = (r.rx.out.drop s.rx.out.length).foldl (assemble edge junk) s.asm
  sent : r.sent = s.sent ++ (r.asm.out.drop s.asm.out.length).map fun f => (t, f)

theorem forward_rcvd (edge : Bool) (junk : Nat → Nat) (sns ws t : Nat) (s : Tbf) (ht : s.tlli = none ∨ s.tlli = some t)
    (hf : s.tlli = none → s.rx.win = RlcUl.Win.init sns ws ∧ s.rx.out = []) : Rcvd edge junk sns ws t s (s.forward edge junk) := by
  refine ⟨ht, ?_, rfl, ?_⟩
  · intro h
    obtain ⟨h1, h2⟩ := hf h
    show s.rx.flush.win = _ ∧ s.rx.flush.out = _
    rw [flush_init s.rx sns ws h1]
    exact ⟨h1, h2⟩
  · rcases ht with h | h
    · obtain ⟨h1, h2⟩ := hf h
      simp only [Tbf.forward, flush_init s.rx sns ws h1]
      simp
    · simp only [Tbf.forward, h, Option.getD_some]

theorem rcv_spec {edge : Bool} {sns ws t : Nat} {blks : List UlBlk} (hfine : ∀ b ∈ blks, Fine edge b)
    (htl : ∀ b ∈ blks, ∀ u, b.tlli = some u → u = t) (hr : t < 2 ^ 32 - 1) (junk : Nat → Nat) (ns : List Nat) :
    ∀ s : Tbf, (s.tlli = none ∨ s.tlli = some t) → (s.tlli = none → s.rx.win = RlcUl.Win.init sns ws ∧ s.rx.out = []) →
      (∀ n ∈ ns, n < blks.length) → (s.tlli = none → ∀ n ∈ ns, ∃ b, blks[n]? = some b ∧ b.tlli ≠ none) →
      (s.rcv edge junk (ns.map (raw edge sns blks))).rx = s.rx.rcvBlocks (ns.map fun n => ⟨n % sns, raw edge sns blks n, .ok⟩) ∧
      Rcvd edge junk sns ws t s (s.rcv edge junk (ns.map (raw edge sns blks))) := by
  induction ns with
  | nil => intro s h1 h2 _ _; exact ⟨rfl, forward_rcvd edge junk sns ws t s h1 h2⟩
  | cons n ns ih =>
    intro s h1 h2 h3 h4
    have hn := h3 n (by simp)
    have hb : blks[n]? = some blks[n] := by simp [hn]
    have hmem : blks[n] ∈ blks := by simp
    have hbsn : (raw edge sns blks n).bsn = n % sns := by simp [raw, hb]
    have hpart : (raw edge sns blks n).part = false := by simp [raw, hb]
    have hk := tlliCheck_raw (sns := sns) hb (hfine _ hmem) (htl _ hmem) hr junk s.tlli h1 (fun h => by
      obtain ⟨b, e1, e2⟩ := h4 h n (by simp)
      rw [hb] at e1; cases e1; exact e2)
    have h3' : ∀ m ∈ ns, m < blks.length := fun m hm => h3 m (by simp [hm])
    have h4' : s.tlli = none → ∀ m ∈ ns, ∃ b, blks[m]? = some b ∧ b.tlli ≠ none := fun h m hm => h4 h m (by simp [hm])
    simp only [List.map_cons, Tbf.rcv, hbsn, hpart, Rx.rcvBlocks]
    by_cases hw : s.rx.win.isInWindow (n % sns)
    · by_cases hrc : isRecv s.rx.win.vn (n % sns)
      · have e : s.rx.oneBlock ⟨n % sns, raw edge sns blks n, .ok⟩ = (s.rx, false) := by simp [Rx.oneBlock, hw, hrc]
        rw [e]
        simp only [hw, hrc, Bool.not_true, Bool.false_eq_true, if_false, if_true]
        exact ih s h1 h2 h3' h4'
      · have e : ∃ x, s.rx.oneBlock ⟨n % sns, raw edge sns blks n, .ok⟩ = (x, false) := by simp [Rx.oneBlock, hw, hrc]
        obtain ⟨x, e⟩ := e
        have eo := oneBlock_out s.rx ⟨n % sns, raw edge sns blks n, .ok⟩
        simp only [hw, hrc, Bool.not_true, Bool.false_eq_true, if_false, hk, e]
        rw [e] at eo
        have := ih { s with rx := x, tlli := some t } (Or.inr rfl) (fun h => by cases h) h3' (fun h => by cases h)
        refine ⟨this.1, ⟨this.2.tlli, this.2.fresh, ?_, this.2.sent⟩⟩
        rw [this.2.asm]
        show List.foldl _ s.asm (List.drop x.out.length _) = _
        rw [show x.out = s.rx.out from eo]
    · have e : s.rx.oneBlock ⟨n % sns, raw edge sns blks n, .ok⟩ = (s.rx, false) := by simp [Rx.oneBlock, hw]
      rw [e]
      simp only [hw, Bool.not_false, if_true]
      exact ih s h1 h2 h3' h4'

theorem half_spec (edge : Bool) (sns ws t : Nat) (junk : Nat → Nat) (s : Tbf) (r : Raw) (h1 : s.tlli = none ∨ s.tlli = some t)
    (h2 : s.tlli = none → s.rx.win = RlcUl.Win.init sns ws ∧ s.rx.out = []) (hp : r.part = true) :
    (s.rcv edge junk [r]).rx = s.rx.rcvBlocks [⟨r.bsn, r, .partialSeg⟩] ∧ Rcvd edge junk sns ws t s (s.rcv edge junk [r]) := by
  simp only [Tbf.rcv, hp, Rx.rcvBlocks]
  by_cases hw : s.rx.win.isInWindow r.bsn
  · by_cases hrc : isRecv s.rx.win.vn r.bsn
    · have e : s.rx.oneBlock ⟨r.bsn, r, .partialSeg⟩ = (s.rx, false) := by simp [Rx.oneBlock, hw, hrc]
      rw [e]
      simp only [hw, hrc, Bool.not_true, Bool.false_eq_true, if_false, if_true]
      exact ⟨rfl, forward_rcvd edge junk sns ws t s h1 h2⟩
    · have e : s.rx.oneBlock ⟨r.bsn, r, .partialSeg⟩ = ({ s.rx with buf := RlcUl.store s.rx.buf r.bsn r }, true) := by
        simp [Rx.oneBlock, hw, hrc]
      rw [e]
      simp only [hw, hrc, Bool.not_true, Bool.false_eq_true, if_false, if_true]
      refine ⟨by trivial, ⟨h1, h2, ?_, ?_⟩⟩ <;> simp
  · have e : s.rx.oneBlock ⟨r.bsn, r, .partialSeg⟩ = (s.rx, false) := by simp [Rx.oneBlock, hw]
    rw [e]
    simp only [hw, Bool.not_false, if_true]
    exact ⟨rfl, forward_rcvd edge junk sns ws t s h1 h2⟩

/-! ### Simulation -/

/-- The state of window and stream alone. -/
def Sys.g (s : Sys) : SysG Raw := ⟨s.va, s.vs, s.tbf.rx, s.got⟩

theorem legal {edge : Bool} {sns ws : Nat} (h : LegalCfg edge sns ws) : RlcUl.LegalCfg sns ws := by
  cases edge
  · simp only [LegalCfg, Bool.false_eq_true, if_false] at h; exact Or.inl h
  · simp only [LegalCfg, if_true] at h; exact Or.inr h

/-- What holds in every state. -/
structure Sim (edge : Bool) (sns ws t : Nat) (blks : List UlBlk) (G' : SysG Raw → List (Nat × Arrival Raw) → Prop) (s : Sys) : Prop where
  reach : ReachG (raw edge sns blks) sns ws G' s.g
  vs : s.vs ≤ blks.length
  tlli : s.tbf.tlli = none ∨ s.tbf.tlli = some t
  fresh : s.tbf.tlli = none → s.tbf.rx.win = RlcUl.Win.init sns ws ∧ s.tbf.rx.out = []
  asm : s.tbf.asm = asmAt blks s.tbf.rx.out.length
  sent : s.tbf.sent = s.tbf.asm.out.map fun f => (t, f)

theorem out_eq {edge : Bool} {sns ws : Nat} (hc : LegalCfg edge sns ws) {blks : List UlBlk} {G'} {g : SysG Raw}
    (h : ReachG (raw edge sns blks) sns ws G' g) :
    g.rx.out = (List.range g.rx.out.length).map (fun n => some (raw edge sns blks n)) ∧ g.rx.out.length ≤ g.vs := by
  obtain ⟨q, r, hi⟩ := reach_inv (legal hc) h.toReach
  have ho : g.rx.out = _ := hi.out
  have hl : g.rx.out.length = q := by rw [ho]; simp
  rw [hl]
  refine ⟨ho, ?_⟩
  have h1 := hi.qr
  have h2 : r ≤ g.vs := hi.rvs
  omega

theorem fold_asm {edge : Bool} {sns : Nat} {blks : List UlBlk} (hf : ∀ b ∈ blks, Fine edge b) (junk : Nat → Nat) (q0 k : Nat)
    (hk : q0 + k ≤ blks.length) :
    (((List.range (q0 + k)).map (fun n => some (raw edge sns blks n))).drop q0).foldl (assemble edge junk) (asmAt blks q0)
      = asmAt blks (q0 + k) := by
  induction k with
  | zero => rw [List.drop_of_length_le (by simp)]; rfl
  | succ k ih =>
    have hb : blks[q0 + k]? = some blks[q0 + k] := by simp
    rw [← Nat.add_assoc, List.range_succ, List.map_append, List.drop_append_of_le_length (by simp), List.foldl_append,
      ih (by omega), asmAt_succ hb]
    exact assemble_raw hb (hf _ (by simp)) junk _

/-- Reassembly only appends. -/
theorem piece_out (a : Asm) (l : List Nat) (c : Bool) : ∃ m, (a.piece l c).out = a.out ++ m := by
  cases c
  · exact ⟨[], by simp [Asm.piece]⟩
  · exact ⟨[a.acc ++ l], rfl⟩

theorem asmAll_out (a : Asm) (ends : List (List Nat)) : ∃ m, (asmAll a ends).out = a.out ++ m := by
  cases ends with
  | nil => exact ⟨[], by simp [asmAll]⟩
  | cons p ps => rw [asmAll_cons]; exact ⟨_, rfl⟩

theorem afterBlock_out (a : Asm) (last : Bool) (c : Content) : ∃ m, (afterBlock a last c).out = a.out ++ m := by
  have hp : ∀ l, ∃ m, ((asmAll a c.ends).piece l last).out = a.out ++ m := by
    intro l
    obtain ⟨m, h⟩ := asmAll_out a c.ends
    obtain ⟨m2, h2⟩ := piece_out (asmAll a c.ends) l last
    exact ⟨m ++ m2, by rw [h2, h, List.append_assoc]⟩
  unfold afterBlock
  split
  · exact asmAll_out a _
  · split
    · exact asmAll_out a _
    · exact hp _
  · split
    · exact asmAll_out a _
    · exact hp _

theorem asmAt_out (blks : List UlBlk) (q0 k : Nat) : ∃ m, (asmAt blks (q0 + k)).out = (asmAt blks q0).out ++ m := by
  induction k with
  | zero => exact ⟨[], by simp⟩
  | succ k ih =>
    obtain ⟨m, h⟩ := ih
    by_cases hk : q0 + k < blks.length
    · have hb : blks[q0 + k]? = some blks[q0 + k] := by simp
      obtain ⟨m2, h2⟩ := afterBlock_out (asmAt blks (q0 + k)) blks[q0 + k].last blks[q0 + k].content
      refine ⟨m ++ m2, ?_⟩
      rw [← Nat.add_assoc, asmAt_succ hb, h2, h, List.append_assoc]
    · have : asmAt blks (q0 + (k + 1)) = asmAt blks (q0 + k) := by
        unfold asmAt
        rw [List.take_of_length_le (by omega), List.take_of_length_le (by omega)]
      exact ⟨m, by rw [this, h]⟩

theorem rcvBlocks_out {α} (blocks : List (Arrival α)) : ∀ x : Rx α, ∃ more, (x.rcvBlocks blocks).out = x.out ++ more := by
  induction blocks with
  | nil => intro x; exact ⟨_, rfl⟩
  | cons a rest ih =>
    intro x
    have ho := oneBlock_out x a
    simp only [Rx.rcvBlocks]
    rcases hres : x.oneBlock a with ⟨x', c⟩
    rw [hres] at ho
    cases c
    · obtain ⟨m, hm⟩ := ih x'
      exact ⟨m, by rw [← ho]; exact hm⟩
    · exact ⟨[], by simp [← ho]⟩

theorem sim_step {edge : Bool} {sns ws t : Nat} {blks : List UlBlk} {G'} (hc : LegalCfg edge sns ws) (hf : ∀ b ∈ blks, Fine edge b)
    {junk : Nat → Nat} {s : Sys} (h : Sim edge sns ws t blks G' s) {tbf : Tbf} {got : List Nat} {as : List (Arrival Raw)}
    (hrx : tbf.rx = s.tbf.rx.rcvBlocks as) (hr : Rcvd edge junk sns ws t s.tbf tbf)
    (hg : ReachG (raw edge sns blks) sns ws G' ⟨s.va, s.vs, tbf.rx, got⟩) :
    Sim edge sns ws t blks G' { s with tbf := tbf, got := got } := by
  obtain ⟨o1, o2⟩ := out_eq hc hg
  obtain ⟨m, hm⟩ := rcvBlocks_out as s.tbf.rx
  rw [← hrx] at hm
  obtain ⟨k, hk⟩ : ∃ k, tbf.rx.out.length = s.tbf.rx.out.length + k := ⟨m.length, by rw [hm]; simp⟩
  have hv := h.vs
  simp only at o1 o2
  have ha : tbf.asm = asmAt blks tbf.rx.out.length := by
    rw [hr.asm, o1, h.asm, hk, fold_asm hf junk _ _ (by omega)]
    congr 1
    simp
  refine ⟨hg, hv, hr.tlli, hr.fresh, ha, ?_⟩
  show tbf.sent = _
  obtain ⟨m2, hm2⟩ := asmAt_out blks s.tbf.rx.out.length k
  rw [hr.sent, h.sent, ha, h.asm, hk, hm2]
  simp

theorem sim {edge : Bool} {sns ws t : Nat} {frames rest : List (List Nat)} {blks : List UlBlk} {G : Sys → List Nat → Prop} {G'} {t0 : Option Nat}
    (hc : LegalCfg edge sns ws) (hm : Mobile edge t frames blks rest) (ht0 : t0 = none ∨ t0 = some t)
    (hG : ∀ s ns, G s ns → G' s.g (ns.map fun n => (n, ⟨n % sns, raw edge sns blks n, .ok⟩))) {s : Sys}
    (h : Reach edge sns ws blks G t0 s) : Sim edge sns ws t blks G' s := by
  induction h with
  | start =>
    exact ⟨ReachG.start, by simp, ht0, fun _ => ⟨rfl, rfl⟩, by simp [asmAt, Tbf.init, RlcUl.Rx.init], by simp [Tbf.init]⟩
  | @step s t _ hst ih =>
    cases hst with
    | sendNew h1 h2 => exact ⟨ih.reach.step (StepG.sendNew s.g h1), by simp; omega, ih.tlli, ih.fresh, ih.asm, ih.sent⟩
    | acked a h1 h2 h3 =>
      exact ⟨ih.reach.step (StepG.acked s.g a h1 h2 h3), ih.vs, ih.tlli, ih.fresh, ih.asm, ih.sent⟩
    | radio ns junk h1 h2 h3 =>
      have hv := ih.vs
      obtain ⟨e1, e2⟩ := rcv_spec (sns := sns) (ws := ws) hm.fine hm.tlli hm.range junk ns s.tbf ih.tlli ih.fresh
        (fun n hn => by have := (h1 n hn).2; omega) h2
      refine sim_step hc hm.fine ih e1 e2 ?_
      have := ih.reach.step (StepG.radio s.g (ns.map fun n => (n, ⟨n % sns, raw edge sns blks n, .ok⟩))
        (by
          intro b hb
          obtain ⟨n, hn, rfl⟩ := List.mem_map.1 hb
          exact ⟨(h1 n hn).1, (h1 n hn).2, rfl, fun _ => rfl⟩)
        (by
          intro b hb
          obtain ⟨n, hn, rfl⟩ := List.mem_map.1 hb
          simp) (hG s ns h3))
      have e3 : okNumbers (ns.map fun n => (n, (⟨n % sns, raw edge sns blks n, .ok⟩ : Arrival Raw))) = ns := by
        unfold okNumbers
        rw [List.filter_eq_self.2 (by intro b hb; obtain ⟨n, hn, rfl⟩ := List.mem_map.1 hb; simp)]
        simp [Function.comp_def]
      rw [e3, List.map_map] at this
      rw [e1]
      exact this
    | half n r junk h1 h2 h3 h4 =>
      obtain ⟨e1, e2⟩ := half_spec edge sns ws _ junk s.tbf r ih.tlli ih.fresh h4
      refine sim_step hc hm.fine ih e1 e2 ?_
      have := ih.reach.step (StepG.segment s.g (n, ⟨r.bsn, r, .partialSeg⟩) h1 h2 h3 rfl)
      rw [e1]
      exact this

/-! ### The results -/

theorem at_agree {edge : Bool} {t : Nat} {frames rest : List (List Nat)} {blks : List UlBlk} (hm : Mobile edge t frames blks rest)
    (k : Nat) : ∃ st, Agree frames (asmAt blks k) st := by
  obtain ⟨st, h⟩ := cuts_take hm.cuts k
  exact ⟨st, cuts_agree h (agree_start frames)⟩

theorem agree_prefix {frames : List (List Nat)} {a : Asm} {st : List (List Nat)} (h : Agree frames a st) :
    a.out <+: frames ∧ a.out.length + st.length = frames.length := by
  refine ⟨⟨_, h.all⟩, ?_⟩
  rw [← h.all]
  cases st <;> simp [glue]

/-- V(Q) does not stop short. -/
def Flushed {α} (x : Rx α) : Prop := x.win.vq = x.win.vr ∨ isRecv x.win.vn x.win.vq = false

theorem flush_flushed {α} {f : Nat → α} {sns ws va vs : Nat} {x : Rx α} {q r : Nat} (hc : RlcUl.LegalCfg sns ws)
    (h : Inv f sns ws va vs x q r) : Flushed x.flush := by
  obtain ⟨q', h1, _, h2, _, h3⟩ := RlcUl.flush_inv hc h
  unfold Flushed
  rw [h1.hq, h1.hr, h3]
  rcases h2 with h2 | h2
  · left; rw [h2]
  · right; simpa [isRecv, RlcUl.idx] using h2

theorem rcvBlocks_flushed {α} {f : Nat → α} {sns ws va vs : Nat} (hc : RlcUl.LegalCfg sns ws) (blocks : List (Arrival α)) :
    ∀ (x : Rx α) (q r : Nat), Inv f sns ws va vs x q r →
    (∀ b ∈ blocks, ∃ n, va ≤ n ∧ n < vs ∧ b.bsn = n % sns ∧ (b.kind = .ok → b.data = f n)) →
    (∀ b ∈ blocks, b.kind ≠ .partialSeg) → Flushed (x.rcvBlocks blocks) := by
  induction blocks with
  | nil => intro x q r h _ _; exact flush_flushed hc h
  | cons a rest ih =>
    intro x q r h hb hk
    obtain ⟨r', _, h'⟩ := RlcUl.oneBlock_inv hc h a (hb a (List.mem_cons_self ..))
    have hn := RlcUl.oneBlock_noReturn x a (hk a (List.mem_cons_self ..))
    rcases hres : x.oneBlock a with ⟨x', b⟩
    rw [hres] at h' hn
    simp only at hn
    subst hn
    simp only [Rx.rcvBlocks, hres]
    exact ih x' q r' h' (fun b hb' => hb b (List.mem_cons_of_mem _ hb')) (fun b hb' => hk b (List.mem_cons_of_mem _ hb'))

theorem segment_flushed {α} {f : Nat → α} {sns ws va vs : Nat} (hc : RlcUl.LegalCfg sns ws) (a : Arrival α) (hp : a.kind = .partialSeg)
    (x : Rx α) (q r : Nat) (h : Inv f sns ws va vs x q r) (hfl : Flushed x) : Flushed (x.rcvBlocks [a]) := by
  simp only [Rx.rcvBlocks]
  unfold Rx.oneBlock
  rw [hp]
  by_cases hw : x.win.isInWindow a.bsn
  · by_cases hrc : isRecv x.win.vn a.bsn
    · simp only [hw, hrc, Bool.not_true, Bool.false_eq_true, if_false, if_true]
      exact flush_flushed hc h
    · simp only [hw, hrc, Bool.not_true, Bool.false_eq_true, if_false]
      exact hfl
  · simp only [hw, Bool.not_false, if_true]
    exact flush_flushed hc h

theorem reachG_flushed {α} {f : Nat → α} {sns ws : Nat} (hc : RlcUl.LegalCfg sns ws) {s : SysG α} {G}
    (h : ReachG f sns ws G s) : Flushed s.rx := by
  induction h with
  | start => exact Or.inl rfl
  | @step s t hr hst ih =>
    obtain ⟨q, r, hi⟩ := reach_inv hc hr.toReach
    cases hst with
    | sendNew h => exact ih
    | acked a h1 h2 h3 => exact ih
    | radio blocks hb hp _ =>
      refine rcvBlocks_flushed hc _ s.rx q r hi ?_ ?_
      · intro b hb'
        obtain ⟨c, hc, rfl⟩ := List.mem_map.1 hb'
        exact ⟨c.1, hb c hc⟩
      · intro b hb'
        obtain ⟨c, hc, rfl⟩ := List.mem_map.1 hb'
        exact hp c hc
    | segment b b1 b2 b3 b4 => exact segment_flushed hc b.2 b4 s.rx q r hi ih

/-- Blocks the mobile takes as received were handed to reassembly. -/
theorem reachG_acked {α} {f : Nat → α} {sns ws : Nat} (hc : RlcUl.LegalCfg sns ws) {s : SysG α} {G}
    (h : ReachG f sns ws G s) : s.va ≤ s.rx.out.length := by
  obtain ⟨q, r, hi⟩ := reach_inv hc h.toReach
  have hfl := reachG_flushed hc h
  have hl : s.rx.out.length = q := by
    have : s.rx.out = _ := hi.out
    rw [this]; simp
  rw [hl]
  rcases Nat.lt_or_ge q s.va with hq | hq
  · exfalso
    obtain ⟨h1, h2⟩ := hi.acked q (Nat.le_refl _) hq
    have e1 := hi.hq
    have e2 := hi.hr
    simp only [SysG.toSys] at e1 e2 h2
    unfold Flushed at hfl
    rw [e1, e2] at hfl
    rcases hfl with e | e
    · have hw := RlcUl.cfg_ws hc
      have hrq := hi.rq
      have hws : 0 < ws := by rcases hc with ⟨_, rfl⟩ | ⟨_, h, _⟩ <;> omega
      have := RlcUl.mod_inj (sns := sns) (Nat.le_of_lt h1) (by omega) e
      omega
    · simp only [isRecv] at e
      simp only [RlcUl.idx] at h2
      rw [h2] at e
      simp at e
  · exact hq

theorem sent_prefix {edge : Bool} {sns ws t : Nat} {frames rest : List (List Nat)} {blks : List UlBlk} {G'}
    (hm : Mobile edge t frames blks rest) {s : Sys} (h : Sim edge sns ws t blks G' s) :
    s.tbf.sent <+: frames.map fun f => (t, f) := by
  obtain ⟨st, ha⟩ := at_agree hm s.tbf.rx.out.length
  obtain ⟨m, e⟩ := (agree_prefix ha).1
  rw [h.sent, h.asm]
  exact ⟨m.map fun f => (t, f), by rw [← List.map_append, e]⟩

theorem sent_most {edge : Bool} {sns ws t : Nat} {frames : List (List Nat)} {blks : List UlBlk} {G'}
    {s : Sys} (h : Sim edge sns ws t blks G' s) {k : Nat} {st : List (List Nat)} (hk : Cuts edge frames (blks.take k) st)
    (hq : k ≤ s.tbf.rx.out.length) : frames.length ≤ s.tbf.sent.length + st.length := by
  have ha := agree_prefix (cuts_agree hk (agree_start frames))
  obtain ⟨j, e⟩ : ∃ j, s.tbf.rx.out.length = k + j := ⟨s.tbf.rx.out.length - k, by omega⟩
  obtain ⟨m, hm⟩ := asmAt_out blks k j
  rw [h.sent, h.asm, e, hm]
  have := ha.2
  simp only [asmAt] at *
  simp
  omega

end Verif.UlService
