import Verif.Spec.UlMsg
import Verif.Model.DlAck
import Verif.Lemmas.Csn1Read
/-!
# Lemmas: messages of mobiles and their tables
-/

namespace Verif.Csn1

open Verif.Bits (put length_put)
open Verif.UlMsg (opt bit)

/-- Values by path. -/
def dataOf (l : List (Path × Nat)) : Data := fun q => (l.lookup q).getD 0

theorem put_bit (b : Bool) : put 1 b.toNat = bit b := by cases b <;> rfl

theorem bits_nil (σ : Data) (p) : bitsItems σ .nil 0 p = [] := by rw [bitsItems]

theorem bits_cons (σ : Data) (i is p) : bitsItems σ (.cons i is) 0 p = bitsItem σ i p ++ bitsItems σ is 0 p := by rw [bitsItems]

theorem has_nil (σ : Data) (p q) : hasItems σ .nil 0 p q ↔ False := by rw [hasItems]

theorem has_cons (σ : Data) (i is p q) : hasItems σ (.cons i is) 0 p q ↔ hasItem σ i p q ∨ hasItems σ is 0 p q := by rw [hasItems]

theorem bits_opt1 (σ : Data) (f a b i is p) :
    bitsItems σ (.opt f a b 1 (.cons i is)) 0 p =
      put 1 (σ (f :: p)) ++ ((if σ (f :: p) = 0 then [] else bitsItem σ i p) ++ bitsItems σ is 0 p) := by
  rw [bitsItems]
  by_cases h : σ (f :: p) = 0
  · rw [if_pos h, if_pos h, bitsItems]; rfl
  · rw [if_neg h, if_neg h, bitsItems]

theorem bits_opt2 (σ : Data) (f a b i j is p) :
    bitsItems σ (.opt f a b 2 (.cons i (.cons j is))) 0 p =
      put 1 (σ (f :: p)) ++ ((if σ (f :: p) = 0 then [] else bitsItem σ i p ++ bitsItem σ j p) ++ bitsItems σ is 0 p) := by
  rw [bitsItems]
  by_cases h : σ (f :: p) = 0
  · rw [if_pos h, if_pos h, bitsItems, bitsItems]; rfl
  · rw [if_neg h, if_neg h, bitsItems, bitsItems, List.append_assoc]

theorem bits_opt3 (σ : Data) (f a b i j k is p) :
    bitsItems σ (.opt f a b 3 (.cons i (.cons j (.cons k is)))) 0 p =
      put 1 (σ (f :: p)) ++ ((if σ (f :: p) = 0 then [] else bitsItem σ i p ++ bitsItem σ j p ++ bitsItem σ k p) ++ bitsItems σ is 0 p) := by
  rw [bitsItems]
  by_cases h : σ (f :: p) = 0
  · rw [if_pos h, if_pos h, bitsItems, bitsItems, bitsItems]; rfl
  · rw [if_neg h, if_neg h, bitsItems, bitsItems, bitsItems, List.append_assoc, List.append_assoc]

theorem has_opt1 (σ : Data) (f a b i is p q) :
    hasItems σ (.opt f a b 1 (.cons i is)) 0 p q ↔
      q = f :: p ∨ (σ (f :: p) ≠ 0 ∧ hasItem σ i p q) ∨ hasItems σ is 0 p q := by
  rw [hasItems]
  by_cases h : σ (f :: p) = 0
  · rw [if_pos h, hasItems]
    constructor
    · rintro (x | x)
      · exact .inl x
      · exact .inr (.inr x)
    · rintro (x | ⟨x, _⟩ | x)
      · exact .inl x
      · exact absurd h x
      · exact .inr x
  · rw [if_neg h, hasItems]
    constructor
    · rintro (x | x | x)
      · exact .inl x
      · exact .inr (.inl ⟨h, x⟩)
      · exact .inr (.inr x)
    · rintro (x | ⟨_, x⟩ | x)
      · exact .inl x
      · exact .inr (.inl x)
      · exact .inr (.inr x)

theorem has_opt2 (σ : Data) (f a b i j is p q) :
    hasItems σ (.opt f a b 2 (.cons i (.cons j is))) 0 p q ↔
      q = f :: p ∨ (σ (f :: p) ≠ 0 ∧ (hasItem σ i p q ∨ hasItem σ j p q)) ∨ hasItems σ is 0 p q := by
  rw [hasItems]
  by_cases h : σ (f :: p) = 0
  · rw [if_pos h, hasItems, hasItems]; simp [h]
  · rw [if_neg h, hasItems, hasItems]
    simp only [ne_eq, h, not_false_eq_true, true_and, or_assoc]

theorem has_opt3 (σ : Data) (f a b i j k is p q) :
    hasItems σ (.opt f a b 3 (.cons i (.cons j (.cons k is)))) 0 p q ↔
      q = f :: p ∨ (σ (f :: p) ≠ 0 ∧ (hasItem σ i p q ∨ hasItem σ j p q ∨ hasItem σ k p q)) ∨ hasItems σ is 0 p q := by
  rw [hasItems]
  by_cases h : σ (f :: p) = 0
  · rw [if_pos h, hasItems, hasItems, hasItems]; simp [h]
  · rw [if_neg h, hasItems, hasItems, hasItems]
    simp only [ne_eq, h, not_false_eq_true, true_and, or_assoc]

/-- An option in the structure and in the message. -/
theorem opt_eq {α} (o : Option α) (F : α → List Bool) (B : List Bool) (hB : ∀ x, o = some x → B = F x) :
    put 1 o.isSome.toNat ++ (if o.isSome.toNat = 0 then [] else B) = opt (o.map F) := by
  cases o with
  | none => show put 1 0 ++ (if 0 = 0 then [] else B) = _; rw [if_pos rfl]; rfl
  | some x => show put 1 1 ++ (if 1 = 0 then [] else B) = _; rw [if_neg (by decide), hB x rfl]; rfl

theorem opt_eq' {α} (o : Option α) (F : α → List Bool) (B r : List Bool) (hB : ∀ x, o = some x → B = F x) :
    put 1 o.isSome.toNat ++ ((if o.isSome.toNat = 0 then [] else B) ++ r) = opt (o.map F) ++ r := by
  rw [← List.append_assoc, opt_eq o F B hB]

theorem getD_lt {o : Option Nat} {n : Nat} (hn : 0 < n) (h : ∀ v, o = some v → v < n) : o.getD 0 < n := by
  cases o with
  | none => exact hn
  | some v => exact h v rfl

theorem mapD_lt {α} {o : Option α} {f : α → Nat} {n : Nat} (hn : 0 < n) (h : ∀ v, o = some v → f v < n) : (o.map f).getD 0 < n := by
  cases o with
  | none => exact hn
  | some v => exact h v rfl

/-- Bits as a number and back. -/
theorem put_num : ∀ l : List Bool, put l.length (num l) = l := by
  have key : ∀ (l : List Bool) (a : Nat), put l.length (l.foldl (fun a b => 2 * a + b.toNat) a) = l := by
    intro l
    induction l with
    | nil => intro a; rfl
    | cons b l ih =>
      intro a
      rw [List.foldl_cons, List.length_cons, put, ih]
      congr 1
      have : ∀ (l : List Bool) (a : Nat), l.foldl (fun a b => 2 * a + b.toNat) a / 2 ^ l.length = a := by
        intro l
        induction l with
        | nil => intro a; simp
        | cons c l ih =>
          intro a
          rw [List.foldl_cons, List.length_cons, Nat.pow_succ, ← Nat.div_div_eq_div_mul, ih]
          cases c <;> simp <;> omega
      rw [Nat.testBit_eq_decide_div_mod_eq, this]
      cases b <;> simp <;> omega
  intro l
  exact key l 0

theorem num_lt (l : List Bool) : num l < 2 ^ l.length := by
  have : ∀ (l : List Bool) (a : Nat), l.foldl (fun a b => 2 * a + b.toNat) a < (a + 1) * 2 ^ l.length := by
    intro l
    induction l with
    | nil => intro a; simp
    | cons c l ih =>
      intro a
      rw [List.foldl_cons, List.length_cons, Nat.pow_succ]
      have h := ih (2 * a + c.toNat)
      have hc : c.toNat ≤ 1 := by cases c <;> decide
      calc _ < _ := h
        _ ≤ (2 * a + 2) * 2 ^ l.length := Nat.mul_le_mul_right _ (by omega)
        _ = _ := by rw [show 2 * a + 2 = (a + 1) * 2 by omega, Nat.mul_assoc, Nat.mul_comm 2]
  have h := this l 0
  rw [Nat.zero_add, Nat.one_mul] at h
  exact h

/-- Bit `j` of the octet made of eight bits. -/
theorem num_testBit (l : List Bool) (j : Nat) (hj : j < l.length) : (num l).testBit (l.length - 1 - j) = l[j] := by
  have h := put_num l
  have hp : ∀ (n v j : Nat) (hj : j < n), (put n v)[j]'(by rw [length_put]; exact hj) = v.testBit (n - 1 - j) := by
    intro n
    induction n with
    | zero => intro v j hj; omega
    | succ n ih =>
      intro v j hj
      cases j with
      | zero => simp [put]
      | succ j => simp only [put, List.getElem_cons_succ]; rw [ih v j (by omega)]; congr 1; omega
  rw [← hp l.length (num l) j hj]
  congr 1

/-- The octets of a list of bits. -/
def octet (l : List Bool) (k : Nat) : Nat := num ((l.drop (8 * k)).take 8)

theorem octet_lt (l : List Bool) (k : Nat) : octet l k < 256 := by
  have h := num_lt ((l.drop (8 * k)).take 8)
  refine Nat.lt_of_lt_of_le h ?_
  show _ ≤ 2 ^ 8
  exact Nat.pow_le_pow_right (n := 2) (by omega) (by rw [List.length_take]; omega)

theorem octet_bit (l : List Bool) (i : Nat) (hi : i < l.length) (h8 : l.length % 8 = 0) :
    (octet l (i / 8)).testBit (7 - i % 8) = l[i] := by
  unfold octet
  have hl : ((l.drop (8 * (i / 8))).take 8).length = 8 := by
    rw [List.length_take, List.length_drop]; omega
  have h := num_testBit ((l.drop (8 * (i / 8))).take 8) (i % 8) (by omega)
  rw [show ((l.drop (8 * (i / 8))).take 8).length - 1 - i % 8 = 7 - i % 8 by omega] at h
  rw [h, List.getElem_take, List.getElem_drop]
  congr 1
  omega

theorem elems_octets (σ : Data) (q : Path) (l : List Bool) (n : Nat) (hl : l.length = 8 * n)
    (hσ : ∀ k, k < n → σ (k :: q) = octet l k) : elems σ 8 q n = l := by
  unfold elems
  have : ∀ m, m ≤ n → (List.range m).flatMap (fun k => put 8 (σ (k :: q))) = l.take (8 * m) := by
    intro m
    induction m with
    | zero => intro _; rfl
    | succ m ih =>
      intro hm
      rw [List.range_succ, List.flatMap_append, ih (by omega)]
      simp only [List.flatMap_cons, List.flatMap_nil, List.append_nil]
      rw [hσ m (by omega)]
      unfold octet
      have h := put_num ((l.drop (8 * m)).take 8)
      rw [show ((l.drop (8 * m)).take 8).length = 8 by rw [List.length_take, List.length_drop]; omega] at h
      rw [h, show 8 * (m + 1) = 8 * m + 8 by omega, List.take_add]
  rw [this n (Nat.le_refl _), ← hl, List.take_length]

/-- A message of a good table with values that fit is read. -/
theorem ul_read (σ : Data) (mt : Nat) (d : Items) (hd : ulTable mt = some d) (hmt : mt < 64) (hw : wfItems d [] [] = true)
    (hf : fitsItems σ d []) (x r : Nat) (l rest : List Bool)
    (hb : bitsItems σ d 0 [] = put 2 1 ++ (put 5 x ++ (put 1 r ++ (put 6 mt ++ l))))
    (hl : (bitsItems σ d 0 []).length ≤ 184) (ho : opensItems σ d [] = true → (bitsItems σ d 0 []).length = 184) :
    ∃ s, ulDecode (bitsItems σ d 0 [] ++ rest) = .ok s ∧ (readField (bitsItems σ d 0 [] ++ rest) 8 6).1 = mt ∧
      ∀ q, hasItems σ d 0 [] q → s.data q = σ q := by
  have hat : At (bitsItems σ d 0 [] ++ rest) 0 (put 2 1 ++ (put 5 x ++ (put 1 r ++ (put 6 mt ++ (l ++ rest))))) := by
    show bitsItems σ d 0 [] ++ rest = _
    rw [hb]; simp only [List.append_assoc]
  have h0 := hat.read (by decide)
  have h8 := hat.step.step.step
  simp only [length_put, Nat.zero_add, Nat.reduceAdd] at h8
  have h8 := h8.read hmt
  obtain ⟨d', e, he⟩ := decItems_good σ (bitsItems σ d 0 [] ++ rest) d 0 [] [] [] ⟨184, 0, fun _ => 0⟩ rest hw hf
    (fun _ c hc => absurd hc List.not_mem_nil) (fun h => absurd rfl h) (show At _ 0 _ from rfl)
    (by show ((bitsItems σ d 0 []).length : Int) ≤ 184; omega)
    (fun h => by show (184 : Int) = _; rw [ho h]; rfl)
  have hu : ulDecode (bitsItems σ d 0 [] ++ rest) = decItems (bitsItems σ d 0 [] ++ rest) d 0 [] ⟨184, 0, fun _ => 0⟩ := by
    unfold ulDecode
    rw [h0, h8]
    dsimp only
    rw [if_neg (by decide), hd]
    dsimp only
    unfold decode
    rw [if_neg (by show ¬ (184 : Int) < 0; decide)]
  exact ⟨_, hu.trans e, by rw [h8], fun q hq => he q (.inr hq)⟩

end Verif.Csn1
