import Verif.Model.Ulc
import Verif.Props.C20
/-!
# Uplink controller: ordering of frame numbers within a window
-/

namespace Verif.Ulc

open Verif.Fn

/-- Largest distance of reservations from the current time that is considered: about 77 minutes. -/
def W : Nat := 1000000

theorem off_lt (b x : Nat) : fnSub x b < H := Nat.mod_lt _ (by decide)

theorem off_inj {b x y : Nat} (hb : b < H) (hx : x < H) (hy : y < H) (h : fnSub x b = fnSub y b) : x = y := by
  unfold fnSub H at *; omega

theorem fnSub_diff {b x y : Nat} (hb : b < H) (hx : x < H) (hy : y < H) :
    fnSub y x = if fnSub x b ≤ fnSub y b then fnSub y b - fnSub x b
      else fnSub y b + H - fnSub x b := by
  unfold fnSub H at *
  split <;> omega

theorem fncmp_spec {b x y : Nat} (hb : b < H) (hx : x < H) (hy : y < H)
    (ox : fnSub x b < H / 2) (oy : fnSub y b < H / 2) :
    (fncmp x y < 0 ↔ fnSub x b < fnSub y b) ∧ (fncmp x y = 0 ↔ x = y) ∧
    (fncmp x y > 0 ↔ fnSub y b < fnSub x b) := by
  have hd := fnSub_diff hb hx hy
  unfold fncmp
  by_cases e : x = y
  · subst e; simp
  · have hne : fnSub x b ≠ fnSub y b := fun h => e (off_inj hb hx hy h)
    have hH : H = 2715648 := rfl
    rw [if_neg e, hd]
    generalize fnSub x b = p at *
    generalize fnSub y b = q at *
    split
    · rw [if_pos (by omega)]
      refine ⟨⟨fun _ => by omega, fun _ => by decide⟩, ⟨fun h => absurd h (by decide), fun h => absurd h e⟩,
        ⟨fun h => absurd h (by decide), fun h => by omega⟩⟩
    · rw [if_neg (by omega)]
      refine ⟨⟨fun h => absurd h (by decide), fun h => by omega⟩, ⟨fun h => absurd h (by decide), fun h => absurd h e⟩,
        ⟨fun _ => by omega, fun _ => by decide⟩⟩

/-- All reservations lie within the window from `b` on, in order, without duplicates. -/
structure Window (b : Nat) (l : List Node) : Prop where
  base : b < H
  inside : ∀ n ∈ l, n.fn < H ∧ fnSub n.fn b < W
  sorted : l.Pairwise (fun x y => fnSub x.fn b < fnSub y.fn b)

theorem W_lt : W < H / 2 := by decide

theorem Window.cmp {b l} (h : Window b l) {x : Nat} (hx : x < H) (ox : fnSub x b < H / 2) {n : Node}
    (hn : n ∈ l) :
    (fncmp x n.fn < 0 ↔ fnSub x b < fnSub n.fn b) ∧ (fncmp x n.fn = 0 ↔ x = n.fn) ∧
    (fncmp x n.fn > 0 ↔ fnSub n.fn b < fnSub x b) := by
  have := h.inside n hn
  have hw := W_lt
  exact fncmp_spec h.base hx this.1 ox (by omega)

theorem Window.cmp' {b l} (h : Window b l) {x : Nat} (hx : x < H) (ox : fnSub x b < H / 2) {n : Node}
    (hn : n ∈ l) :
    (fncmp n.fn x < 0 ↔ fnSub n.fn b < fnSub x b) ∧ (fncmp n.fn x = 0 ↔ n.fn = x) ∧
    (fncmp n.fn x > 0 ↔ fnSub x b < fnSub n.fn b) := by
  have := h.inside n hn
  have hw := W_lt
  exact fncmp_spec h.base this.1 hx (by omega) ox

theorem Window.tail {b n l} (h : Window b (n :: l)) : Window b l :=
  ⟨h.base, fun m hm => h.inside m (List.mem_cons_of_mem _ hm), (List.pairwise_cons.1 h.sorted).2⟩

theorem Window.sublist {b l l'} (h : Window b l) (hs : l'.Sublist l) : Window b l' :=
  ⟨h.base, fun m hm => h.inside m (hs.subset hm), h.sorted.sublist hs⟩

/-- No two reservations for the same frame. -/
theorem Window.nodup {b l} (h : Window b l) : (l.map (·.fn)).Nodup := by
  have := h.sorted
  unfold List.Nodup
  rw [List.pairwise_map]
  exact this.imp (fun h e => by rw [e] at h; omega)

theorem Window.unique {b l} (h : Window b l) {m n : Node} (hm : m ∈ l) (hn : n ∈ l) (e : m.fn = n.fn) :
    m = n := by
  induction l with
  | nil => simp at hm
  | cons a l ih =>
    have hs := List.pairwise_cons.1 h.sorted
    rw [List.mem_cons] at hm hn
    rcases hm with rfl | hm <;> rcases hn with rfl | hn
    · rfl
    · have := hs.1 n hn; rw [e] at this; omega
    · have := hs.1 m hm; rw [e] at this; omega
    · exact ih h.tail hm hn

theorem getNode_some {b l} (h : Window b l) {x : Nat} (hx : x < H) (ox : fnSub x b < H / 2) (n : Node) :
    getNode l x = some n ↔ n ∈ l ∧ n.fn = x := by
  unfold getNode
  constructor
  · intro hf
    have hm := List.mem_of_find?_eq_some hf
    have hp := List.find?_some hf
    simp only [beq_iff_eq] at hp
    exact ⟨hm, ((h.cmp' hx ox hm).2.1).1 hp⟩
  · rintro ⟨hm, he⟩
    cases hf : l.find? fun it => fncmp it.fn x == 0 with
    | none =>
      have := List.find?_eq_none.1 hf n hm
      simp only [beq_iff_eq] at this
      exact absurd (((h.cmp' hx ox hm).2.1).2 he) this
    | some m =>
      have hm' := List.mem_of_find?_eq_some hf
      have hp := List.find?_some hf
      simp only [beq_iff_eq] at hp
      rw [h.unique hm' hm (by rw [((h.cmp' hx ox hm').2.1).1 hp, he])]

theorem isFree_iff {b l} (h : Window b l) {x : Nat} (hx : x < H) (ox : fnSub x b < H / 2) :
    isFree l x = true ↔ ∀ n ∈ l, n.fn ≠ x := by
  unfold isFree
  cases hg : getNode l x with
  | none =>
    simp only [Option.isNone_none, true_iff]
    intro n hn e
    have := (getNode_some h hx ox n).2 ⟨hn, e⟩
    rw [hg] at this; simp at this
  | some n =>
    have := (getNode_some h hx ox n).1 hg
    simp only [Option.isNone_some, Bool.false_eq_true, false_iff]
    intro hh
    exact hh n this.1 this.2

/-- Insertion is refused exactly for a taken frame; otherwise the reservation is added in order. -/
theorem addNode_spec {b l} (h : Window b l) (item : Node) (hx : item.fn < H) (ox : fnSub item.fn b < W) :
    (addNode item l = none ∧ ∃ n ∈ l, n.fn = item.fn) ∨
    (∃ l1 l2, l = l1 ++ l2 ∧ addNode item l = some (l1 ++ item :: l2) ∧ Window b (l1 ++ item :: l2) ∧
      ∀ n ∈ l, n.fn ≠ item.fn) := by
  have hw := W_lt
  induction l with
  | nil =>
    refine Or.inr ⟨[], [], rfl, rfl, ⟨h.base, ?_, ?_⟩, by simp⟩
    · intro n hn; simp at hn; subst hn; exact ⟨hx, ox⟩
    · simp
  | cons it l ih =>
    have hc := h.cmp hx (by omega) (n := it) List.mem_cons_self
    have hs := List.pairwise_cons.1 h.sorted
    have hne : ∀ m ∈ l, m.fn ≠ it.fn := fun m hm e => by
      have := hs.1 m hm; rw [e] at this; omega
    unfold addNode
    by_cases h1 : fncmp item.fn it.fn < 0
    · rw [if_pos h1]
      have hlt := hc.1.1 h1
      refine Or.inr ⟨[], it :: l, rfl, rfl, ⟨h.base, ?_, ?_⟩, ?_⟩
      · intro n hn
        simp only [List.nil_append, List.mem_cons] at hn
        rcases hn with rfl | hn
        · exact ⟨hx, ox⟩
        · exact h.inside n (List.mem_cons.2 hn)
      · simp only [List.nil_append]
        refine List.pairwise_cons.2 ⟨?_, h.sorted⟩
        intro n hn
        rw [List.mem_cons] at hn
        rcases hn with rfl | hn
        · exact hlt
        · have := hs.1 n hn; omega
      · intro n hn e
        rw [List.mem_cons] at hn
        rcases hn with rfl | hn
        · rw [e] at hlt; omega
        · have := hs.1 n hn; rw [e] at this; omega
    · rw [if_neg h1]
      by_cases h2 : fncmp item.fn it.fn > 0
      · rw [if_pos h2]
        have hgt := hc.2.2.1 h2
        rcases ih h.tail with ⟨e1, n, hn, e2⟩ | ⟨l1, l2, e1, e2, e3, e4⟩
        · exact Or.inl ⟨by rw [e1]; rfl, n, List.mem_cons_of_mem _ hn, e2⟩
        · refine Or.inr ⟨it :: l1, l2, by rw [e1]; rfl, by rw [e2]; rfl, ⟨h.base, ?_, ?_⟩, ?_⟩
          · intro n hn
            simp only [List.cons_append, List.mem_cons] at hn
            rcases hn with rfl | hn
            · exact h.inside n List.mem_cons_self
            · exact e3.inside n hn
          · simp only [List.cons_append]
            refine List.pairwise_cons.2 ⟨?_, e3.sorted⟩
            intro n hn
            simp only [List.mem_append, List.mem_cons] at hn
            rcases hn with hn | rfl | hn
            · exact hs.1 n (by rw [e1]; exact List.mem_append_left _ hn)
            · exact hgt
            · exact hs.1 n (by rw [e1]; exact List.mem_append_right _ hn)
          · intro n hn
            rw [List.mem_cons] at hn
            rcases hn with rfl | hn
            · intro e; rw [e] at hgt; omega
            · exact e4 n hn
      · rw [if_neg h2]
        refine Or.inl ⟨rfl, it, List.mem_cons_self, ?_⟩
        have : fncmp item.fn it.fn = 0 := by omega
        exact (hc.2.1.1 this).symm

theorem filter_ne_erase {b l} (h : Window b l) (n : Node) (hn : n ∈ l) :
    l.erase n = l.filter (fun m => m.fn ≠ n.fn) := by
  induction l with
  | nil => simp at hn
  | cons a l ih =>
    have hs := List.pairwise_cons.1 h.sorted
    by_cases e : a = n
    · subst e
      rw [List.erase_cons_head, List.filter_cons_of_neg (by simp)]
      symm
      apply List.filter_eq_self.2
      intro m hm
      simp only [decide_eq_true_eq]
      intro e
      have := hs.1 m hm; rw [e] at this; omega
    · rw [List.mem_cons] at hn
      have hn' : n ∈ l := by rcases hn with h | h; exact absurd h.symm e; exact h
      have hne : a.fn ≠ n.fn := fun e' => by
        have := hs.1 n hn'; rw [e'] at this; omega
      rw [List.erase_cons_tail (by simpa using e), List.filter_cons_of_pos (by simpa using hne), ih h.tail hn']

theorem releaseFn_spec {b l} (h : Window b l) {x : Nat} (hx : x < H) (ox : fnSub x b < H / 2) :
    (releaseFn l x).2 = l.filter (fun m => m.fn ≠ x) ∧
    ((releaseFn l x).1 = true ↔ ∃ n ∈ l, n.fn = x) := by
  unfold releaseFn
  cases hg : getNode l x with
  | none =>
    have hno : ∀ n ∈ l, n.fn ≠ x := (isFree_iff h hx ox).1 (by unfold isFree; rw [hg]; rfl)
    refine ⟨(List.filter_eq_self.2 (fun m hm => by simpa using hno m hm)).symm, ?_⟩
    simp only [Bool.false_eq_true, false_iff]
    rintro ⟨n, hn, e⟩; exact hno n hn e
  | some n =>
    obtain ⟨hn, e⟩ := (getNode_some h hx ox n).1 hg
    refine ⟨by rw [← e]; exact filter_ne_erase h n hn, ?_⟩
    simp only [true_iff]
    exact ⟨n, hn, e⟩

theorem releaseTbf_spec (t : Nat) (l : List Node) :
    releaseTbf l t = l.filter (fun m => m.owner.tbf? ≠ some t) := by
  have key : ∀ n l, l.length ≤ n → releaseTbfLoop t n l = l.filter (fun m => m.owner.tbf? ≠ some t) := by
    intro n
    induction n with
    | zero =>
      intro l hl
      have : l = [] := List.length_eq_zero_iff.1 (by omega)
      subst this; rfl
    | succ n ih =>
      intro l hl
      unfold releaseTbfLoop releaseOne
      cases hf : l.find? fun it => it.owner.tbf? == some t with
      | none =>
        simp only [Option.map_none]
        symm
        apply List.filter_eq_self.2
        intro m hm
        have := List.find?_eq_none.1 hf m hm
        simpa using this
      | some m =>
        simp only [Option.map_some]
        have hm := List.mem_of_find?_eq_some hf
        have hp := List.find?_some hf
        simp only [beq_iff_eq] at hp
        rw [ih _ (by rw [List.length_erase_of_mem hm]; omega)]
        -- erasing a matching element does not change the filter
        clear hf ih hl
        induction l with
        | nil => simp at hm
        | cons a l ih =>
          by_cases e : a = m
          · subst e
            rw [List.erase_cons_head, List.filter_cons_of_neg (by simpa using hp)]
          · rw [List.erase_cons_tail (by simpa using e)]
            rw [List.mem_cons] at hm
            have hm' : m ∈ l := by rcases hm with h | h; exact absurd h.symm e; exact h
            rw [List.filter_cons, List.filter_cons, ih hm']
  exact key _ l (Nat.le_refl _)

end Verif.Ulc
