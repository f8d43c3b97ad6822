import Verif.Props.C21
/-!
# C22: PDCH occupancy counters equal the real occupancy
-/

namespace Verif.Alloc

theorem cnt_eq {w : World} (h : Inv w) (t s : Nat) (d : Dir) (e : Bool) :
    cnt (w.pdch t s) (eg w) d e = (tbfsOn w t s (fun x => decide (x.dir = d) && (x.egprs == e))).length := by
  have h1 : cnt (w.pdch t s) (eg w) d e =
      ((List.range 32).filterMap fun i => if isKind (w.pdch t s) (eg w) d e i then (w.pdch t s).tbfs d i else none).length := by
    unfold cnt
    rw [List.length_filterMap_eq_countP]
    apply List.countP_congr
    intro i _
    unfold isKind
    cases (w.pdch t s).tbfs d i with
    | none => simp
    | some b => by_cases he : (eg w b == e) = true <;> simp [he]
  rw [h1]
  apply List.Perm.length_eq
  rw [List.perm_ext_iff_of_nodup]
  · intro b
    rw [List.mem_filterMap]
    unfold tbfsOn
    rw [List.mem_filter, List.mem_range]
    constructor
    · rintro ⟨i, -, hi⟩
      split at hi
      · rename_i hk
        obtain ⟨x, h2, h3, h4, h5, -⟩ := (h.t.on t s d i b).1 hi
        refine ⟨h.t.fresh b x h2, ?_⟩
        unfold isKind at hk
        rw [hi] at hk
        unfold eg at hk
        simp only [h2] at hk ⊢
        unfold Tbf.uses
        simp [h3, h4, h5, hk]
      · cases hi
    · rintro ⟨-, hx⟩
      split at hx
      · rename_i x h2
        simp only [Tbf.uses, Bool.and_eq_true, beq_iff_eq, decide_eq_true_eq] at hx
        obtain ⟨⟨h3, h4⟩, h5, h6⟩ := hx
        obtain ⟨-, t1, i, -, -, h7⟩ := h.t.slots b x s h2 h4
        have h8 := (h.t.on t s d i b).2 ⟨x, h2, h5, h3, h4, h7⟩
        refine ⟨i, List.mem_range.2 ((h.t.p t s).lt d i b h8), ?_⟩
        have : isKind (w.pdch t s) (eg w) d e i = true := by
          unfold isKind eg
          rw [h8]
          simp only [h2, h6, beq_self_eq_true]
        rw [if_pos this, h8]
      · cases hx
  · rw [List.Nodup, List.pairwise_filterMap]
    refine List.Pairwise.imp ?_ List.nodup_range
    intro i j hij b hb c hc
    split at hb
    · split at hc
      · intro hbc
        subst hbc
        obtain ⟨x, h2, -, -, -, h3⟩ := (h.t.on t s d i b).1 hb
        obtain ⟨y, h4, -, -, -, h5⟩ := (h.t.on t s d j b).1 hc
        rw [h2] at h4
        cases h4
        rw [h3] at h5
        cases h5
        exact hij rfl
      · cases hc
    · cases hb
  · exact List.Nodup.sublist List.filter_sublist List.nodup_range

/-- After any history the counters of a PDCH are the numbers of GPRS and EGPRS TBFs of each direction
using it. -/
theorem C22_counters (cfg : Cfg) (ops : List Op) (w : World) (h : run cfg World.init ops = some w)
    (t s : Nat) (d : Dir) :
    (w.pdch t s).gprs d = (tbfsOn w t s (fun x => decide (x.dir = d) && !x.egprs)).length ∧
    (w.pdch t s).egprs d = (tbfsOn w t s (fun x => decide (x.dir = d) && x.egprs)).length := by
  have hi := reachable_inv h
  rw [(hi.t.p t s).gprs, (hi.t.p t s).egprs, cnt_eq hi, cnt_eq hi]
  have h1 : ∀ b : Bool, (b == false) = !b := by decide
  have h2 : ∀ b : Bool, (b == true) = b := by decide
  simp only [h1, h2, and_self]

theorem total_ind {w : World} {f : Pdch → Int} {g : Nat → Nat → Bool}
    (h : ∀ t s, f (w.pdch t s) = if g t s then 1 else 0) :
    total f w = ((List.range 64).countP fun k => g (k / 8) (k % 8) : Nat) := by
  unfold total
  simp only [h]
  generalize List.range 64 = l
  induction l with
  | nil => rfl
  | cons a l ih =>
    rw [List.map_cons, List.sum_cons, ih, List.countP_cons]
    cases g (a / 8) (a % 8) <;> simp <;> omega

theorem tbfsOn_isEmpty_or (w : World) (t s : Nat) (p q : Tbf → Bool) :
    (tbfsOn w t s (fun x => p x || q x)).isEmpty =
      ((tbfsOn w t s p).isEmpty && (tbfsOn w t s q).isEmpty) := by
  rw [Bool.eq_iff_iff]
  simp only [Bool.and_eq_true, List.isEmpty_iff, tbfsOn, List.filter_eq_nil_iff]
  constructor
  · intro h
    refine ⟨fun b hb hc => h b hb ?_, fun b hb hc => h b hb ?_⟩ <;>
    · split <;> rename_i hx <;> rw [hx] at hc
      · simp only [Bool.and_eq_true, Bool.or_eq_true] at hc ⊢; simp [hc]
      · cases hc
  · rintro ⟨h1, h2⟩ b hb hc
    have k1 := h1 b hb
    have k2 := h2 b hb
    cases hx : w.tbf b with
    | none => rw [hx] at hc; cases hc
    | some x =>
      rw [hx] at k1 k2 hc
      simp only [Bool.and_eq_true, Bool.or_eq_true] at hc k1 k2
      rcases hc.2 with h | h
      · exact k1 ⟨hc.1, h⟩
      · exact k2 ⟨hc.1, h⟩

theorem tbfsOn_congr (w : World) (t s : Nat) {p q : Tbf → Bool} (h : ∀ x, p x = q x) :
    tbfsOn w t s p = tbfsOn w t s q := by
  have : p = q := funext h
  rw [this]

/-- After any history the statistics of the BTS are the numbers of PDCHs used by a TBF, by a GPRS TBF,
by an EGPRS TBF, and of enabled PDCHs. -/
theorem C22_statistics (cfg : Cfg) (ops : List Op) (w : World) (h : run cfg World.init ops = some w) :
    w.occ = pdchsWith w (fun _ => true) ∧
    w.occGprs = pdchsWith w (fun x => !x.egprs) ∧
    w.occEgprs = pdchsWith w (fun x => x.egprs) ∧
    w.avail = pdchsEnabled w := by
  have hi := reachable_inv h
  have hc := C22_counters cfg ops w h
  have hg : ∀ t s, ((w.pdch t s).gprs .ul + (w.pdch t s).gprs .dl = 0) ↔
      (tbfsOn w t s (fun x => !x.egprs)).isEmpty = true := by
    intro t s
    rw [(hc t s .ul).1, (hc t s .dl).1]
    rw [tbfsOn_congr w t s (p := fun x => !x.egprs)
      (q := fun x => (decide (x.dir = .ul) && !x.egprs) || (decide (x.dir = .dl) && !x.egprs))
      (by intro x; cases x.dir <;> simp), tbfsOn_isEmpty_or]
    simp only [Bool.and_eq_true, List.isEmpty_iff, ← List.length_eq_zero_iff]
    omega
  have he : ∀ t s, ((w.pdch t s).egprs .ul + (w.pdch t s).egprs .dl = 0) ↔
      (tbfsOn w t s (fun x => x.egprs)).isEmpty = true := by
    intro t s
    rw [(hc t s .ul).2, (hc t s .dl).2]
    rw [tbfsOn_congr w t s (p := fun x => x.egprs)
      (q := fun x => (decide (x.dir = .ul) && x.egprs) || (decide (x.dir = .dl) && x.egprs))
      (by intro x; cases x.dir <;> simp), tbfsOn_isEmpty_or]
    simp only [Bool.and_eq_true, List.isEmpty_iff, ← List.length_eq_zero_iff]
    omega
  have ha : ∀ t s, ((w.pdch t s).gprs .ul + (w.pdch t s).gprs .dl +
      ((w.pdch t s).egprs .ul + (w.pdch t s).egprs .dl) = 0) ↔
      (tbfsOn w t s (fun _ => true)).isEmpty = true := by
    intro t s
    rw [tbfsOn_congr w t s (p := fun _ => true) (q := fun x => (!x.egprs) || x.egprs)
      (by intro x; cases x.egprs <;> rfl), tbfsOn_isEmpty_or, Bool.and_eq_true, ← hg, ← he]
    omega
  refine ⟨?_, ?_, ?_, ?_⟩
  · rw [hi.t.occ]
    refine total_ind (g := fun t s => !(tbfsOn w t s (fun _ => true)).isEmpty) (fun t s => ?_)
    unfold occAll
    simp only [ha]
    cases (tbfsOn w t s (fun _ => true)).isEmpty <;> simp
  · rw [hi.t.occGprs]
    refine total_ind (g := fun t s => !(tbfsOn w t s (fun x => !x.egprs)).isEmpty) (fun t s => ?_)
    unfold occG
    simp only [hg]
    cases (tbfsOn w t s (fun x => !x.egprs)).isEmpty <;> simp
  · rw [hi.t.occEgprs]
    refine total_ind (g := fun t s => !(tbfsOn w t s (fun x => x.egprs)).isEmpty) (fun t s => ?_)
    unfold occE
    simp only [he]
    cases (tbfsOn w t s (fun x => x.egprs)).isEmpty <;> simp
  · rw [hi.t.avail]
    exact total_ind (g := fun t s => (w.pdch t s).enabled) (fun t s => rfl)

/-- Three TBFs on two PDCHs, one of which is disabled afterwards. -/
example :
    (run ⟨.a, 1⟩ World.init [.enable 0 3 7, .enable 0 4 7, .newMs 1, .newMs 1, .alloc 0 ⟨.ul, false, none⟩ true,
      .alloc 1 ⟨.ul, false, none⟩ false, .alloc 0 ⟨.dl, false, none⟩ true]).map
      (fun w => (w.occ, w.occGprs, w.occEgprs, w.avail)) = some (2, 1, 1, 2) ∧
    (run ⟨.a, 1⟩ World.init [.enable 0 3 7, .enable 0 4 7, .newMs 1, .newMs 1, .alloc 0 ⟨.ul, false, none⟩ true,
      .alloc 1 ⟨.ul, false, none⟩ false, .alloc 0 ⟨.dl, false, none⟩ true, .disable 0 3 []]).map
      (fun w => (w.occ, w.occGprs, w.occEgprs, w.avail)) = some (1, 1, 0, 1) := by
  decide +kernel

end Verif.Alloc
