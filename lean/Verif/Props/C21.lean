import Verif.Spec.Pdch
import Verif.Lemmas.WorldOps
/-!
# C21: TFI and USF are never shared on a PDCH

`run cfg World.init ops` is the BTS after the operations `ops`, in any order and number: mobiles
appear and change their class, TBFs are established with any allocation algorithm, upgraded, rejected
and released, mobiles become idle, PDCHs are enabled and disabled.
-/

namespace Verif.Alloc

/-- No history of operations makes an assertion fail. -/
theorem C21_no_abort (cfg : Cfg) (ops : List Op) : ∃ w, run cfg World.init ops = some w := by
  obtain ⟨w, h, -⟩ := run_inv (cfg := cfg) init_inv ops
  exact ⟨w, h⟩

theorem reachable_inv {cfg : Cfg} {ops : List Op} {w : World} (h : run cfg World.init ops = some w) : Inv w := by
  obtain ⟨w', h1, h2⟩ := run_inv (cfg := cfg) init_inv ops
  rw [h] at h1
  cases h1
  exact h2

/-- Two TBFs of a direction using the same PDCH have different TFIs, and both have one below 32. -/
theorem C21_tfi_unique (cfg : Cfg) (ops : List Op) (w : World) (h : run cfg World.init ops = some w)
    (b c : Nat) (x y : Tbf) (hb : w.tbf b = some x) (hc : w.tbf c = some y) (hne : b ≠ c)
    (hd : x.dir = y.dir) (t s : Nat) (hx : x.uses t s = true) (hy : y.uses t s = true) :
    ∃ i j, x.tfi = some i ∧ y.tfi = some j ∧ i < 32 ∧ j < 32 ∧ i ≠ j := by
  have hi := reachable_inv h
  simp only [Tbf.uses, Bool.and_eq_true, beq_iff_eq] at hx hy
  obtain ⟨-, t1, i, -, -, e1⟩ := hi.t.slots b x s hb hx.2
  obtain ⟨-, t2, j, -, -, e2⟩ := hi.t.slots c y s hc hy.2
  have k1 := (hi.t.on t s x.dir i b).2 ⟨x, hb, rfl, hx.1, hx.2, e1⟩
  have k2 := (hi.t.on t s x.dir j c).2 ⟨y, hc, hd.symm, hy.1, hy.2, e2⟩
  refine ⟨i, j, e1, e2, (hi.t.p t s).lt _ _ _ k1, (hi.t.p t s).lt _ _ _ k2, ?_⟩
  intro hij
  subst hij
  rw [k1] at k2
  cases k2
  exact hne rfl

/-- Two uplink TBFs using the same PDCH have different USFs there. -/
theorem C21_usf_unique (cfg : Cfg) (ops : List Op) (w : World) (h : run cfg World.init ops = some w)
    (b c : Nat) (x y : Tbf) (hb : w.tbf b = some x) (hc : w.tbf c = some y) (hne : b ≠ c)
    (hx : x.dir = .ul) (hy : y.dir = .ul) (t s : Nat) (hxu : x.uses t s = true) (hyu : y.uses t s = true) :
    x.usf s ≠ y.usf s := by
  obtain ⟨i, j, e1, e2, -, -, hij⟩ := C21_tfi_unique cfg ops w h b c x y hb hc hne (hx.trans hy.symm) t s hxu hyu
  have hi := reachable_inv h
  simp only [Tbf.uses, Bool.and_eq_true, beq_iff_eq] at hxu hyu
  have k1 := (hi.t.on t s .ul i b).2 ⟨x, hb, hx, hxu.1, hxu.2, e1⟩
  have k2 := (hi.t.on t s .ul j c).2 ⟨y, hc, hy, hyu.1, hyu.2, e2⟩
  intro he
  apply hij
  refine (hi.t.p t s).inj i j b c k1 k2 ?_
  unfold us
  rw [hb, hc]
  exact he

/-- An uplink TBF has a USF below 7 on each of its slots: 7 is never assigned. -/
theorem C21_usf_not_7 (cfg : Cfg) (ops : List Op) (w : World) (h : run cfg World.init ops = some w)
    (b : Nat) (x : Tbf) (hb : w.tbf b = some x) (hx : x.dir = .ul) (s : Nat) (hs : x.slots s = true) :
    x.usf s < 7 := by
  have hi := reachable_inv h
  obtain ⟨-, t, i, e1, -, e2⟩ := hi.t.slots b x s hb hs
  have k := (hi.t.on t s .ul i b).2 ⟨x, hb, hx, e1, hs, e2⟩
  have := (hi.t.p t s).usf7 i b k
  unfold us at this
  rw [hb] at this
  exact this

/-- Looking up a TFI on a PDCH gives exactly the TBF owning it. -/
theorem C21_lookup (cfg : Cfg) (ops : List Op) (w : World) (h : run cfg World.init ops = some w)
    (t s : Nat) (d : Dir) (i b : Nat) :
    (w.pdch t s).tbfs d i = some b ↔
      ∃ x, w.tbf b = some x ∧ x.dir = d ∧ x.uses t s = true ∧ x.tfi = some i := by
  refine Iff.trans ((reachable_inv h).t.on t s d i b) ?_
  unfold On Tbf.uses
  simp only [Bool.and_eq_true, beq_iff_eq, and_assoc]

/-- A TFI is marked as used on a PDCH exactly if a TBF owns it there, and a USF exactly if an uplink
TBF owns it there. In particular nothing stays behind after a release. -/
theorem C21_no_leak (cfg : Cfg) (ops : List Op) (w : World) (h : run cfg World.init ops = some w) (t s : Nat) :
    (∀ d i, ((w.pdch t s).tfiMap d).testBit i = true ↔
      ∃ b x, w.tbf b = some x ∧ x.dir = d ∧ x.uses t s = true ∧ x.tfi = some i) ∧
    (∀ u, (w.pdch t s).usfMap.testBit u = true ↔
      ∃ b x, w.tbf b = some x ∧ x.dir = .ul ∧ x.uses t s = true ∧ x.usf s = u) := by
  have hi := reachable_inv h
  refine ⟨fun d i => ?_, fun u => ?_⟩
  · rw [(hi.t.p t s).tfi, Option.isSome_iff_exists]
    constructor
    · rintro ⟨b, hb⟩
      exact ⟨b, (C21_lookup cfg ops w h t s d i b).1 hb⟩
    · rintro ⟨b, hb⟩
      exact ⟨b, (C21_lookup cfg ops w h t s d i b).2 hb⟩
  · rw [(hi.t.p t s).usf]
    constructor
    · rintro ⟨i, b, hb, hu⟩
      obtain ⟨x, h1, h2, h3, -⟩ := (C21_lookup cfg ops w h t s .ul i b).1 hb
      refine ⟨b, x, h1, h2, h3, ?_⟩
      unfold us at hu
      rw [h1] at hu
      exact hu
    · rintro ⟨b, x, h1, h2, h3, h4⟩
      have h3' := h3
      simp only [Tbf.uses, Bool.and_eq_true, beq_iff_eq] at h3'
      obtain ⟨-, t1, i, -, -, e2⟩ := hi.t.slots b x s h1 h3'.2
      refine ⟨i, b, (C21_lookup cfg ops w h t s .ul i b).2 ⟨x, h1, h2, h3, e2⟩, ?_⟩
      unfold us
      rw [h1]
      exact h4

/-- Releasing a TBF removes it, so that by `C21_lookup` and `C21_no_leak` its TFI and USFs are free
on every PDCH. -/
theorem C21_release (cfg : Cfg) (ops : List Op) (w : World) (h : run cfg World.init ops = some w) (b : Nat) :
    ∃ w', run cfg World.init (ops ++ [.free b]) = some w' ∧ w'.tbf b = none ∧
      (∀ c, c ≠ b → w'.tbf c = w.tbf c) ∧ ∀ t s d i, (w'.pdch t s).tbfs d i ≠ some b := by
  obtain ⟨w', h1, h2, h3, h4⟩ := freeExtra_inv (reachable_inv h) b
  refine ⟨w', ?_, h4, h3.other, ?_⟩
  · unfold run at h ⊢
    rw [List.foldlM_append, h]
    simp [step, h1]
  · intro t s d i hq
    obtain ⟨x, hx, -⟩ := (h2.t.on t s d i b).1 hq
    rw [h4] at hx
    cases hx

/-- Establishing two uplink TBFs and a downlink TBF of different mobiles on one PDCH. -/
example :
    (run ⟨.b, 1⟩ World.init [.enable 0 3 7, .newMs 1, .newMs 1, .alloc 0 ⟨.ul, false, none⟩ true,
      .alloc 1 ⟨.ul, false, none⟩ false, .alloc 0 ⟨.dl, false, none⟩ true]).map
      (fun w => ((w.pdch 0 3).tfiMap .ul, (w.pdch 0 3).tfiMap .dl, (w.pdch 0 3).usfMap,
        (w.tbf 1).map (fun x => (x.tfi, x.usf 3)))) = some (3, 1, 3, some (some 1, 1)) := by
  decide +kernel

end Verif.Alloc
