import Verif.Lemmas.Polls
/-!
# C74: an uplink block promised to a TBF never outlives it

Histories of a BTS: mobiles get and lose TBFs, PDCHs are switched on and off by the BSC, TBFs are polled,
uplink blocks are given out by USF and as single blocks, answers arrive or do not, in any order.
`run` gives `none` when an assertion fails, the uplink controller of a PDCH that is off is used, or a
TBF that was freed is used for what was promised to it.
-/

namespace Verif.Polls

open Verif.Alloc Verif.Ulc

/-- **C74, safety**: no careful history makes the PCU use a TBF or a controller that is gone. -/
theorem C74_safe_partial (cfg : Cfg) (ops : List Op) (h : Careful cfg Cell.init ops) :
    run cfg Cell.init ops ≠ none := by
  obtain ⟨c, h1, -⟩ := run_ci ops _ init_ci h
  rw [h1]; exact fun h => by cases h

/-- **C74, promises**: after a careful history, every block promised on a PDCH is promised to a TBF that
exists, that can make use of it, and that has the PDCH as one of its slots or as its control slot. -/
theorem C74_promises_partial (cfg : Cfg) (ops : List Op) (h : Careful cfg Cell.init ops) (c : Cell)
    (hr : run cfg Cell.init ops = some c) (t s : Nat) (l : List Node) (hl : c.ulc t s = some l) (n : Node)
    (hn : n ∈ l) : InOrder c t s n := by
  obtain ⟨c', h1, h2⟩ := run_ci ops _ init_ci h
  rw [hr] at h1; cases h1
  exact h2.nodes t s l n hl hn

/-- **C74, freed**: a TBF that does not exist, any more or yet, has no block promised on any PDCH, neither
by a poll nor by USF. -/
theorem C74_freed_partial (cfg : Cfg) (ops : List Op) (h : Careful cfg Cell.init ops) (c : Cell)
    (hr : run cfg Cell.init ops = some c) (b : Nat) (hb : c.w.tbf b = none) (t s : Nat) (l : List Node)
    (hl : c.ulc t s = some l) (n : Node) (hn : n ∈ l) : n.owner ≠ .usf b ∧ ∀ r, n.owner ≠ .poll b r := by
  have := C74_promises_partial cfg ops h c hr t s l hl n hn
  unfold InOrder at this
  refine ⟨fun e => ?_, fun r e => ?_⟩
  · rw [e] at this
    obtain ⟨⟨x, hx, -⟩, -⟩ := this
    rw [hb] at hx; cases hx
  · rw [e] at this
    obtain ⟨⟨x, hx, -⟩, -⟩ := this
    rw [hb] at hx; cases hx

/-- **C74, control slots**: after a careful history the control slot of a TBF is a PDCH in use and of the
TRX of the TBF. It is one of the slots of the TBF, except for uplink TBFs, whose assignment is sent where
the mobile asked for it. -/
theorem C74_control_partial (cfg : Cfg) (ops : List Op) (h : Careful cfg Cell.init ops) (c : Cell)
    (hr : run cfg Cell.init ops = some c) (b t s : Nat) (hb : c.ctrl b = some (t, s)) :
    (c.w.pdch t s).enabled = true ∧
      ∃ x, c.w.tbf b = some x ∧ x.trx = some t ∧ (x.slots s = true ∨ x.dir = .ul) := by
  obtain ⟨c', h1, h2⟩ := run_ci ops _ init_ci h
  rw [hr] at h1; cases h1
  exact ⟨(h2.ctrl b t s hb).2, (h2.ctrl b t s hb).1⟩

/-- **C74, switching off**: after a careful history, once a PDCH is off nothing is promised on it and
no TBF has it as a slot or as its control slot, and it can be switched off without harm. -/
theorem C74_disabled_partial (cfg : Cfg) (ops : List Op) (h : Careful cfg Cell.init ops) (t s : Nat) :
    ∃ c, run cfg Cell.init (ops ++ [.disable t s]) = some c ∧
      (t < 8 → s < 8 → c.ulc t s = none ∧ ∀ b, ¬ HasSlot c b t s ∧ c.ctrl b ≠ some (t, s)) := by
  obtain ⟨c0, h1, h2⟩ := run_ci ops _ init_ci h
  obtain ⟨c, h3, h4⟩ := step_ci (cfg := cfg) h2 (.disable t s) rfl
  refine ⟨c, ?_, fun ht hs => ?_⟩
  · unfold run at h1 ⊢
    rw [List.foldlM_append, h1]
    show (List.foldlM (step cfg) c0 [Op.disable t s]) = some c
    rw [List.foldlM_cons, h3]; rfl
  · have hoff : c.ulc t s = none := by
      simp only [step] at h3
      by_cases he : c0.en t s = true
      · rw [if_pos he] at h3
        unfold disableC at h3
        simp only [Option.bind_eq_some_iff, Option.map_eq_some_iff] at h3
        obtain ⟨_, _, _, _, _, _, rfl⟩ := h3
        simp [Cell.setUlc]
      · rw [if_neg he] at h3
        cases h3
        have := h2.en t s
        have he' : (c0.w.pdch t s).enabled = false := by
          simpa [Cell.en, ht, hs] using he
        rw [he'] at this
        exact Option.isNone_iff_eq_none.1 (by rw [← Option.not_isSome, this]; rfl)
    have hen : (c.w.pdch t s).enabled = false := by rw [← h4.en t s, hoff]; rfl
    refine ⟨hoff, fun b => ⟨?_, fun hb => ?_⟩⟩
    · rintro ⟨x, e1, e2, e3⟩
      rw [h4.slot_en e1 e2 e3] at hen; cases hen
    · rw [(h4.ctrl b t s hb).2] at hen; cases hen

/-- `Careful`, computed. -/
def carefulRun (cfg : Cfg) : Cell → List Op → Bool
  | _, [] => true
  | c, op :: ops => careful c op && match step cfg c op with
    | none => true
    | some c' => carefulRun cfg c' ops

theorem carefulRun_spec (cfg : Cfg) : ∀ ops c, carefulRun cfg c ops = true → Careful cfg c ops := by
  intro ops
  induction ops with
  | nil => intros; trivial
  | cons op ops ih =>
    intro c h
    simp only [carefulRun, Bool.and_eq_true] at h
    refine ⟨h.1, fun c' hc => ih c' ?_⟩
    have := h.2
    rw [hc] at this
    exact this

/-- A two-phase access, with the answer to the single block, the poll for the assignment and its answer;
blocks given by USF; downlink TBFs of two mobiles, one with more slots later; a poll without answer. -/
def exOps : List Op := [.enable 0 2 7, .enable 0 3 7, .enable 1 5 7, .newMs 12, .newMs 1, .sba 0 2 0 0,
  .request 0 0 2 false, .answered 0 2 52, .poll 0 0 2 56 0, .answered 0 2 69, .assigned 0, .usf 0 0 2 82,
  .usf 0 0 3 82, .alloc 1 ⟨.dl, false, none⟩ true, .alloc 0 ⟨.dl, true, none⟩ false, .poll 2 0 2 91 1,
  .answered 0 2 104, .assigned 2, .upgrade 2, .poll 2 0 2 104 3, .timeout 0 2 87, .poll 1 0 2 108 3]

def exCfg74 : Cfg := ⟨.dynamic, 0⟩

/-- The history is careful, and three blocks are promised at its end; then a TBF is freed and a PDCH
switched off. -/
example : Careful exCfg74 Cell.init exOps ∧
    (run exCfg74 Cell.init exOps).map (fun c => (c.ulc 0 2, c.ulc 0 3)) =
      some (some [⟨117, .poll 2 3⟩, ⟨121, .poll 1 3⟩], some [⟨82, .usf 0⟩]) ∧
    (run exCfg74 Cell.init (exOps ++ [.free 2, .disable 0 3])).map
      (fun c => (c.ulc 0 2, c.ulc 0 3, (c.w.tbf 0).isSome, c.ctrl 1)) =
      some (some [⟨121, .poll 1 3⟩], none, false, some (0, 2)) :=
  ⟨carefulRun_spec _ _ _ (by decide +kernel), by decide +kernel, by decide +kernel⟩

/-- **C74 fails** when a mobile with a TBF on TRX 0 sends a Packet Resource Request on a single block of
TRX 1 (its old TBF is freed first, pdch.cpp:716-743; the mobile's present TRX stays): with the default
algorithm the new TBF is on TRX 0, its control slot on TRX 1. If the BSC switches that slot off, the PCU
crashes when the TBF ends. -/
theorem C74_fails_trx :
    let ops : List Op := [.enable 0 2 7, .enable 1 2 7, .newMs 1, .alloc 0 ⟨.ul, false, none⟩ false,
      .sba 1 2 0 0, .free 0, .request 0 1 2 false]
    (run exCfg74 Cell.init ops).map (fun c => ((c.w.tbf 1).bind (·.trx), c.ctrl 1)) =
      some (some 0, some (1, 2)) ∧
    run exCfg74 Cell.init (ops ++ [.disable 1 2, .free 1]) = none := by
  refine ⟨by decide +kernel, ?_⟩
  apply Option.isNone_iff_eq_none.1
  decide +kernel

/-- **C74 fails** when a Packet Cell Change Continue is sent, with a poll, to a mobile whose uplink
assignment, sent on another slot than those of the TBF, was not acknowledged yet: the acknowledgement
moves the control slot, the poll of the old one stays. If the TBF ends before the answer is due, the PCU
uses freed memory when it does not come. -/
theorem C74_fails_continue :
    run ⟨.a, 0⟩ Cell.init [.enable 0 2 7, .enable 0 3 7, .newMs 1, .newMs 1, .alloc 0 ⟨.ul, false, none⟩ false,
      .alloc 1 ⟨.ul, false, none⟩ false, .sba 0 2 0 0, .free 1, .request 1 0 2 false, .poll 2 0 2 0 pollUlAss,
      .poll 2 0 2 4 pollCellChgCont, .answered 0 2 13, .assigned 2, .free 2, .timeout 0 2 21] = none := by
  apply Option.isNone_iff_eq_none.1
  decide +kernel

end Verif.Polls
