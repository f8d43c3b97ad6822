import Verif.Model.Paging
/-!
# C49: where a page goes

`marked tbfs`: the slots on which a page for an unknown mobile is queued, one record per slot;
`tbfs`: the TBFs of the cell. `knownSlot ul dl`: the slot for a known mobile with these TBFs.
-/

namespace Verif.Paging

/-- A TBF that uses this slot. -/
def Tbf.uses (t : Tbf) (x : Nat × Nat) : Prop := t.trx = x.1 ∧ x.2 ∈ t.slots ∧ x.2 < 8

theorem mark_cases (m : List (Nat × Nat)) (t : Tbf) :
    (mark m t = m ∧ ((∀ x, ¬ t.uses x) ∨ ∃ x ∈ m, t.uses x)) ∨
    ∃ x, mark m t = m ++ [x] ∧ t.uses x ∧ x ∉ m ∧ ∀ y ∈ m, ¬ t.uses y := by
  have hu : ∀ ts, ts ∈ (List.range 8).filter (t.slots.contains ·) ↔ t.uses (t.trx, ts) := by
    intro ts
    simp only [List.mem_filter, List.mem_range, List.contains_iff_mem, Tbf.uses, true_and]
    exact And.comm
  have hx : ∀ x, t.uses x → x = (t.trx, x.2) := fun x h => by rw [h.1]
  unfold mark
  dsimp only
  split
  · rename_i h
    obtain ⟨ts, h1, h2⟩ := List.any_eq_true.1 h
    exact .inl ⟨rfl, .inr ⟨_, List.contains_iff_mem.1 h2, (hu ts).1 h1⟩⟩
  · rename_i h
    have hn : ∀ y ∈ m, ¬ t.uses y := by
      intro y hy hyu
      apply h
      refine List.any_eq_true.2 ⟨y.2, (hu _).2 (hx y hyu ▸ hyu), ?_⟩
      rw [List.contains_iff_mem]
      exact hx y hyu ▸ hy
    split
    · rename_i e
      refine .inl ⟨rfl, .inl fun x hxu => ?_⟩
      have := (hu x.2).2 (hx x hxu ▸ hxu)
      rw [e] at this
      cases this
    · rename_i ts l e
      have hts : t.uses (t.trx, ts) := (hu ts).1 (by rw [e]; exact List.mem_cons_self)
      exact .inr ⟨_, rfl, hts, fun hm => hn _ hm hts, hn⟩

theorem foldl_mark (l : List Tbf) : ∀ m : List (Nat × Nat), m.Nodup →
    (∀ x ∈ m, x ∈ l.foldl mark m) ∧ (l.foldl mark m).Nodup ∧
    (∀ x ∈ l.foldl mark m, x ∈ m ∨ ∃ t ∈ l, t.uses x) ∧
    (∀ t ∈ l, (∃ x, t.uses x) → ∃ x ∈ l.foldl mark m, t.uses x) := by
  induction l with
  | nil => exact fun m hm => ⟨fun _ h => h, hm, fun _ h => .inl h, nofun⟩
  | cons t l ih =>
    intro m hm
    rw [List.foldl_cons]
    rcases mark_cases m t with ⟨e, h⟩ | ⟨x, e, hx, hxm, -⟩
    · rw [e]
      obtain ⟨i1, i2, i3, i4⟩ := ih m hm
      refine ⟨i1, i2, fun x hx => (i3 x hx).imp id fun ⟨t, h, h'⟩ => ⟨t, List.mem_cons_of_mem _ h, h'⟩, ?_⟩
      intro t' ht' hu
      rcases List.mem_cons.1 ht' with rfl | ht'
      · rcases h with h | ⟨x, hx, hxu⟩
        · exact absurd hu.choose_spec (h _)
        · exact ⟨x, i1 x hx, hxu⟩
      · exact i4 t' ht' hu
    · rw [e]
      obtain ⟨i1, i2, i3, i4⟩ := ih (m ++ [x]) (by
        rw [List.nodup_append]
        exact ⟨hm, by simp, fun a ha b hb hab => hxm (by rw [List.mem_singleton.1 hb] at hab; rw [← hab]; exact ha)⟩)
      refine ⟨fun y hy => i1 y (List.mem_append_left _ hy), i2, ?_, ?_⟩
      · intro y hy
        rcases i3 y hy with h | ⟨t', h, h'⟩
        · rcases List.mem_append.1 h with h | h
          · exact .inl h
          · exact .inr ⟨t, List.mem_cons_self, List.mem_singleton.1 h ▸ hx⟩
        · exact .inr ⟨t', List.mem_cons_of_mem _ h, h'⟩
      · intro t' ht' hu
        rcases List.mem_cons.1 ht' with rfl | ht'
        · exact ⟨x, i1 x (by simp), hx⟩
        · exact i4 t' ht' hu

/-- C49, unknown mobile: every TBF listens on a slot where the page is queued, no slot gets it twice,
and no slot without a TBF gets it. -/
theorem C49_everywhere (tbfs : List Tbf) :
    (marked tbfs).Nodup ∧
    (∀ t ∈ tbfs, (∃ x, t.uses x) → ∃ x ∈ marked tbfs, t.uses x) ∧
    (∀ x ∈ marked tbfs, ∃ t ∈ tbfs, t.uses x) := by
  obtain ⟨-, h2, h3, h4⟩ := foldl_mark tbfs [] List.nodup_nil
  exact ⟨h2, h4, fun x hx => (h3 x hx).resolve_left nofun⟩

/-- C49, few slots: a slot is marked only if some TBF uses no slot marked for the TBFs before it. -/
theorem C49_needed (before : List Tbf) (t : Tbf) (h : ∃ x ∈ marked before, t.uses x) :
    marked (before ++ [t]) = marked before := by
  unfold marked at *
  rw [List.foldl_append, List.foldl_cons, List.foldl_nil]
  rcases mark_cases (before.foldl mark []) t with ⟨e, -⟩ | ⟨x, -, -, -, hn⟩
  · exact e
  · obtain ⟨y, hy, hu⟩ := h
    exact absurd hu (hn y hy)

theorem find_slot (t : Tbf) : (∃ ts, (List.range 8).find? (t.slots.contains ·) = some ts ∧ t.uses (t.trx, ts)) ∨
    ((List.range 8).find? (t.slots.contains ·) = none ∧ ∀ x, ¬ t.uses x) := by
  cases h : (List.range 8).find? (t.slots.contains ·) with
  | none =>
    refine .inr ⟨rfl, fun x hx => ?_⟩
    have := List.find?_eq_none.1 h x.2 (List.mem_range.2 hx.2.2)
    exact this (List.contains_iff_mem.2 hx.2.1)
  | some ts =>
    refine .inl ⟨ts, rfl, rfl, List.contains_iff_mem.1 (by simpa using List.find?_some h), ?_⟩
    exact List.mem_range.1 (List.mem_of_find?_eq_some h)

/-- C49, known mobile: the page goes to a slot of the uplink TBF if it has one, else of the downlink
TBF; it goes nowhere only if the mobile has no slots. -/
theorem C49_known (ul dl : Option Tbf) :
    match knownSlot ul dl with
    | some x => (∃ t, ul = some t ∧ t.uses x) ∨ ((∀ t, ul = some t → ∀ y, ¬ t.uses y) ∧ ∃ t, dl = some t ∧ t.uses x)
    | none => (∀ t, ul = some t → ∀ y, ¬ t.uses y) ∧ ∀ t, dl = some t → ∀ y, ¬ t.uses y := by
  have key : ∀ o : Option Tbf, (∃ x, (o.bind fun t => ((List.range 8).find? (t.slots.contains ·)).map fun ts => (t.trx, ts)) = some x ∧ ∃ t, o = some t ∧ t.uses x) ∨
      ((o.bind fun t => ((List.range 8).find? (t.slots.contains ·)).map fun ts => (t.trx, ts)) = none ∧ ∀ t, o = some t → ∀ y, ¬ t.uses y) := by
    intro o
    cases o with
    | none => exact .inr ⟨rfl, nofun⟩
    | some t =>
      rcases find_slot t with ⟨ts, e, h⟩ | ⟨e, h⟩
      · exact .inl ⟨_, by rw [Option.bind_some, e]; rfl, t, rfl, h⟩
      · refine .inr ⟨by rw [Option.bind_some, e]; rfl, fun t' ht' => ?_⟩
        cases ht'
        exact h
  unfold knownSlot
  rcases key ul with ⟨x, e, h⟩ | ⟨e, h⟩
  · rw [e]; exact .inl h
  · rw [e]
    dsimp only
    rcases key dl with ⟨x, e', h'⟩ | ⟨e', h'⟩
    · rw [e']; exact .inr ⟨h, h'⟩
    · rw [e']; exact ⟨h, h'⟩

/-! Instance: four TBFs on two TRX, three slots. -/
example : marked [⟨0, [2, 3]⟩, ⟨0, [3, 4]⟩, ⟨1, [3]⟩, ⟨0, [1, 2]⟩] = [(0, 2), (0, 3), (1, 3)] := by decide
example : knownSlot (some ⟨0, []⟩) (some ⟨0, [5, 4]⟩) = some (0, 4) := by decide

end Verif.Paging
