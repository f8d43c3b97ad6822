import Verif.Spec.MsStore
/-!
# Lemmas on the list of mobiles
-/

namespace Verif.Store

/-! ### One mobile -/

theorem check_iff (m : Mob) (t : Nat) :
    m.check t = true ↔ t ≠ noTlli ∧ (t = m.tlli ∨ t = m.newUl ∨ t = m.newDl) := by
  simp [Mob.check, or_assoc]

theorem check_set (m : Mob) (t y : Nat) (h : (m.setTlli t).check y = true) : m.check y = true ∨ y = t := by
  rw [check_iff] at *
  unfold Mob.setTlli Mob.applyTlli at h
  repeat' split at h
  all_goals grind

theorem check_confirm (m : Mob) (t y : Nat) (h : (m.confirmTlli t).check y = true) : m.check y = true ∨ y = t := by
  rw [check_iff] at *
  unfold Mob.confirmTlli Mob.applyTlli at h
  repeat' split at h
  all_goals grind

theorem check_set_self (m : Mob) (t : Nat) (ht : t ≠ noTlli) : (m.setTlli t).check t = true := by
  rw [check_iff]
  unfold Mob.setTlli Mob.applyTlli
  repeat' split
  all_goals grind

theorem check_confirm_self (m : Mob) (t : Nat) (ht : t ≠ noTlli) : (m.confirmTlli t).check t = true := by
  rw [check_iff]
  unfold Mob.confirmTlli Mob.applyTlli
  repeat' split
  all_goals grind

theorem check_accept (m : Mob) (p : Pdu) (y : Nat) : (m.accept p).check y = (m.confirmTlli p.tlli).check y := by
  unfold Mob.accept
  dsimp only
  split <;> rfl

theorem anyTlli_check (m : Mob) (h : m.anyTlli ≠ noTlli) : m.check m.anyTlli = true := by
  rw [check_iff]
  refine ⟨h, ?_⟩
  unfold Mob.anyTlli
  split
  · exact .inr (.inl rfl)
  · split
    · exact .inl rfl
    · exact .inr (.inr rfl)

theorem anyTlli_of_check (m : Mob) (t : Nat) (h : m.check t = true) : m.anyTlli ≠ noTlli := by
  rw [check_iff] at h
  unfold Mob.anyTlli
  repeat' split
  all_goals omega

/-! ### The list -/

theorem mem_modify {s : St} {i : Nat} {f : Mob → Mob} {p : Nat × Mob} :
    p ∈ (modify s i f).ms ↔ ∃ p0 ∈ s.ms, p = if p0.1 = i then (p0.1, f p0.2) else p0 := by
  simp only [modify, List.mem_map, eq_comm]

theorem ids_modify (s : St) (i : Nat) (f : Mob → Mob) : (modify s i f).ms.map (·.1) = s.ms.map (·.1) := by
  simp only [modify, List.map_map]
  refine List.map_congr_left fun p _ => ?_
  simp only [Function.comp_apply]
  split <;> rfl

theorem find_of_mem : ∀ {l : List (Nat × Mob)} {i : Nat} {m : Mob}, (l.map (·.1)).Nodup → (i, m) ∈ l →
    l.find? (fun p => decide (p.1 = i)) = some (i, m)
  | [], _, _, _, hm => nomatch hm
  | a :: l, i, m, hn, hm => by
    rw [List.map_cons, List.nodup_cons] at hn
    rcases List.mem_cons.1 hm with rfl | hm
    · simp
    · have : a.1 ≠ i := fun h => hn.1 (List.mem_map.2 ⟨_, hm, h.symm⟩)
      rw [List.find?_cons_of_neg (by simpa using this)]
      exact find_of_mem hn.2 hm

theorem get_mem {s : St} {i : Nat} {m : Mob} (h : get? s i = some m) : (i, m) ∈ s.ms := by
  unfold get? at h
  cases hf : s.ms.find? (fun p => decide (p.1 = i)) with
  | none => rw [hf] at h; cases h
  | some p =>
    rw [hf] at h
    cases h
    have h1 := List.find?_some hf
    have h2 := List.mem_of_find?_eq_some hf
    have : p.1 = i := by simpa using h1
    rw [← this]
    exact h2

theorem get_of_mem {s : St} {i : Nat} {m : Mob} (hn : (s.ms.map (·.1)).Nodup) (h : (i, m) ∈ s.ms) : get? s i = some m := by
  unfold get?
  rw [find_of_mem hn h]
  rfl

/-- Ids are distinct and below the next one. -/
def Ids (s : St) : Prop := (s.ms.map (·.1)).Nodup ∧ ∀ p ∈ s.ms, p.1 < s.next

/-- No TLLI is valid for two mobiles. -/
def Uniq (s : St) : Prop := ∀ a ∈ s.ms, ∀ b ∈ s.ms, ∀ t, a.2.check t = true → b.2.check t = true → a.1 = b.1

/-- `s'` has no mobile and no valid TLLI more than `s`. -/
def Sub (s' s : St) : Prop :=
  (s'.ms.map (·.1)).Sublist (s.ms.map (·.1)) ∧ s'.next = s.next ∧
  ∀ p ∈ s'.ms, ∃ p0 ∈ s.ms, p0.1 = p.1 ∧ ∀ t, p.2.check t = true → p0.2.check t = true

theorem Sub.refl (s : St) : Sub s s := ⟨List.Sublist.refl _, rfl, fun p hp => ⟨p, hp, rfl, fun _ h => h⟩⟩

theorem Sub.trans {a b c : St} (h1 : Sub a b) (h2 : Sub b c) : Sub a c := by
  refine ⟨h1.1.trans h2.1, h1.2.1.trans h2.2.1, fun p hp => ?_⟩
  obtain ⟨q, hq, e1, f1⟩ := h1.2.2 p hp
  obtain ⟨r, hr, e2, f2⟩ := h2.2.2 q hq
  exact ⟨r, hr, e2.trans e1, fun t h => f2 t (f1 t h)⟩

theorem Sub.ids {s' s : St} (h : Sub s' s) (hi : Ids s) : Ids s' := by
  refine ⟨hi.1.sublist h.1, fun p hp => ?_⟩
  obtain ⟨p0, hp0, e, -⟩ := h.2.2 p hp
  rw [h.2.1, ← e]
  exact hi.2 _ hp0

theorem Sub.uniq {s' s : St} (h : Sub s' s) (hu : Uniq s) : Uniq s' := by
  intro a ha b hb t h1 h2
  obtain ⟨a0, ha0, ea, fa⟩ := h.2.2 a ha
  obtain ⟨b0, hb0, eb, fb⟩ := h.2.2 b hb
  rw [← ea, ← eb]
  exact hu a0 ha0 b0 hb0 t (fa t h1) (fb t h2)

theorem sub_modify (s : St) (i : Nat) (f : Mob → Mob) (hf : ∀ m t, (f m).check t = true → m.check t = true) :
    Sub (modify s i f) s := by
  refine ⟨by rw [ids_modify]; exact List.Sublist.refl _, rfl, fun p hp => ?_⟩
  obtain ⟨p0, hp0, rfl⟩ := mem_modify.1 hp
  refine ⟨p0, hp0, ?_, fun t h => ?_⟩
  · split <;> rfl
  · split at h
    · exact hf _ _ h
    · exact h

theorem sub_free (s : St) (i : Nat) : Sub (free s i) s := by
  refine ⟨?_, rfl, fun p hp => ⟨p, ?_, rfl, fun _ h => h⟩⟩
  · exact List.Sublist.map _ (List.filter_sublist)
  · exact (List.mem_filter.1 hp).1

theorem sub_checkIdle (b : Clock) (s : St) (i : Nat) : Sub (checkIdle b s i) s := by
  unfold checkIdle
  split
  · exact .refl _
  · split
    · exact .refl _
    · split
      · exact sub_free _ _
      · exact sub_modify _ _ _ fun _ _ h => h

theorem sub_unref (b : Clock) (s : St) (i : Nat) : Sub (unref b s i) s :=
  (sub_checkIdle b _ i).trans (sub_modify _ _ _ fun _ _ h => h)

theorem reset_check {m m' : Mob} (h : m.reset = some m') (q) (t : Nat) : ({ m' with q := q } : Mob).check t = false := by
  unfold Mob.reset at h
  split at h
  · cases h
  · cases h
    simp only [Mob.check]
    by_cases ht : t = noTlli <;> simp [ht]

/-- The parts of a successful merge. -/
theorem merge_eq {b : Clock} {s s' : St} {i o : Nat} (h : merge b s i o = some s') : o ≠ i ∧ ∃ m om om',
    get? s i = some m ∧ get? s o = some om ∧ om.drained.reset = some om' ∧
    s' = checkIdle b (modify (modify s i fun x => { x.takeOver om with q := (Llc.moveAndMerge m.q om.backlog).1 }) o
      fun _ => { om' with q := (Llc.moveAndMerge m.q om.backlog).2 }) o := by
  unfold merge at h
  split at h
  · cases h
  · rename_i hne
    refine ⟨hne, ?_⟩
    split at h
    · rename_i m om h1 h2
      split at h
      · cases h
      · rename_i om' h3
        cases h
        exact ⟨m, om, om', h1, h2, h3, rfl⟩
    · cases h

theorem check_takeOver (m o : Mob) (q) (t : Nat) : ({ m.takeOver o with q := q } : Mob).check t = m.check t := rfl

/-- After a merge the merged mobile is not valid under any TLLI, the rest is as before. -/
theorem merge_sub {b : Clock} {s s' : St} {i o : Nat} (h : merge b s i o = some s') :
    Sub s' s ∧ ∀ p ∈ s'.ms, p.1 = o → ∀ t, p.2.check t = false := by
  obtain ⟨hne, m, om, om', h1, h2, h3, rfl⟩ := merge_eq h
  have hs1 := sub_modify s i (fun x => { x.takeOver om with q := (Llc.moveAndMerge m.q om.backlog).1 })
    fun m t h => by rwa [check_takeOver] at h
  have hs2 := sub_modify (modify s i fun x => { x.takeOver om with q := (Llc.moveAndMerge m.q om.backlog).1 }) o
    (fun _ => { om' with q := (Llc.moveAndMerge m.q om.backlog).2 }) fun m' t h => by
      rw [reset_check h3] at h; cases h
  refine ⟨(sub_checkIdle b _ o).trans (hs2.trans hs1), fun p hp ho t => ?_⟩
  obtain ⟨p0, hp0, e, hf⟩ := (sub_checkIdle b _ o).2.2 p hp
  obtain ⟨p1, hp1, e1⟩ := mem_modify.1 hp0
  have hp1o : p1.1 = o := by
    have : p0.1 = p1.1 := by rw [e1]; split <;> rfl
    rw [← this, e, ho]
  rw [if_pos hp1o] at e1
  cases hc : p.2.check t with
  | false => rfl
  | true =>
    have := hf t hc
    rw [e1] at this
    rw [reset_check h3] at this
    cases this

/-- If TLLIs are unique apart from mobile `o`, they are after it has been merged. -/
theorem merge_uniq {b : Clock} {s s' : St} {i o : Nat} (h : merge b s i o = some s')
    (hu : ∀ a ∈ s.ms, ∀ c ∈ s.ms, a.1 ≠ o → c.1 ≠ o → ∀ t, a.2.check t = true → c.2.check t = true → a.1 = c.1) : Uniq s' := by
  obtain ⟨hsub, hclr⟩ := merge_sub h
  intro a ha c hc t h1 h2
  have ao : a.1 ≠ o := fun he => by rw [hclr a ha he] at h1; cases h1
  have co : c.1 ≠ o := fun he => by rw [hclr c hc he] at h2; cases h2
  obtain ⟨a0, ha0, ea, fa⟩ := hsub.2.2 a ha
  obtain ⟨c0, hc0, ec, fc⟩ := hsub.2.2 c hc
  rw [← ea, ← ec]
  exact hu a0 ha0 c0 hc0 (ea ▸ ao) (ec ▸ co) t (fa t h1) (fc t h2)

/-- The three TLLIs of a mobile. -/
def Mob.key (m : Mob) : Nat × Nat × Nat := (m.tlli, m.newUl, m.newDl)

theorem check_key {m m' : Mob} (h : m.key = m'.key) (t : Nat) : m.check t = m'.check t := by
  simp only [Mob.key, Prod.mk.injEq] at h
  unfold Mob.check
  rw [h.1, h.2.1, h.2.2]

theorem set_key {m m' : Mob} (h : m.key = m'.key) (t : Nat) : (m.setTlli t).key = (m'.setTlli t).key := by
  simp only [Mob.key, Prod.mk.injEq] at h
  unfold Mob.setTlli Mob.applyTlli
  rw [h.1, h.2.1, h.2.2]
  repeat' split
  all_goals simp [Mob.key, h.1, h.2.1, h.2.2]

theorem confirm_key {m m' : Mob} (h : m.key = m'.key) (t : Nat) : (m.confirmTlli t).key = (m'.confirmTlli t).key := by
  simp only [Mob.key, Prod.mk.injEq] at h
  unfold Mob.confirmTlli Mob.applyTlli
  rw [h.1, h.2.1, h.2.2]
  repeat' split
  all_goals simp [Mob.key, h.1, h.2.1, h.2.2]

theorem accept_key (m : Mob) (p : Pdu) : (m.accept p).key = (m.confirmTlli p.tlli).key := by
  unfold Mob.accept
  dsimp only
  split <;> rfl

/-- The object `i` is there, with the given TLLIs. -/
def Has (s : St) (i : Nat) (v : Nat × Nat × Nat) : Prop := ∃ m, (i, m) ∈ s.ms ∧ m.key = v

theorem has_modify_ne {s : St} {i j : Nat} {f : Mob → Mob} {v} (h : Has s i v) (hne : i ≠ j) : Has (modify s j f) i v := by
  obtain ⟨m, hm, hv⟩ := h
  exact ⟨m, mem_modify.2 ⟨_, hm, by rw [if_neg hne]⟩, hv⟩

theorem has_modify {s : St} {i j : Nat} {f : Mob → Mob} {v} (h : Has s i v) (hf : ∀ m, (f m).key = m.key) :
    Has (modify s j f) i v := by
  obtain ⟨m, hm, hv⟩ := h
  by_cases hij : i = j
  · exact ⟨f m, mem_modify.2 ⟨_, hm, by rw [if_pos hij]⟩, by rw [hf, hv]⟩
  · exact ⟨m, mem_modify.2 ⟨_, hm, by rw [if_neg hij]⟩, hv⟩

theorem has_free_ne {s : St} {i j : Nat} {v} (h : Has s i v) (hne : i ≠ j) : Has (free s j) i v := by
  obtain ⟨m, hm, hv⟩ := h
  exact ⟨m, List.mem_filter.2 ⟨hm, by simpa using hne⟩, hv⟩

theorem has_checkIdle_ne {b : Clock} {s : St} {i j : Nat} {v} (h : Has s i v) (hne : i ≠ j) : Has (checkIdle b s j) i v := by
  unfold checkIdle
  split
  · exact h
  · split
    · exact h
    · split
      · exact has_free_ne h hne
      · exact has_modify_ne h hne

theorem has_merge {b : Clock} {s s' : St} {i o : Nat} {v} (hm : merge b s i o = some s') (h : Has s i v) : Has s' i v := by
  obtain ⟨hne, m, om, om', h1, h2, h3, rfl⟩ := merge_eq hm
  refine has_checkIdle_ne (has_modify_ne ?_ (Ne.symm hne)) (Ne.symm hne)
  exact has_modify h fun m => rfl

theorem has_merge_ne {b : Clock} {s s' : St} {i j o : Nat} {v} (hm : merge b s i o = some s') (hj : j ≠ o) (h : Has s j v) : Has s' j v := by
  obtain ⟨hne, m, om, om', h1, h2, h3, rfl⟩ := merge_eq hm
  refine has_checkIdle_ne (has_modify_ne ?_ hj) hj
  exact has_modify h fun m => rfl

/-! ### Lookup -/

theorem check_none (m : Mob) : m.check noTlli = false := by simp [Mob.check]

theorem byTlli_some {s : St} {t i : Nat} (h : byTlli s t = some i) : ∃ m, (i, m) ∈ s.ms ∧ m.check t = true := by
  unfold byTlli getMs at h
  split at h
  · rename_i p hp
    cases h
    split at hp
    · have h1 := List.find?_some hp
      simp only [check_none, Bool.or_false] at h1
      exact ⟨p.2, List.mem_of_find?_eq_some hp, h1⟩
    · cases hp
  · simp at h

theorem byTlli_none {s : St} {t : Nat} (h : byTlli s t = none) : ∀ p ∈ s.ms, p.2.check t = false := by
  intro p hp
  by_cases ht : t = noTlli
  · rw [ht, check_none]
  · unfold byTlli getMs at h
    rw [if_pos (Or.inl ht)] at h
    cases hf : s.ms.find? (fun p => p.2.check t || p.2.check noTlli) with
    | some q => rw [hf] at h; cases h
    | none =>
      have := List.find?_eq_none.1 hf p hp
      simpa [check_none] using this

/-- With unique TLLIs the lookup finds the mobile for which the TLLI is valid. -/
theorem byTlli_iff {s : St} (hu : Uniq s) (t i : Nat) : byTlli s t = some i ↔ ∃ m, (i, m) ∈ s.ms ∧ m.check t = true := by
  refine ⟨byTlli_some, fun ⟨m, hm, hc⟩ => ?_⟩
  cases hf : byTlli s t with
  | none => rw [byTlli_none hf _ hm] at hc; cases hc
  | some j =>
    obtain ⟨m', hm', hc'⟩ := byTlli_some hf
    exact congrArg some (hu _ hm' _ hm t hc' hc)

theorem byImsi_mem {s : St} {im : List Nat} {i : Nat} (h : byImsi s im = some i) : ∃ m, (i, m) ∈ s.ms := by
  unfold byImsi getMs at h
  split at h
  · rename_i p hp
    simp at hp
  · split at h
    · cases hf : s.ms.find? (fun p => p.2.imsi ≠ [] && p.2.imsi = im) with
      | none => rw [hf] at h; cases h
      | some p =>
        rw [hf] at h
        cases h
        exact ⟨p.2, List.mem_of_find?_eq_some hf⟩
    · cases h

/-! ### Operations keep TLLIs unique -/

theorem uniq_modify {s : St} (hu : Uniq s) (i t : Nat) (f : Mob → Mob) (hf : ∀ m y, (f m).check y = true → m.check y = true ∨ y = t)
    (hn : ∀ p ∈ s.ms, p.1 ≠ i → p.2.check t = false) : Uniq (modify s i f) := by
  have key : ∀ p ∈ (modify s i f).ms, ∃ p0 ∈ s.ms, p0.1 = p.1 ∧
      ∀ y, p.2.check y = true → p0.2.check y = true ∨ (y = t ∧ p.1 = i) := by
    intro p hp
    obtain ⟨p0, hp0, rfl⟩ := mem_modify.1 hp
    refine ⟨p0, hp0, by split <;> rfl, fun y hy => ?_⟩
    split at hy
    · rename_i h
      rcases hf _ _ hy with h' | h'
      · exact .inl h'
      · exact .inr ⟨h', by rw [if_pos h]; exact h⟩
    · exact .inl hy
  intro a ha b hb y h1 h2
  obtain ⟨a0, ha0, ea, fa⟩ := key a ha
  obtain ⟨b0, hb0, eb, fb⟩ := key b hb
  rcases fa y h1 with h1 | ⟨rfl, h1⟩
  · rcases fb y h2 with h2 | ⟨rfl, h2⟩
    · rw [← ea, ← eb]; exact hu _ ha0 _ hb0 y h1 h2
    · refine Decidable.byContradiction fun hne => ?_
      have := hn a0 ha0 (by rw [ea]; exact fun h => hne (h.trans h2.symm))
      rw [this] at h1; cases h1
  · rcases fb y h2 with h2 | ⟨_, h2⟩
    · refine Decidable.byContradiction fun hne => ?_
      have := hn b0 hb0 (by rw [eb]; exact fun h => hne (h1.trans h.symm))
      rw [this] at h2; cases h2
    · exact h1.trans h2.symm

theorem ids_modify' {s : St} (h : Ids s) (i : Nat) (f : Mob → Mob) : Ids (modify s i f) := by
  refine ⟨by rw [ids_modify]; exact h.1, fun p hp => ?_⟩
  obtain ⟨p0, hp0, rfl⟩ := mem_modify.1 hp
  have := h.2 p0 hp0
  split <;> exact this

theorem check_newMob (c r t : Nat) : (newMob c r).check t = false := by
  simp only [Mob.check, newMob]
  by_cases ht : t = noTlli <;> simp [ht]

theorem alloc_ok {s : St} (hi : Ids s) (hu : Uniq s) (c r : Nat) : Ids (alloc s c r).1 ∧ Uniq (alloc s c r).1 := by
  refine ⟨⟨?_, ?_⟩, ?_⟩
  · simp only [alloc, List.map_cons, List.nodup_cons]
    refine ⟨fun h => ?_, hi.1⟩
    obtain ⟨p, hp, e⟩ := List.mem_map.1 h
    have := hi.2 p hp
    omega
  · intro p hp
    simp only [alloc, List.mem_cons] at hp ⊢
    rcases hp with rfl | hp
    · exact Nat.lt_succ_self _
    · have := hi.2 p hp; omega
  · intro a ha b hb t h1 h2
    simp only [alloc, List.mem_cons] at ha hb
    rcases ha with rfl | ha
    · rw [check_newMob] at h1; cases h1
    · rcases hb with rfl | hb
      · rw [check_newMob] at h2; cases h2
      · exact hu a ha b hb t h1 h2

/-- No mobile but `i` is valid under `t`. -/
def Only (s : St) (i t : Nat) : Prop := ∀ p ∈ s.ms, p.1 ≠ i → p.2.check t = false

theorem Only.sub {s' s : St} {i t : Nat} (h : Only s i t) (hs : Sub s' s) : Only s' i t := by
  intro p hp hne
  obtain ⟨p0, hp0, e, f⟩ := hs.2.2 p hp
  cases hc : p.2.check t with
  | false => rfl
  | true => have := f t hc; rw [h p0 hp0 (e ▸ hne)] at this; cases this

theorem only_of_uniq {s : St} (hu : Uniq s) {i t : Nat} {m : Mob} (hm : (i, m) ∈ s.ms) (hc : m.check t = true) : Only s i t := by
  intro p hp hne
  cases h : p.2.check t with
  | false => rfl
  | true => exact absurd (hu p hp _ hm t h hc) hne

theorem announce_ok {b : Clock} {s s' : St} {i t : Nat} (hi : Ids s) (hu : Uniq s) (h : announce b s i t = some s') :
    Ids s' ∧ Uniq s' ∧ (t ≠ noTlli → byTlli s' t = some i) := by
  unfold announce at h
  split at h
  · cases h; exact ⟨hi, hu, fun h => absurd ‹_› h⟩
  · rename_i ht
    split at h
    · cases h
    · rename_i m hg
      have hm := get_mem hg
      have has1 : Has (modify s i (·.setTlli t)) i (m.setTlli t).key :=
        ⟨_, mem_modify.2 ⟨_, hm, by rw [if_pos rfl]⟩, rfl⟩
      dsimp only at h
      split at h
      · rename_i ho
        cases h
        have hn : Only s i t := by
          split at ho
          · rename_i hc; exact only_of_uniq hu hm hc
          · exact fun p hp _ => byTlli_none ho p hp
        have hu' := uniq_modify hu i t _ (fun m y => check_set m t y) hn
        refine ⟨ids_modify' hi _ _, hu', fun _ => (byTlli_iff hu' _ _).2 ?_⟩
        obtain ⟨m', hm', hv⟩ := has1
        exact ⟨m', hm', by rw [check_key hv]; exact check_set_self m t ht⟩
      · rename_i o ho
        split at ho
        · cases ho
        · obtain ⟨om, hom, hoc⟩ := byTlli_some ho
          have hu' : Uniq s' := by
            refine merge_uniq h fun a ha c hc ao co y h1 h2 => ?_
            obtain ⟨a0, ha0, rfl⟩ := mem_modify.1 ha
            obtain ⟨c0, hc0, rfl⟩ := mem_modify.1 hc
            have ea : (if a0.1 = i then (a0.1, a0.2.setTlli t) else a0).1 = a0.1 := by split <;> rfl
            have ec : (if c0.1 = i then (c0.1, c0.2.setTlli t) else c0).1 = c0.1 := by split <;> rfl
            rw [ea] at ao ⊢
            rw [ec] at co ⊢
            have fa : a0.2.check y = true ∨ (y = t ∧ a0.1 = i) := by
              split at h1
              · rcases check_set _ _ _ h1 with h | h
                · exact .inl h
                · exact .inr ⟨h, by assumption⟩
              · exact .inl h1
            have fc : c0.2.check y = true ∨ (y = t ∧ c0.1 = i) := by
              split at h2
              · rcases check_set _ _ _ h2 with h | h
                · exact .inl h
                · exact .inr ⟨h, by assumption⟩
              · exact .inl h2
            rcases fa with fa | ⟨rfl, fa⟩
            · rcases fc with fc | ⟨rfl, fc⟩
              · exact hu _ ha0 _ hc0 y fa fc
              · exact absurd (hu _ ha0 _ hom y fa hoc) ao
            · rcases fc with fc | ⟨_, fc⟩
              · exact absurd (hu _ hc0 _ hom y fc hoc) co
              · rw [fa, fc]
          refine ⟨(merge_sub h).1.ids (ids_modify' hi _ _), hu', fun _ => (byTlli_iff hu' _ _).2 ?_⟩
          obtain ⟨m', hm', hv⟩ := has_merge h has1
          exact ⟨m', hm', by rw [check_key hv]; exact check_set_self m t ht⟩

theorem sub_setImsi {b : Clock} {s s' : St} {i : Nat} {im : List Nat} (h : setImsi b s i im = some s') : Sub s' s := by
  unfold setImsi at h
  split at h
  · cases h; exact .refl _
  · split at h
    · cases h
    · split at h
      · cases h; exact .refl _
      · dsimp only at h
        split at h
        · cases h
          exact sub_modify _ _ _ fun _ _ h => h
        · rename_i o _
          cases hm : merge b s i o with
          | none => rw [hm] at h; cases h
          | some s1 =>
            rw [hm] at h
            cases h
            exact Sub.trans (b := s1) (sub_modify s1 i (fun m => { m with imsi := im }) fun _ _ h => h) (merge_sub hm).1

theorem has_setImsi {b : Clock} {s s' : St} {i : Nat} {im : List Nat} {v} (h : setImsi b s i im = some s') (hv : Has s i v) : Has s' i v := by
  unfold setImsi at h
  split at h
  · cases h; exact hv
  · split at h
    · cases h
    · split at h
      · cases h; exact hv
      · dsimp only at h
        split at h
        · cases h
          exact has_modify hv fun _ => rfl
        · rename_i o _
          cases hm : merge b s i o with
          | none => rw [hm] at h; cases h
          | some s1 =>
            rw [hm] at h
            cases h
            exact has_modify (has_merge hm hv) fun _ => rfl

/-- The lookup of a PDU: a mobile valid under one of the TLLIs, or none is and the IMSI decides. -/
theorem getMs_cases {s : St} {t o : Nat} {im : List Nat} :
    (∃ i m, getMs s t o im = some i ∧ (i, m) ∈ s.ms ∧ (m.check t = true ∨ m.check o = true)) ∨
    ((∀ p ∈ s.ms, p.2.check t = false ∧ p.2.check o = false) ∧
      ((∃ i m, getMs s t o im = some i ∧ (i, m) ∈ s.ms ∧ im ≠ [] ∧ m.imsi = im) ∨
       (getMs s t o im = none ∧ ∀ p ∈ s.ms, im ≠ [] → p.2.imsi ≠ im))) := by
  unfold getMs
  split
  · rename_i p hp
    split at hp
    · have h1 := List.find?_some hp
      rw [Bool.or_eq_true] at h1
      exact .inl ⟨p.1, p.2, rfl, List.mem_of_find?_eq_some hp, h1⟩
    · cases hp
  · rename_i hf
    refine .inr ⟨fun p hp => ?_, ?_⟩
    · split at hf
      · have := List.find?_eq_none.1 hf p hp
        simpa using this
      · rename_i hn
        rw [not_or] at hn
        rw [Decidable.not_not.1 hn.1, Decidable.not_not.1 hn.2, check_none]
        exact ⟨rfl, rfl⟩
    · split
      · rename_i him
        cases hf2 : s.ms.find? (fun p => p.2.imsi ≠ [] && p.2.imsi = im) with
        | none =>
          refine .inr ⟨rfl, fun p hp _ he => ?_⟩
          have := List.find?_eq_none.1 hf2 p hp
          simp [he, him] at this
        | some p =>
          have h1 := List.find?_some hf2
          simp only [Bool.and_eq_true, decide_eq_true_eq] at h1
          exact .inl ⟨p.1, p.2, rfl, List.mem_of_find?_eq_some hf2, him, h1.2⟩
      · rename_i him
        exact .inr ⟨rfl, fun p hp h => absurd h him⟩

/-- What the first part of the handling of a PDU does. -/
theorem findMs_ok {b : Clock} {c : Nat} {s s1 : St} {p : Pdu} {i : Nat} {new : Bool}
    (h : findMs b c s p = some (s1, i, new)) :
    (new = true ∧ getMs s p.tlli p.old (p.imsi.getD []) = none ∧ s1 = (alloc s c 1).1 ∧ i = s.next) ∨
    (new = false ∧ getMs s p.tlli p.old (p.imsi.getD []) = some i ∧ Sub s1 s ∧ ∀ v, Has s i v → Has s1 i v) := by
  unfold findMs at h
  split at h
  · rename_i j hj
    split at h
    · split at h
      · split at h
        · rename_i o _
          split at h
          · cases hm : merge b s j o with
            | none => rw [hm] at h; cases h
            | some s2 =>
              rw [hm] at h
              cases h
              exact .inr ⟨rfl, hj, (merge_sub hm).1, fun v => has_merge hm⟩
          · cases h; exact .inr ⟨rfl, hj, .refl _, fun _ h => h⟩
        · cases h; exact .inr ⟨rfl, hj, .refl _, fun _ h => h⟩
      · cases h; exact .inr ⟨rfl, hj, .refl _, fun _ h => h⟩
    · cases h; exact .inr ⟨rfl, hj, .refl _, fun _ h => h⟩
  · rename_i hn
    cases h
    exact .inl ⟨rfl, hn, rfl, rfl⟩

theorem dlHandle_eq {b : Clock} {c : Nat} {s s' : St} {p : Pdu} (h : dlHandle b c s p = some s') :
    ∃ s1 i new s2, findMs b c s p = some (s1, i, new) ∧
      (match p.imsi with | none => some s1 | some imsi => setImsi b s1 i imsi) = some s2 ∧
      s' = (if new then unref b (modify s2 i (·.accept p)) i else modify s2 i (·.accept p)) := by
  unfold dlHandle at h
  split at h
  · cases h
  · rename_i s1 i new hf
    split at h
    · cases h
    · rename_i s2 hs2
      cases h
      exact ⟨s1, i, new, s2, hf, hs2, rfl⟩

theorem dlHandle_parts {b : Clock} {c : Nat} {s s' : St} {p : Pdu} (h : dlHandle b c s p = some s') :
    ∃ s1 i new s2, findMs b c s p = some (s1, i, new) ∧ Sub s2 s1 ∧ (∀ v, Has s1 i v → Has s2 i v) ∧
      s' = (if new then unref b (modify s2 i (·.accept p)) i else modify s2 i (·.accept p)) := by
  unfold dlHandle at h
  split at h
  · cases h
  · rename_i s1 i new hf
    split at h
    · cases h
    · rename_i s2 hs2
      cases h
      refine ⟨s1, i, new, s2, hf, ?_, ?_, rfl⟩
      · cases him : p.imsi with
        | none => rw [him] at hs2; cases hs2; exact .refl _
        | some im => rw [him] at hs2; exact sub_setImsi hs2
      · intro v
        cases him : p.imsi with
        | none => rw [him] at hs2; cases hs2; exact id
        | some im => rw [him] at hs2; exact has_setImsi hs2

theorem has_unref_other {b : Clock} {s : St} {i j : Nat} {v} (h : Has s i v) (hne : i ≠ j) : Has (unref b s j) i v :=
  has_checkIdle_ne (has_modify h fun _ => rfl) hne

theorem pdu_ok {b : Clock} {c : Nat} {s s' : St} {p : Pdu} (hi : Ids s) (hu : Uniq s) (hp : Orderly s (.pdu p))
    (h : dlHandle b c s p = some s') : Ids s' ∧ Uniq s' := by
  obtain ⟨s1, i, new, s2, hf, hs21, hh, rfl⟩ := dlHandle_parts h
  have hon : Ids s1 ∧ Uniq s1 ∧ Only s1 i p.tlli := by
    rcases findMs_ok hf with ⟨-, hg, rfl, rfl⟩ | ⟨-, hg, hs, -⟩
    · refine ⟨(alloc_ok hi hu c 1).1, (alloc_ok hi hu c 1).2, fun q hq hne => ?_⟩
      simp only [alloc, List.mem_cons] at hq
      rcases hq with rfl | hq
      · exact absurd rfl hne
      · rcases @getMs_cases s p.tlli p.old (p.imsi.getD []) with ⟨_, _, h1, -⟩ | ⟨h1, -⟩
        · rw [hg] at h1; cases h1
        · exact (h1 q hq).1
    · refine ⟨hs.ids hi, hs.uniq hu, Only.sub ?_ hs⟩
      intro q hq hne
      rcases @getMs_cases s p.tlli p.old (p.imsi.getD []) with ⟨j, m, h1, h2, h3⟩ | ⟨h1, -⟩
      · rw [hg] at h1
        cases h1
        cases hc : q.2.check p.tlli with
        | false => rfl
        | true =>
          rcases h3 with h3 | h3
          · exact absurd (hu q hq _ h2 _ hc h3) hne
          · exact absurd (hp.2 q hq _ h2 hc h3) hne
      · exact (h1 q hq).1
  have hu2 := uniq_modify (hs21.uniq hon.2.1) i p.tlli (·.accept p)
    (fun m y hy => by rw [check_accept] at hy; exact check_confirm m _ y hy) (hon.2.2.sub hs21)
  have hi2 := ids_modify' (hs21.ids hon.1) i (·.accept p)
  split
  · exact ⟨(sub_unref _ _ _).ids hi2, (sub_unref _ _ _).uniq hu2⟩
  · exact ⟨hi2, hu2⟩

theorem step_ok {b : Clock} {c : Nat} {s s' : St} {op : Op} (hi : Ids s) (hu : Uniq s) (ho : Orderly s op)
    (h : step b c s op = some s') : Ids s' ∧ Uniq s' := by
  have sub {s'} (hs : Sub s' s) : Ids s' ∧ Uniq s' := ⟨hs.ids hi, hs.uniq hu⟩
  cases op with
  | pdu p => exact pdu_ok hi hu ho h
  | announce i t => have := announce_ok hi hu h; exact ⟨this.1, this.2.1⟩
  | resource t att =>
    simp only [step, Option.some.injEq] at h
    subst h
    have h1 : Ids (reqMs c s t).1 ∧ Uniq (reqMs c s t).1 := by
      unfold reqMs
      split
      · exact ⟨hi, hu⟩
      · rename_i hn
        have ha := alloc_ok hi hu c 0
        refine ⟨ids_modify' ha.1 _ _, uniq_modify ha.2 _ t _ (fun m y => check_set m t y) fun p hp hne => ?_⟩
        simp only [alloc, List.mem_cons] at hp
        rcases hp with rfl | hp
        · exact absurd rfl hne
        · exact byTlli_none hn p hp
    have hs : Sub (resourceReq b c s t att) (reqMs c s t).1 := by
      unfold resourceReq
      refine (sub_unref _ _ _).trans ?_
      cases att with
      | none => exact sub_modify _ _ _ fun _ _ h => h
      | some x =>
        exact Sub.trans (sub_modify _ _ (·.attachUl x) fun _ _ h => h)
          (sub_modify _ _ (fun m => { m with refs := m.refs + 1 }) fun _ _ h => h)
    exact ⟨hs.ids h1.1, hs.uniq h1.2⟩
  | meas t =>
    simp only [step, Option.some.injEq] at h
    subst h
    unfold measReport
    split
    · exact ⟨hi, hu⟩
    · rename_i hn
      have ha := alloc_ok hi hu c 1
      have : Ids (modify (alloc s c 1).1 (alloc s c 1).2 (·.setTlli t)) ∧ Uniq (modify (alloc s c 1).1 (alloc s c 1).2 (·.setTlli t)) := by
        refine ⟨ids_modify' ha.1 _ _, uniq_modify ha.2 _ t _ (fun m y => check_set m t y) fun p hp hne => ?_⟩
        simp only [alloc, List.mem_cons] at hp
        rcases hp with rfl | hp
        · exact absurd rfl hne
        · exact byTlli_none hn p hp
      exact ⟨(sub_unref _ _ _).ids this.1, (sub_unref _ _ _).uniq this.2⟩
  | access =>
    simp only [step, Option.some.injEq] at h
    subst h
    have ha := alloc_ok hi hu c 0
    have hs := sub_modify (alloc s c 0).1 (alloc s c 0).2 (·.attachUl true) fun _ _ h => h
    exact ⟨hs.ids ha.1, hs.uniq ha.2⟩
  | attachDl i t => cases h; exact sub (sub_modify _ _ _ fun _ _ h => h)
  | attachUl i t => cases h; exact sub (sub_modify _ _ _ fun _ _ h => h)
  | freeUl i => cases h; exact sub ((sub_checkIdle _ _ _).trans (sub_modify _ _ _ fun _ _ h => h))
  | freeDl i => cases h; exact sub ((sub_checkIdle _ _ _).trans (sub_modify _ _ _ fun _ _ h => h))
  | freeOld i k => cases h; exact sub ((sub_checkIdle _ _ _).trans (sub_modify _ _ _ fun _ _ h => h))
  | llc i q t => cases h; exact sub (sub_modify _ _ _ fun _ _ h => h)
  | release i =>
    simp only [step, Option.some.injEq] at h
    subst h
    split
    · split
      · split
        · exact sub (sub_free _ _)
        · exact ⟨hi, hu⟩
      · exact ⟨hi, hu⟩
    · exact ⟨hi, hu⟩

theorem Hist.ok {c : Nat} {s : St} (h : Hist c Orderly s) : Ids s ∧ Uniq s := by
  induction h with
  | init => exact ⟨⟨List.nodup_nil, nofun⟩, nofun⟩
  | step k op _ ho hs ih => exact step_ok ih.1 ih.2 ho hs

end Verif.Store
