import Verif.Spec.Cache
/-!
# C36: caches

`Hist c s now ks`: `c` is a cache at time `now` after the stores `s`; `ks` are the keep times that have
been configured. The age is checked by a timer, not on lookup: a value is too old only between the
moment the timer is due and its callback (`C36_fresh_partial`, `C36_stale`).
-/

namespace Verif.Cache

variable {κ ν : Type} [DecidableEq κ]

theorem last_unique {s : List (Stored κ ν)} {k : κ} {t t' : Nat} {v v' : ν} (h : Last s k t v) (h' : Last s k t' v') :
    t = t' ∧ v = v' := by
  obtain ⟨l, r, e, hl⟩ := h
  obtain ⟨l', r', e', hl'⟩ := h'
  have f : ∀ {l r : List (Stored κ ν)} {t v}, (∀ x ∈ l, x.key ≠ k) →
      (l ++ ⟨t, k, v⟩ :: r).find? (fun x => x.key = k) = some ⟨t, k, v⟩ := by
    intro l r t v h
    rw [List.find?_append, List.find?_eq_none.2 (fun x hx => by simpa using h x hx)]
    simp
  have e1 := f (t := t) (v := v) (r := r) hl
  have e2 := f (t := t') (v := v') (r := r') hl'
  rw [← e, e', e2] at e1
  cases e1
  exact ⟨rfl, rfl⟩

omit [DecidableEq κ] in
theorem last_cons_self (s : List (Stored κ ν)) (k : κ) (t : Nat) (v : ν) : Last (⟨t, k, v⟩ :: s) k t v :=
  ⟨[], s, rfl, nofun⟩

omit [DecidableEq κ] in
theorem last_cons_ne {s : List (Stored κ ν)} {k k' : κ} {t t' : Nat} {v v' : ν} (h : k' ≠ k) :
    Last (⟨t', k', v'⟩ :: s) k t v ↔ Last s k t v := by
  constructor
  · rintro ⟨l, r, e, hl⟩
    cases l with
    | nil => cases e; exact absurd rfl h
    | cons x l => cases e; exact ⟨l, r, rfl, fun x hx => hl x (List.mem_cons_of_mem _ hx)⟩
  · rintro ⟨l, r, rfl, hl⟩
    refine ⟨_ :: l, r, rfl, fun x hx => ?_⟩
    rcases List.mem_cons.1 hx with rfl | hx
    · exact h
    · exact hl x hx

/-- What holds in every history. -/
structure Inv (c : Cache κ ν) (s : List (Stored κ ν)) (now : Nat) (ks : List Nat) : Prop where
  sorted : c.list.Pairwise fun a b => a.ts ≤ b.ts
  past : ∀ e ∈ c.list, e.ts ≤ now
  last : ∀ e ∈ c.list, Last s e.key e.ts e.value
  nodup : c.list.Pairwise fun a b => a.key ≠ b.key
  timer : ∀ e l, c.list = e :: l → ∃ d, c.timer = some d ∧ d ≤ max now (e.ts + c.keep)
  keep : c.keep ∈ ks
  kept : ∀ k t v, Last s k t v → (∀ K ∈ ks, now < t + K) → ∃ e ∈ c.list, e.key = k ∧ e.ts = t ∧ e.value = v

omit [DecidableEq κ] in
theorem schedule_list (now : Nat) (c : Cache κ ν) : (schedule now c).list = c.list ∧ (schedule now c).keep = c.keep := by
  unfold schedule; split <;> exact ⟨rfl, rfl⟩

omit [DecidableEq κ] in
theorem schedule_timer (now : Nat) (c : Cache κ ν) (e : Entry κ ν) (l : List (Entry κ ν)) (h : (schedule now c).list = e :: l) :
    ∃ d, (schedule now c).timer = some d ∧ d ≤ max now (e.ts + (schedule now c).keep) := by
  rw [(schedule_list now c).1] at h
  rw [(schedule_list now c).2]
  unfold schedule
  rw [h]
  refine ⟨_, rfl, ?_⟩
  split
  · omega
  · have := Nat.div_mul_le_self (e.ts + c.keep - now) 1000
    omega

theorem dropWhile_spec {α : Type} (p : α → Bool) (l : List α) : ∃ l1, l = l1 ++ l.dropWhile p ∧ (∀ x ∈ l1, p x = true) ∧
    ∀ x r, l.dropWhile p = x :: r → p x = false := by
  induction l with
  | nil => exact ⟨[], rfl, nofun, nofun⟩
  | cons a l ih =>
    rw [List.dropWhile_cons]
    split
    · rename_i h
      obtain ⟨l1, h1, h2, h3⟩ := ih
      refine ⟨a :: l1, by rw [List.cons_append, ← h1], fun x hx => ?_, h3⟩
      rcases List.mem_cons.1 hx with rfl | hx
      · exact h
      · exact h2 x hx
    · rename_i h
      refine ⟨[], rfl, nofun, fun x r e => ?_⟩
      cases e
      simpa using h

/-- All entries left by a cleanup are younger than the keep time. -/
theorem cleanup_young {c : Cache κ ν} {s : List (Stored κ ν)} {now : Nat} {ks : List Nat} (h : Inv c s now ks) :
    ∀ e ∈ (cleanup now c).list, now < e.ts + c.keep := by
  unfold cleanup
  rw [(schedule_list _ _).1]
  dsimp only
  obtain ⟨l1, h1, h2, h3⟩ := dropWhile_spec (fun e : Entry κ ν => !(decide (now < e.ts + c.keep))) c.list
  have hs := h.sorted
  rw [h1] at hs
  have hs2 := (List.pairwise_append.1 hs).2.1
  intro e he
  cases hd : c.list.dropWhile (fun e => !(decide (now < e.ts + c.keep))) with
  | nil => rw [hd] at he; cases he
  | cons x r =>
    have hx := h3 x r hd
    rw [hd] at he hs2
    have hx : now < x.ts + c.keep := by simpa using hx
    rcases List.mem_cons.1 he with rfl | he
    · exact hx
    · have := (List.pairwise_cons.1 hs2).1 e he
      omega

theorem histInv {c : Cache κ ν} {s : List (Stored κ ν)} {now : Nat} {ks : List Nat} (h : Hist c s now ks) : Inv c s now ks := by
  induction h with
  | init sec now =>
    refine ⟨.nil, nofun, nofun, .nil, nofun, List.mem_singleton.2 rfl, ?_⟩
    rintro k t v ⟨l, r, e, -⟩
    cases l <;> cases e
  | wait d _ ih =>
    refine ⟨ih.sorted, fun e he => Nat.le_add_right_of_le (ih.past e he), ih.last, ih.nodup, fun e l he => ?_, ih.keep,
      fun k t v hl hk => ih.kept k t v hl fun K hK => Nat.lt_of_le_of_lt (Nat.le_add_right _ _) (hk K hK)⟩
    obtain ⟨d', h1, h2⟩ := ih.timer e l he
    exact ⟨d', h1, by omega⟩
  | @setKeep c s now ks sec _ ih =>
    have hl := schedule_list now { c with keep := sec * 1000000000 }
    refine ⟨?_, ?_, ?_, ?_, fun e l he => schedule_timer _ _ e l he, ?_, ?_⟩
    · unfold setKeep; rw [hl.1]; exact ih.sorted
    · unfold setKeep; rw [hl.1]; exact ih.past
    · unfold setKeep; rw [hl.1]; exact ih.last
    · unfold setKeep; rw [hl.1]; exact ih.nodup
    · unfold setKeep; rw [hl.2]; exact List.mem_cons_self
    · unfold setKeep
      rw [hl.1]
      exact fun k t v h1 h2 => ih.kept k t v h1 fun K hK => h2 K (List.mem_cons_of_mem _ hK)
  | @timer c s now ks d _ hd hn ih =>
    have hl := schedule_list now { c with list := c.list.dropWhile (fun e => !(decide (now < e.ts + c.keep))), timer := none }
    obtain ⟨l1, h1, h2, -⟩ := dropWhile_spec (fun e : Entry κ ν => !(decide (now < e.ts + c.keep))) c.list
    have hsub : ∀ e ∈ (cleanup now c).list, e ∈ c.list := by
      intro e he
      unfold cleanup at he
      rw [hl.1] at he
      rw [h1]
      exact List.mem_append_right _ he
    refine ⟨?_, fun e he => ih.past e (hsub e he), fun e he => ih.last e (hsub e he), ?_, fun e l he => schedule_timer _ _ e l he, ?_, ?_⟩
    · have := ih.sorted
      rw [h1] at this
      unfold cleanup
      rw [hl.1]
      exact (List.pairwise_append.1 this).2.1
    · have := ih.nodup
      rw [h1] at this
      unfold cleanup
      rw [hl.1]
      exact (List.pairwise_append.1 this).2.1
    · unfold cleanup; rw [hl.2]; exact ih.keep
    · intro k t v h3 h4
      obtain ⟨e, he, e1, e2, e3⟩ := ih.kept k t v h3 h4
      refine ⟨e, ?_, e1, e2, e3⟩
      rw [h1] at he
      unfold cleanup
      rw [hl.1]
      rcases List.mem_append.1 he with he | he
      · have := h2 e he
        have h5 := h4 _ ih.keep
        simp only [Bool.not_eq_true', decide_eq_false_iff_not] at this
        omega
      · exact he
  | @add c s now ks k v _ ih =>
    have hl := schedule_list now { c with list := c.list.eraseP (fun e => e.key = k) ++ [⟨k, v, now⟩] }
    have hmem : ∀ e, e ∈ (add now c k v).list ↔ (e ∈ c.list ∧ e.key ≠ k) ∨ e = ⟨k, v, now⟩ := by
      intro e
      have hl' : (add now c k v).list = c.list.eraseP (fun e => e.key = k) ++ [⟨k, v, now⟩] := hl.1
      rw [hl', List.mem_append, List.mem_singleton]
      refine or_congr ⟨fun he => ?_, fun he => (List.mem_eraseP_of_neg (by simpa using he.2)).2 he.1⟩ Iff.rfl
      refine ⟨List.mem_of_mem_eraseP he, fun hk => ?_⟩
      -- keys are different: the only entry of the key is gone
      have hm := List.mem_of_mem_eraseP he
      obtain ⟨a, l1, l2, h1, h2, h3, h4⟩ := List.exists_of_eraseP hm (p := fun e => decide (e.key = k)) (by simpa using hk)
      rw [h4] at he
      have hn := ih.nodup
      rw [h3] at hn
      have h2 : a.key = k := by simpa using h2
      rcases List.mem_append.1 he with he | he
      · exact absurd (by simpa using hk) (h1 e he)
      · have := (List.pairwise_cons.1 (List.pairwise_append.1 hn).2.1).1 e he
        exact this (by rw [h2, hk])
    have hl' : (add now c k v).list = c.list.eraseP (fun e => e.key = k) ++ [⟨k, v, now⟩] := hl.1
    refine ⟨?_, ?_, ?_, ?_, fun e l he => schedule_timer _ _ e l he, ?_, ?_⟩
    · rw [hl', List.pairwise_append]
      refine ⟨ih.sorted.sublist List.eraseP_sublist, List.pairwise_singleton _ _, fun a ha b hb => ?_⟩
      rw [List.mem_singleton.1 hb]
      exact ih.past a (List.mem_of_mem_eraseP ha)
    · intro e he
      rcases (hmem e).1 he with ⟨he, -⟩ | rfl
      · exact ih.past e he
      · exact Nat.le_refl _
    · intro e he
      rcases (hmem e).1 he with ⟨he, hk⟩ | rfl
      · exact (last_cons_ne (fun h => hk h.symm)).2 (ih.last e he)
      · exact last_cons_self _ _ _ _
    · rw [hl', List.pairwise_append]
      refine ⟨ih.nodup.sublist List.eraseP_sublist, List.pairwise_singleton _ _, fun a ha b hb => ?_⟩
      have : a ∈ (add now c k v).list := by rw [hl']; exact List.mem_append_left _ ha
      rw [List.mem_singleton.1 hb]
      rcases (hmem a).1 this with ⟨-, h⟩ | rfl
      · exact h
      · -- the new entry is not in the old list unless its key was there
        intro _
        have ha' := List.mem_of_mem_eraseP ha
        obtain ⟨a, l1, l2, h1, h2, h3, h4⟩ := List.exists_of_eraseP ha' (p := fun e => decide (e.key = k)) (by simp)
        rw [h4] at ha
        have hn := ih.nodup
        rw [h3] at hn
        have h2 : a.key = k := by simpa using h2
        rcases List.mem_append.1 ha with ha | ha
        · exact absurd (by simp) (h1 _ ha)
        · exact (List.pairwise_cons.1 (List.pairwise_append.1 hn).2.1).1 _ ha h2
    · unfold add; rw [hl.2]; exact ih.keep
    · intro k' t v' h1 h2
      by_cases hk : k = k'
      · subst hk
        obtain ⟨rfl, rfl⟩ := last_unique h1 (last_cons_self _ _ _ _)
        exact ⟨_, (hmem _).2 (.inr rfl), rfl, rfl, rfl⟩
      · obtain ⟨e, he, e1, e2, e3⟩ := ih.kept k' t v' ((last_cons_ne hk).1 h1) h2
        exact ⟨e, (hmem _).2 (.inl ⟨he, by rw [e1]; exact fun h => hk h.symm⟩), e1, e2, e3⟩

theorem lookup_mem {c : Cache κ ν} {k : κ} {v : ν} (h : lookup c k = some v) : ∃ e ∈ c.list, e.key = k ∧ e.value = v := by
  unfold lookup at h
  cases he : c.list.find? (fun e => e.key = k) with
  | none => rw [he] at h; cases h
  | some e =>
    rw [he] at h
    cases h
    exact ⟨e, List.mem_of_find?_eq_some he, by simpa using List.find?_some he, rfl⟩

/-- C36: a lookup gives the value stored last for this key. -/
theorem C36_latest {c : Cache κ ν} {s : List (Stored κ ν)} {now : Nat} {ks : List Nat} (h : Hist c s now ks) {k : κ} {v : ν}
    (hv : lookup c k = some v) : ∃ t, t ≤ now ∧ Last s k t v := by
  obtain ⟨e, he, rfl, rfl⟩ := lookup_mem hv
  exact ⟨e.ts, (histInv h).past e he, (histInv h).last e he⟩

/-- C36: no key is stored twice. -/
theorem C36_once {c : Cache κ ν} {s : List (Stored κ ν)} {now : Nat} {ks : List Nat} (h : Hist c s now ks) :
    (c.list.map (·.key)).Nodup := by
  rw [List.Nodup, List.pairwise_map]
  exact (histInv h).nodup

/-- C36, age. Partial: if the cleanup timer is not overdue, a value found was stored less than the keep
time ago. -/
theorem C36_fresh_partial {c : Cache κ ν} {s : List (Stored κ ν)} {now : Nat} {ks : List Nat} (h : Hist c s now ks) (hd : NotDue c now)
    {k : κ} {v : ν} (hv : lookup c k = some v) : ∃ t, Last s k t v ∧ now < t + c.keep := by
  obtain ⟨e, he, rfl, rfl⟩ := lookup_mem hv
  refine ⟨e.ts, (histInv h).last e he, ?_⟩
  cases hc : c.list with
  | nil => rw [hc] at he; cases he
  | cons x l =>
    obtain ⟨d, h1, h2⟩ := (histInv h).timer x l hc
    have h3 := hd d h1
    have h4 := (histInv h).sorted
    rw [hc] at he h4
    rcases List.mem_cons.1 he with rfl | he
    · omega
    · have := (List.pairwise_cons.1 h4).1 e he
      omega

/-- C36, age: a value too old is never found after the timer has run, and the timer is always pending
while there are entries, no later than the first of them expires. -/
theorem C36_cleaned {c : Cache κ ν} {s : List (Stored κ ν)} {now : Nat} {ks : List Nat} (h : Hist c s now ks) :
    (∀ k v, lookup (cleanup now c) k = some v → ∃ t, Last s k t v ∧ now < t + c.keep) ∧
    (∀ k v, lookup c k = some v → ∃ t d, Last s k t v ∧ c.timer = some d ∧ (d ≤ now ∨ d ≤ t + c.keep)) := by
  constructor
  · intro k v hv
    obtain ⟨e, he, rfl, rfl⟩ := lookup_mem hv
    refine ⟨e.ts, ?_, cleanup_young (histInv h) e he⟩
    obtain ⟨l1, h1, -, -⟩ := dropWhile_spec (fun e : Entry κ ν => !(decide (now < e.ts + c.keep))) c.list
    refine (histInv h).last e ?_
    unfold cleanup at he
    rw [(schedule_list _ _).1] at he
    rw [h1]
    exact List.mem_append_right _ he
  · intro k v hv
    obtain ⟨e, he, rfl, rfl⟩ := lookup_mem hv
    cases hc : c.list with
    | nil => rw [hc] at he; cases he
    | cons x l =>
      obtain ⟨d, h1, h2⟩ := (histInv h).timer x l hc
      refine ⟨e.ts, d, (histInv h).last e he, h1, ?_⟩
      have h4 := (histInv h).sorted
      rw [hc] at he h4
      rcases List.mem_cons.1 he with rfl | he
      · omega
      · have := (List.pairwise_cons.1 h4).1 e he
        omega

/-- C36, the other direction: a value stored less than every configured keep time ago is found. -/
theorem C36_kept {c : Cache κ ν} {s : List (Stored κ ν)} {now : Nat} {ks : List Nat} (h : Hist c s now ks) {k : κ} {t : Nat} {v : ν}
    (hl : Last s k t v) (hk : ∀ K ∈ ks, now < t + K) : lookup c k = some v := by
  obtain ⟨e, he, rfl, rfl, rfl⟩ := (histInv h).kept k t v hl hk
  unfold lookup
  cases hf : c.list.find? (fun x => x.key = e.key) with
  | none => exact absurd (by simp) (List.find?_eq_none.1 hf e he)
  | some x =>
    have hx := List.mem_of_find?_eq_some hf
    have hxk : x.key = e.key := by simpa using List.find?_some hf
    have h1 := (histInv h).last x hx
    rw [hxk] at h1
    exact congrArg some (last_unique h1 ((histInv h).last e he)).2

/-- The age is not checked on lookup: until the callback of the timer has run, a value that is too old
is found. -/
theorem C36_stale : ∃ (c : Cache Nat Nat) (s : List (Stored Nat Nat)) (now : Nat) (ks : List Nat), Hist c s now ks ∧
    lookup c 1 = some 7 ∧ Last s 1 0 7 ∧ 0 + 2 * c.keep < now :=
  ⟨_, _, _, _, .wait 3000000000 (.add 1 7 (.init 1 0)), by decide, ⟨[], [], rfl, nofun⟩, by decide⟩

/-! Instance: two keys, one of them updated, then one expires. -/
def c0 : Cache Nat Nat := add 900000000 (add 500000000 (add 0 (alloc Nat Nat 1) 1 10) 2 20) 1 11
def s0 : List (Stored Nat Nat) := [⟨900000000, 1, 11⟩, ⟨500000000, 2, 20⟩, ⟨0, 1, 10⟩]
theorem h0 : Hist c0 s0 900000000 [1000000000] :=
  .add 1 11 (.wait 400000000 (.add 2 20 (.wait 500000000 (.add 1 10 (.init 1 0)))))
example : Hist (cleanup 1600000000 c0) s0 1600000000 [1000000000] := .timer 1500000000 (.wait 700000000 h0) (by decide) (by decide)
example : lookup (cleanup 1600000000 c0) 1 = some 11 ∧ lookup (cleanup 1600000000 c0) 2 = none := by decide
example : NotDue c0 900000000 := by intro d hd; cases hd; decide

end Verif.Cache
