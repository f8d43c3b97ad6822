import Verif.Spec.NsCfg
/-!
# C92: The connections to the SGSN are those that were announced last

After an announcement of the BTS, if all attempts to connect succeed, the PCU has exactly the connections that are announced, each
once, and no other. Whatever fails, no connection stays that is not announced. A connection that there is, and that is announced
again with the same NSEI, is the same connection as before.
-/

namespace Verif.NsCfg

theorem entries_told (i : Nat) (a : List (Option Entry)) : (entries i a).map (·.2) = told a := by
  induction a generalizing i with
  | nil => rfl
  | cons x a ih =>
    cases x with
    | none => exact ih (i + 1)
    | some e => simp only [entries, told, List.map_cons, ih (i + 1)]

theorem bindAll_sub (l : Lib) (sns : Bool) : ∀ (es : List (Nat × Entry)) (b : List Nat), (bindAll l sns b es).2.Sublist es
  | [], _ => List.Sublist.slnil
  | x :: xs, b => by
    unfold bindAll
    simp only
    split
    · exact (bindAll_sub l sns xs _).cons_cons x
    · exact (bindAll_sub l sns xs _).cons x

theorem bindAll_works (l : Lib) (h : ∀ i a, l.bind i a = true) : ∀ (es : List (Nat × Entry)) (b : List Nat), (bindAll l false b es).2 = es
  | [], _ => rfl
  | x :: xs, b => by
    have : (bindOne l false b x).2 = true := by
      unfold bindOne
      split
      · rfl
      · simp [h]
    unfold bindAll
    simp only [this, if_true, bindAll_works l h xs]

theorem connectAll_sub (l : Lib) : ∀ (es : List (Nat × Entry)) (n : Nat), ((connectAll l n es).map Vc.e).Sublist (es.map (·.2))
  | [], _ => List.Sublist.slnil
  | x :: xs, n => by
    unfold connectAll
    split
    · exact (connectAll_sub l xs _).cons_cons x.2
    · exact (connectAll_sub l xs _).cons x.2

theorem connectAll_works (l : Lib) (h : ∀ e, l.conn e = true) : ∀ (es : List (Nat × Entry)) (n : Nat), (connectAll l n es).map Vc.e = es.map (·.2)
  | [], _ => rfl
  | x :: xs, n => by
    unfold connectAll
    rw [if_pos (h _)]
    simp only [List.map_cons, connectAll_works l h xs]

theorem bindAll_count (l : Lib) (e : Entry) (h : ∀ i, l.bind i e.loc = true) : ∀ (es : List (Nat × Entry)) (b : List Nat),
    ((bindAll l false b es).2.map (·.2)).count e = (es.map (·.2)).count e
  | [], _ => rfl
  | x :: xs, b => by
    unfold bindAll
    simp only
    by_cases hx : x.2 = e
    · have : (bindOne l false b x).2 = true := by
        unfold bindOne
        split
        · rfl
        · simp [hx, h]
      rw [if_pos this, List.map_cons, List.map_cons, List.count_cons, List.count_cons, bindAll_count l e h xs]
    · have hc : (((x :: xs).map (·.2)).count e) = (xs.map (·.2)).count e := by
        rw [List.map_cons, List.count_cons_of_ne hx]
      rw [hc]
      split
      · rw [List.map_cons, List.count_cons_of_ne hx, bindAll_count l e h xs]
      · exact bindAll_count l e h xs _

theorem connectAll_count (l : Lib) (e : Entry) (h : l.conn e = true) : ∀ (es : List (Nat × Entry)) (n : Nat),
    ((connectAll l n es).map Vc.e).count e = (es.map (·.2)).count e
  | [], _ => rfl
  | x :: xs, n => by
    unfold connectAll
    split
    · rw [List.map_cons, List.map_cons, List.count_cons, List.count_cons, connectAll_count l e h xs]
    · rename_i hc
      rw [List.map_cons, List.count_cons_of_ne (fun hx => hc (by rw [hx]; exact h)), connectAll_count l e h xs]

theorem connectAll_ids (l : Lib) : ∀ (es : List (Nat × Entry)) (n : Nat) (v : Vc), v ∈ connectAll l n es → n ≤ v.id ∧ v.id < n + (connectAll l n es).length
  | [], _, _, h => by cases h
  | x :: xs, n, v, h => by
    unfold connectAll at h ⊢
    split at h
    · rename_i hc
      rw [if_pos hc]
      rcases List.mem_cons.1 h with h | h
      · subst h; simp
      · have := connectAll_ids l xs (n + 1) v h
        simp only [List.length_cons]; omega
    · rename_i hc
      rw [if_neg hc]
      exact connectAll_ids l xs n v h

theorem reconcile_perm : ∀ (vs : List Vc) (es : List (Nat × Entry)),
    ((reconcile vs es).1.map Vc.e ++ (reconcile vs es).2.map (·.2)).Perm (es.map (·.2))
  | [], es => by simp [reconcile]
  | v :: vs, es => by
    unfold reconcile
    cases h : es.find? (fun x => decide (x.2 = v.e)) with
    | none => exact reconcile_perm vs es
    | some x =>
      have hm := List.mem_of_find?_eq_some h
      have he := List.find?_some h
      simp only [decide_eq_true_eq] at he
      have := reconcile_perm vs (es.erase x)
      have hp := (List.perm_cons_erase hm).map (·.2)
      simp only [List.map_cons, List.cons_append] at hp ⊢
      rw [← he]
      exact (this.cons _).trans hp.symm

theorem reconcile_sub : ∀ (vs : List Vc) (es : List (Nat × Entry)), (reconcile vs es).1.Sublist vs
  | [], _ => List.Sublist.slnil
  | v :: vs, es => by
    unfold reconcile
    split
    · exact (reconcile_sub vs _).cons_cons v
    · exact (reconcile_sub vs _).cons v

/-- The connection stays, if there are not more like it than announced. -/
theorem reconcile_keeps : ∀ (vs : List Vc) (es : List (Nat × Entry)) (v : Vc), v ∈ vs →
    (vs.map Vc.e).count v.e ≤ (es.map (·.2)).count v.e → v ∈ (reconcile vs es).1
  | [], _, _, h, _ => by cases h
  | w :: vs, es, v, h, hc => by
    unfold reconcile
    cases hf : es.find? (fun x => decide (x.2 = w.e)) with
    | none =>
      have hn : w.e ∉ es.map (·.2) := by
        intro hx
        obtain ⟨x, hx, e⟩ := List.mem_map.1 hx
        have := List.find?_eq_none.1 hf x hx
        simp [e] at this
      have h0 : (es.map (·.2)).count w.e = 0 := List.count_eq_zero.2 hn
      simp only
      rcases List.mem_cons.1 h with h | h
      · subst h
        rw [List.map_cons, List.count_cons_self, h0] at hc
        omega
      · refine reconcile_keeps vs es v h (Nat.le_trans ?_ hc)
        rw [List.map_cons, List.count_cons]; omega
    | some x =>
      have hm := List.mem_of_find?_eq_some hf
      have he := List.find?_some hf
      simp only [decide_eq_true_eq] at he
      simp only
      rcases List.mem_cons.1 h with h | h
      · subst h; exact List.mem_cons_self
      · refine List.mem_cons_of_mem _ (reconcile_keeps vs _ v h ?_)
        have hp := ((List.perm_cons_erase hm).map (·.2)).count_eq v.e
        simp only [List.map_cons, List.count_cons] at hp hc
        rw [he] at hp
        omega

/-! ### Configuring -/

theorem configure_spec {l : Lib} {s t : St} {nsei : Nat} {es : List (Nat × Entry)} (h : configure l false s nsei es = some t) :
    ∃ old new, (old = [] ∨ ∃ n, s.nse = some n ∧ n.nsei = nsei ∧ old = n.vcs) ∧ (∀ n, s.nse = some n → n.nsei = nsei → old = n.vcs) ∧
      (∃ n, t.nse = some n ∧ n.nsei = nsei) ∧
      conns t = old ++ new ∧ new ≠ [] ∧ (new.map Vc.e).Sublist (es.map (·.2)) ∧ (Works l → new.map Vc.e = es.map (·.2)) ∧
      (∀ v ∈ new, s.next ≤ v.id ∧ v.id < t.next) ∧ s.next ≤ t.next ∧ (∀ e, l.conn e = true → (∀ i, l.bind i e.loc = true) → (new.map Vc.e).count e = (es.map (·.2)).count e) := by
  unfold configure at h
  split at h
  · cases h
  · simp only at h
    have fin : ∀ n : Nse, n.nsei = nsei →
        (if (bindAll l false s.binds es).2.isEmpty = true then none
          else if false = true then
            (endpoints l (bindAll l false s.binds es).2).map fun eps => { s with nse := some { n with eps := n.eps ++ eps }, binds := (bindAll l false s.binds es).1 }
          else if (connectAll l s.next (bindAll l false s.binds es).2).isEmpty = true then none
          else some { nse := some { n with vcs := n.vcs ++ connectAll l s.next (bindAll l false s.binds es).2 }, binds := (bindAll l false s.binds es).1,
                      next := s.next + (connectAll l s.next (bindAll l false s.binds es).2).length }) = some t →
        ∃ new, (∃ n, t.nse = some n ∧ n.nsei = nsei) ∧ conns t = n.vcs ++ new ∧ new ≠ [] ∧ (new.map Vc.e).Sublist (es.map (·.2)) ∧
          (Works l → new.map Vc.e = es.map (·.2)) ∧ (∀ v ∈ new, s.next ≤ v.id ∧ v.id < t.next) ∧ s.next ≤ t.next ∧ (∀ e, l.conn e = true → (∀ i, l.bind i e.loc = true) → (new.map Vc.e).count e = (es.map (·.2)).count e) := by
      intro n hn hx
      split at hx
      · cases hx
      · rw [if_neg (by simp)] at hx
        split at hx
        · cases hx
        · rename_i hne
          simp only [Option.some.injEq] at hx
          subst hx
          refine ⟨connectAll l s.next (bindAll l false s.binds es).2, ⟨_, rfl, hn⟩, rfl, ?_, ?_, ?_, ?_, Nat.le_add_right _ _, ?_⟩
          · intro e; rw [e] at hne; simp at hne
          · exact (connectAll_sub l _ _).trans ((bindAll_sub l false es s.binds).map _)
          · rintro ⟨_, w2, w3⟩
            rw [connectAll_works l w3, bindAll_works l w2]
          · exact fun v hv => connectAll_ids l _ _ v hv
          · intro e he hb
            rw [connectAll_count l e he, bindAll_count l e hb]
    split at h
    · cases h
    · rename_i n hm
      cases hs : s.nse with
      | none =>
        rw [hs] at hm
        simp only at hm
        split at hm
        · cases hm
          obtain ⟨new, h1, h2, h3⟩ := fin ⟨nsei, [], []⟩ rfl h
          exact ⟨[], new, Or.inl rfl, fun n hn => (by cases hn), h1, h2, h3⟩
        · cases hm
      | some m =>
        rw [hs] at hm
        simp only at hm
        split at hm
        · rename_i he
          cases hm
          obtain ⟨new, h1, h2, h3⟩ := fin n he h
          exact ⟨n.vcs, new, Or.inr ⟨n, rfl, he, rfl⟩, fun k hk _ => (by cases hk; rfl), h1, h2, h3⟩
        · rename_i he
          split at hm
          · cases hm
            obtain ⟨new, h1, h2, h3⟩ := fin ⟨nsei, [], []⟩ rfl h
            exact ⟨[], new, Or.inl rfl, fun k hk e => (by cases hk; exact absurd e he), h1, h2, h3⟩
          · cases hm

/-- Everything about one announcement. -/
theorem announce_spec {l : Lib} {s t : St} {nsei : Nat} {a : List (Option Entry)} (h : announce l false 0 s nsei a = some t) :
    (∃ n, t.nse = some n ∧ n.nsei = nsei) ∧ conns t ≠ [] ∧
    (∃ rest, ((conns t).map Vc.e ++ rest).Perm (told a)) ∧ (Works l → ((conns t).map Vc.e).Perm (told a)) ∧
    (∀ n, s.nse = some n → n.nsei = nsei → ∀ v ∈ n.vcs, (n.vcs.map Vc.e).count v.e ≤ (told a).count v.e → v ∈ conns t) ∧
    (∀ v ∈ conns t, v ∈ conns s ∨ s.next ≤ v.id) ∧ s.next ≤ t.next ∧ (∀ v ∈ conns t, v ∈ conns s ∨ v.id < t.next) ∧
    (∀ e, l.conn e = true → (∀ i, l.bind i e.loc = true) → ((conns t).map Vc.e).count e = (told a).count e) := by
  unfold announce at h
  split at h
  · cases h
  · rename_i hne
    have hne : entries 0 a ≠ [] := fun e => by rw [e] at hne; simp at hne
    rw [← entries_told 0 a]
    -- the PCU starts anew
    have anew : (∀ n, s.nse = some n → n.nsei ≠ nsei) → configure l false { s with nse := none, binds := [] } nsei (entries 0 a) = some t →
        (∃ n, t.nse = some n ∧ n.nsei = nsei) ∧ conns t ≠ [] ∧
        (∃ rest, ((conns t).map Vc.e ++ rest).Perm ((entries 0 a).map (·.2))) ∧ (Works l → ((conns t).map Vc.e).Perm ((entries 0 a).map (·.2))) ∧
        (∀ n, s.nse = some n → n.nsei = nsei → ∀ v ∈ n.vcs, (n.vcs.map Vc.e).count v.e ≤ ((entries 0 a).map (·.2)).count v.e → v ∈ conns t) ∧
        (∀ v ∈ conns t, v ∈ conns s ∨ s.next ≤ v.id) ∧ s.next ≤ t.next ∧ (∀ v ∈ conns t, v ∈ conns s ∨ v.id < t.next) ∧
        (∀ e, l.conn e = true → (∀ i, l.bind i e.loc = true) → ((conns t).map Vc.e).count e = ((entries 0 a).map (·.2)).count e) := by
      intro hd hx
      obtain ⟨old, new, h1, _, h3, h4, h5, h6, h7, h8, h9, h10⟩ := configure_spec hx
      have ho : old = [] := by
        rcases h1 with h1 | ⟨n, hn, _⟩
        · exact h1
        · cases hn
      rw [ho, List.nil_append] at h4
      rw [h4]
      refine ⟨h3, h5, ?_, fun w => by rw [h7 w], fun n hn e => absurd e (hd n hn), fun v hv => Or.inr (h8 v hv).1, h9, fun v hv => Or.inr (h8 v hv).2, h10⟩
      obtain ⟨r, hr⟩ := h6.exists_perm_append
      exact ⟨r, hr.symm⟩
    unfold update at h
    cases hs : s.nse with
    | none =>
      rw [hs] at h
      rw [← hs]
      exact anew (fun n hn => by rw [hs] at hn; cases hn) h
    | some n =>
      rw [hs] at h
      simp only at h
      split at h
      · rename_i hd
        rw [← hs]
        exact anew (fun m hm e => by rw [hs] at hm; cases hm; exact hd e.symm) h
      · rename_i hd
        have hd : nsei = n.nsei := Classical.byContradiction hd
        rw [if_neg (by simp)] at h
        have hp := reconcile_perm n.vcs (entries 0 a)
        have hb := reconcile_sub n.vcs (entries 0 a)
        have hk := reconcile_keeps n.vcs (entries 0 a)
        have hcs : conns s = n.vcs := by unfold conns; rw [hs]
        rw [hcs]
        split at h
        · rename_i he
          have he : (reconcile n.vcs (entries 0 a)).2 = [] := List.isEmpty_iff.1 he
          rw [he, List.map_nil, List.append_nil] at hp
          simp only [Option.some.injEq] at h
          subst h
          refine ⟨⟨_, rfl, hd.symm⟩, ?_, ⟨[], ?_⟩, fun _ => hp, ?_, fun v hv => Or.inl (hb.subset hv), Nat.le_refl _, fun v hv => Or.inl (hb.subset hv), fun e _ _ => hp.count_eq e⟩
          · intro e
            have e : (reconcile n.vcs (entries 0 a)).1 = [] := e
            rw [e] at hp
            exact hne (List.map_eq_nil_iff.1 hp.symm.eq_nil)
          · rw [List.append_nil]; exact hp
          · intro m hm _ v hv hc
            cases hm
            exact hk v hv hc
        · obtain ⟨old, new, _, h2, h3, h4, h5, h6, h7, h8, h9, h10⟩ := configure_spec h
          have ho := h2 _ rfl hd.symm
          simp only at ho
          rw [ho] at h4
          rw [h4]
          refine ⟨h3, ?_, ?_, ?_, ?_, ?_, h9, ?_, ?_⟩
          · intro e
            exact h5 (List.append_eq_nil_iff.1 e).2
          · obtain ⟨r, hr⟩ := h6.exists_perm_append
            refine ⟨r, ?_⟩
            rw [List.map_append, List.append_assoc]
            exact (hr.symm.append_left _).trans hp
          · intro w
            rw [List.map_append, h7 w]
            exact hp
          · intro m hm _ v hv hc
            cases hm
            exact List.mem_append_left _ (hk v hv hc)
          · intro v hv
            rcases List.mem_append.1 hv with hv | hv
            · exact Or.inl (hb.subset hv)
            · exact Or.inr (h8 v hv).1
          · intro v hv
            rcases List.mem_append.1 hv with hv | hv
            · exact Or.inl (hb.subset hv)
            · exact Or.inr (h8 v hv).2
          · intro e he hb'
            rw [← hp.count_eq e, List.map_append, List.count_append, List.count_append, h10 e he hb']

/-! ### The property -/

theorem ids_below {s : St} {p} (h : Reach s p) : ∀ v ∈ conns s, v.id < s.next := by
  induction h with
  | start => intro v hv; cases hv
  | told l nsei a _ ha ih =>
    obtain ⟨_, _, _, _, _, _, h9, h8, _⟩ := announce_spec ha
    intro v hv
    rcases h8 v hv with h | h
    · exact Nat.lt_of_lt_of_le (ih v h) h9
    · exact h

/-- **C92**: when the library does what it is asked for, the PCU goes on, and its connections are those that were announced, each as
often as announced, with the NSEI that was announced; whatever happened before. -/
theorem C92_exact_partial {l : Lib} {s : St} {p} (_ : Reach s p) (nsei : Nat) (a : List (Option Entry)) (w : Works l) (ha : told a ≠ []) :
    ∃ t n, announce l false 0 s nsei a = some t ∧ t.nse = some n ∧ n.nsei = nsei ∧ (n.vcs.map Vc.e).Perm (told a) := by
  have hne : entries 0 a ≠ [] := fun e => ha (by rw [← entries_told 0 a, e]; rfl)
  have conf : ∀ (s : St) (es : List (Nat × Entry)), es ≠ [] → configure l false s nsei es ≠ none := by
    intro s es he
    obtain ⟨w1, w2, w3⟩ := w
    have hc : connectAll l s.next es ≠ [] := by
      intro e
      have := connectAll_works l w3 es s.next
      rw [e] at this
      exact he (List.map_eq_nil_iff.1 this.symm)
    unfold configure
    rw [if_neg (by simpa using he)]
    simp only [w1, if_true, bindAll_works l w2]
    split
    · rename_i hx
      split at hx
      · split at hx <;> cases hx
      · cases hx
    · rw [if_neg (by simpa using he), if_neg (by simp), if_neg (by simpa using hc)]
      simp
  have go : announce l false 0 s nsei a ≠ none := by
    unfold announce
    rw [if_neg (by simpa using hne)]
    unfold update
    split
    · exact conf _ _ hne
    · simp only
      split
      · exact conf _ _ hne
      · rw [if_neg (by simp)]
        split
        · simp
        · rename_i hx
          exact conf _ _ (by simpa using hx)
  cases hx : announce l false 0 s nsei a with
  | none => exact absurd hx go
  | some t =>
    obtain ⟨⟨n, h1, h2⟩, _, _, h4, _⟩ := announce_spec hx
    refine ⟨t, n, rfl, h1, h2, ?_⟩
    have := h4 w
    unfold conns at this
    rw [h1] at this
    exact this

/-- **C92**: whatever failed and in whatever history, while the PCU runs it has no connection that was not in the last announcement,
none more often than announced, at least one, and the NSEI of the last announcement. -/
theorem C92_only {s : St} {nsei : Nat} {a : List (Option Entry)} (h : Reach s (some (nsei, a))) :
    ∃ n, s.nse = some n ∧ n.nsei = nsei ∧ n.vcs ≠ [] ∧ ∀ e, (n.vcs.map Vc.e).count e ≤ (told a).count e := by
  cases h with
  | told l _ _ _ ha =>
    obtain ⟨⟨n, h1, h2⟩, h3, ⟨r, hr⟩, _⟩ := announce_spec ha
    unfold conns at h3 hr
    rw [h1] at h3 hr
    refine ⟨n, h1, h2, h3, fun e => ?_⟩
    rw [← hr.count_eq e, List.count_append]
    exact Nat.le_add_right _ _

/-- **C92**: a failure concerns no other connection: each one that is announced, and for which the library does what it is asked for,
is there while the PCU runs, as often as announced. -/
theorem C92_made {l : Lib} {s t : St} {p} {nsei : Nat} {a : List (Option Entry)} (_ : Reach s p) (h : announce l false 0 s nsei a = some t)
    (e : Entry) (hc : l.conn e = true) (hb : ∀ i, l.bind i e.loc = true) : ((conns t).map Vc.e).count e = (told a).count e :=
  (announce_spec h).2.2.2.2.2.2.2.2 e hc hb

theorem bindOne_local (l : Lib) (sns : Bool) (b : List Nat) (x : Nat × Entry) :
    (∀ a, a ∈ (bindOne l sns b x).1 → a ∈ b ∨ ∃ i, l.bind i a = true) ∧
    ((bindOne l sns b x).2 = true → x.2.loc ∈ b ∨ ∃ i, l.bind i x.2.loc = true) := by
  unfold bindOne
  split
  · rename_i h
    exact ⟨fun a ha => .inl ha, fun _ => .inl h⟩
  · split
    · exact ⟨fun a ha => .inl ha, fun h => by cases h⟩
    · rename_i h
      have hb : l.bind x.1 x.2.loc = true := by simpa using h
      refine ⟨fun a ha => ?_, fun _ => .inr ⟨x.1, hb⟩⟩
      rcases List.mem_cons.1 ha with ha | ha
      · exact .inr ⟨x.1, by rw [ha]; exact hb⟩
      · exact .inl ha

theorem bindAll_local (l : Lib) (sns : Bool) : ∀ (es : List (Nat × Entry)) (b : List Nat) (x : Nat × Entry), x ∈ (bindAll l sns b es).2 →
    x.2.loc ∈ b ∨ ∃ i, l.bind i x.2.loc = true
  | [], _, _, h => by cases h
  | y :: ys, b, x, h => by
    unfold bindAll at h
    simp only at h
    obtain ⟨h1, h2⟩ := bindOne_local l sns b y
    have tail : x ∈ (bindAll l sns (bindOne l sns b y).1 ys).2 → x.2.loc ∈ b ∨ ∃ i, l.bind i x.2.loc = true := by
      intro hx
      rcases bindAll_local l sns ys _ x hx with hx | hx
      · exact h1 _ hx
      · exact .inr hx
    split at h
    · rename_i hy
      rcases List.mem_cons.1 h with h | h
      · rw [h]; exact h2 hy
      · exact tail h
    · exact tail h

theorem connectAll_local (l : Lib) : ∀ (es : List (Nat × Entry)) (n : Nat) (v : Vc), v ∈ connectAll l n es → l.conn v.e = true ∧ ∃ x ∈ es, x.2 = v.e
  | [], _, _, h => by cases h
  | y :: ys, n, v, h => by
    unfold connectAll at h
    split at h
    · rename_i hc
      rcases List.mem_cons.1 h with h | h
      · rw [h]; exact ⟨hc, y, List.mem_cons_self, rfl⟩
      · obtain ⟨h1, x, h2, h3⟩ := connectAll_local l ys _ v h
        exact ⟨h1, x, List.mem_cons_of_mem _ h2, h3⟩
    · obtain ⟨h1, x, h2, h3⟩ := connectAll_local l ys _ v h
      exact ⟨h1, x, List.mem_cons_of_mem _ h2, h3⟩

theorem configure_local {l : Lib} {s t : St} {nsei : Nat} {es : List (Nat × Entry)} (h : configure l false s nsei es = some t) (v : Vc)
    (hv : v ∈ conns t) : v ∈ conns s ∨ (l.conn v.e = true ∧ (v.e.loc ∈ s.binds ∨ ∃ i, l.bind i v.e.loc = true)) := by
  unfold configure at h
  split at h
  · cases h
  · simp only at h
    split at h
    · cases h
    · rename_i n hn
      split at h
      · cases h
      · simp only [Bool.false_eq_true, if_false] at h
        split at h
        · cases h
        · simp only [Option.some.injEq] at h
          subst h
          have hv : v ∈ n.vcs ++ connectAll l s.next (bindAll l false s.binds es).2 := hv
          rcases List.mem_append.1 hv with hv | hv
          · left
            unfold conns
            cases hs : s.nse with
            | none =>
              rw [hs] at hn
              simp only at hn
              split at hn
              · cases hn; cases hv
              · cases hn
            | some n0 =>
              rw [hs] at hn
              simp only at hn
              split at hn
              · cases hn; exact hv
              · split at hn
                · cases hn; cases hv
                · cases hn
          · right
            obtain ⟨h1, x, h2, h3⟩ := connectAll_local l _ _ v hv
            refine ⟨h1, ?_⟩
            rw [← h3]
            exact bindAll_local l false _ _ x h2

/-- **C92**: a connection that is made is made from a local address that the PCU could open, now or before, and by a call that succeeded. -/
theorem C92_local {l : Lib} {s t : St} {p} {nsei : Nat} {a : List (Option Entry)} (_ : Reach s p) (h : announce l false 0 s nsei a = some t)
    (v : Vc) (hv : v ∈ conns t) : v ∈ conns s ∨ (l.conn v.e = true ∧ (v.e.loc ∈ s.binds ∨ ∃ i, l.bind i v.e.loc = true)) := by
  have fresh : ∀ es, configure l false { s with nse := none, binds := [] } nsei es = some t →
      v ∈ conns s ∨ (l.conn v.e = true ∧ (v.e.loc ∈ s.binds ∨ ∃ i, l.bind i v.e.loc = true)) := by
    intro es hc
    rcases configure_local hc v hv with hx | ⟨h1, h2⟩
    · cases hx
    · refine .inr ⟨h1, h2.imp (fun hx => ?_) id⟩
      cases hx
  unfold announce at h
  split at h
  · cases h
  · unfold update at h
    split at h
    · exact fresh _ h
    · rename_i n hn
      split at h
      · exact fresh _ h
      · simp only [Bool.false_eq_true, if_false] at h
        have sub : ∀ w, w ∈ (reconcile n.vcs (entries 0 a)).1 → w ∈ conns s := by
          intro w hw
          unfold conns
          rw [hn]
          exact (reconcile_sub _ _).subset hw
        split at h
        · cases h
          exact .inl (sub v hv)
        · rcases configure_local h v hv with hx | hx
          · exact .inl (sub v hx)
          · exact .inr hx

/-- **C92**: a connection that there is stays the same one when it is announced again with the same NSEI (as often as it was), and a
connection that is made is none of those there were. -/
theorem C92_kept {l : Lib} {s t : St} {nsei : Nat} {a b : List (Option Entry)} (h : Reach s (some (nsei, a)))
    (ht : announce l false 0 s nsei b = some t) :
    (∀ v ∈ conns s, (told a).count v.e ≤ (told b).count v.e → v ∈ conns t) ∧
    (∀ v ∈ conns t, v ∉ conns s → ∀ w ∈ conns s, w.id ≠ v.id) := by
  obtain ⟨n, h1, h2, _, h4⟩ := C92_only h
  obtain ⟨_, _, _, _, h5, h6, _⟩ := announce_spec ht
  have hc : conns s = n.vcs := by unfold conns; rw [h1]
  constructor
  · intro v hv hle
    rw [hc] at hv
    exact h5 n h1 h2 v hv (Nat.le_trans (h4 v.e) hle)
  · intro v hv hn w hw e
    have := ids_below h w hw
    rcases h6 v hv with h | h
    · exact hn h
    · omega

/-- **C92**: the same announcement again, when all its connections could be made, changes nothing, whatever the library would do. -/
theorem C92_again {l k : Lib} {s t : St} {p} {nsei : Nat} {a : List (Option Entry)} (_ : Reach s p) (w : Works l)
    (ht : announce l false 0 s nsei a = some t) : announce k false 0 t nsei a = some t := by
  obtain ⟨⟨n, h1, h2⟩, h3, _, h4, _⟩ := announce_spec ht
  have hp := h4 w
  have hc : conns t = n.vcs := by unfold conns; rw [h1]
  rw [hc] at hp h3
  rw [← entries_told 0 a] at hp
  have hne : entries 0 a ≠ [] := fun e => by
    rw [e] at hp
    exact h3 (List.map_eq_nil_iff.1 hp.eq_nil)
  have hall : ∀ v ∈ n.vcs, v ∈ (reconcile n.vcs (entries 0 a)).1 :=
    fun v hv => reconcile_keeps _ _ v hv (Nat.le_of_eq (hp.count_eq v.e))
  have hr := reconcile_perm n.vcs (entries 0 a)
  have full : ∀ (vs : List Vc) (es : List (Nat × Entry)), (∀ e, (vs.map Vc.e).count e ≤ (es.map (·.2)).count e) → (reconcile vs es).1 = vs := by
    intro vs
    induction vs with
    | nil => intro es _; rfl
    | cons v vs ih =>
      intro es hle
      unfold reconcile
      cases hf : es.find? (fun x => decide (x.2 = v.e)) with
      | none =>
        have hn : v.e ∉ es.map (·.2) := by
          intro hx
          obtain ⟨x, hx, e⟩ := List.mem_map.1 hx
          have := List.find?_eq_none.1 hf x hx
          simp [e] at this
        have := hle v.e
        rw [List.map_cons, List.count_cons_self, List.count_eq_zero.2 hn] at this
        omega
      | some x =>
        have hm := List.mem_of_find?_eq_some hf
        have he := List.find?_some hf
        simp only [decide_eq_true_eq] at he
        simp only
        rw [ih]
        intro e
        have hq := ((List.perm_cons_erase hm).map (·.2)).count_eq e
        have := hle e
        simp only [List.map_cons, List.count_cons] at hq this
        rw [he] at hq
        omega
  have hf := full n.vcs (entries 0 a) (fun e => Nat.le_of_eq (hp.count_eq e))
  have h0 : (reconcile n.vcs (entries 0 a)).2 = [] := by
    rw [hf] at hr
    have h := hr.length_eq
    have h' := hp.length_eq
    simp only [List.length_append, List.length_map] at h h'
    exact List.length_eq_zero_iff.1 (by omega)
  unfold announce
  rw [if_neg (by simpa using hne)]
  unfold update
  rw [h1]
  simp only
  rw [if_neg (by simp [h2]), if_neg (by simp), h0, hf]
  cases t
  simp only at h1
  simp [h1]

/-- **C92** is not all of it: when one of two connections cannot be made the PCU goes on with the other one, but when the BTS then
announces the same again, and the same connection still cannot be made, the PCU ends, and with it the connection that works. -/
theorem C92_fails : ∃ (l : Lib) (s t : St) (a : List (Option Entry)), Reach s none ∧ announce l false 0 s 101 a = some t ∧
    (conns t).length = 1 ∧ announce l false 0 t 101 a = none :=
  ⟨{ conn := fun e => e.rem = 7 }, ⟨none, [], 0⟩, ⟨some ⟨101, [⟨0, ⟨23000, 7, 1⟩⟩], []⟩, [23000], 1⟩,
    [some ⟨23000, 7, 1⟩, some ⟨23000, 8, 2⟩], .start, by decide, by decide, by decide⟩

/-! ### IP-SNS -/

theorem endpoints_eq (l : Lib) : ∀ (es : List (Nat × Entry)) (r : List Nat), endpoints l es = some r → r = es.map (·.2.rem)
  | [], r, h => by cases h; rfl
  | x :: xs, r, h => by
    unfold endpoints at h
    split at h
    · cases hx : endpoints l xs with
      | none => rw [hx] at h; cases h
      | some q =>
        rw [hx] at h
        simp only [Option.map_some, Option.some.injEq] at h
        rw [← h, endpoints_eq l xs q hx, List.map_cons]
    · cases h

theorem configure_sns {l : Lib} {s t : St} {nsei : Nat} {es : List (Nat × Entry)} (hs : s.nse = none) (h : configure l true s nsei es = some t) :
    ∃ n, t.nse = some n ∧ n.nsei = nsei ∧ n.eps ≠ [] ∧ ∀ r ∈ n.eps, ∃ x ∈ es, x.2.rem = r := by
  unfold configure at h
  rw [hs] at h
  simp only at h
  split at h
  · cases h
  · split at h
    · cases h
    · rename_i n hn
      split at hn
      · cases hn
        split at h
        · cases h
        · rename_i hb
          rw [if_pos trivial] at h
          cases hx : endpoints l (bindAll l true s.binds es).2 with
          | none => rw [hx] at h; cases h
          | some q =>
            rw [hx] at h
            simp only [Option.map_some, Option.some.injEq, List.nil_append] at h
            subst h
            have hq := endpoints_eq l _ _ hx
            refine ⟨_, rfl, rfl, ?_, ?_⟩
            · simp only
              intro e
              rw [e] at hq
              have := List.map_eq_nil_iff.1 hq.symm
              rw [this] at hb
              simp at hb
            · intro r hr
              simp only [hq] at hr
              obtain ⟨x, hx, e⟩ := List.mem_map.1 hr
              exact ⟨x, (bindAll_sub l true es s.binds).subset hx, e⟩
      · cases hn

/-- **C92** with IP-SNS (the SGSN says which connections there are): after an announcement either nothing has changed, the NSEI is the
same and the SGSN that the PCU uses (`initial`) is still announced, or the PCU only knows SGSNs of this announcement, and at least one. -/
theorem C92_sns {l : Lib} {s t : St} {initial nsei : Nat} {a : List (Option Entry)} (h : announce l true initial s nsei a = some t) :
    (t = s ∧ (∃ n, s.nse = some n ∧ n.nsei = nsei) ∧ ∃ e ∈ told a, e.rem = initial) ∨
    ∃ n, t.nse = some n ∧ n.nsei = nsei ∧ n.eps ≠ [] ∧ ∀ r ∈ n.eps, ∃ e ∈ told a, e.rem = r := by
  have tell : ∀ x ∈ entries 0 a, x.2 ∈ told a := by
    intro x hx
    rw [← entries_told 0 a]
    exact List.mem_map_of_mem hx
  have fin : configure l true { s with nse := none, binds := [] } nsei (entries 0 a) = some t →
      ∃ n, t.nse = some n ∧ n.nsei = nsei ∧ n.eps ≠ [] ∧ ∀ r ∈ n.eps, ∃ e ∈ told a, e.rem = r := by
    intro hc
    obtain ⟨n, h1, h2, h3, h4⟩ := configure_sns rfl hc
    refine ⟨n, h1, h2, h3, fun r hr => ?_⟩
    obtain ⟨x, hx, e⟩ := h4 r hr
    exact ⟨x.2, tell x hx, e⟩
  unfold announce at h
  split at h
  · cases h
  · unfold update at h
    split at h
    · exact Or.inr (fin h)
    · rename_i n hn
      split at h
      · exact Or.inr (fin h)
      · rename_i hd
        rw [if_pos rfl] at h
        split at h
        · rename_i hy
          cases h
          obtain ⟨x, hx, e⟩ := List.any_eq_true.1 hy
          exact Or.inl ⟨rfl, ⟨n, hn, (Classical.byContradiction hd : nsei = n.nsei).symm⟩, x.2, tell x hx, by simpa using e⟩
        · exact Or.inr (fin h)

/-- With IP-SNS a changed local address is not taken over while the SGSN is the same. -/
theorem C92_sns_local_fails : ∃ (l : Lib) (s t : St) (e e' : Entry), announce l true 0 ⟨none, [], 0⟩ 101 [some e] = some s ∧
    announce l true e.rem s 101 [some e'] = some t ∧ e'.rem = e.rem ∧ e'.loc ≠ e.loc ∧ t = s ∧ e'.loc ∉ t.binds :=
  ⟨{}, ⟨some ⟨101, [], [7]⟩, [23000], 0⟩, _, ⟨23000, 7, 1⟩, ⟨23001, 7, 1⟩, by decide, rfl, rfl, by decide, by decide, by decide⟩

/-! ### Non-vacuity -/

def exA : List (Option Entry) := [some ⟨23000, 7, 1⟩, some ⟨23000, 8, 2⟩]
def exS : St := ⟨some ⟨101, [⟨0, ⟨23000, 7, 1⟩⟩, ⟨1, ⟨23000, 8, 2⟩⟩], []⟩, [23000], 2⟩

/-- Two connections are made. -/
example : Works {} ∧ Reach exS (some (101, exA)) :=
  ⟨⟨rfl, fun _ _ => rfl, fun _ => rfl⟩, .told {} 101 exA .start (by decide)⟩
/-- One of them is replaced: the other stays (number 0), the new one is number 2. -/
example : announce {} false 0 exS 101 [some ⟨23000, 9, 2⟩, some ⟨23000, 7, 1⟩] =
    some ⟨some ⟨101, [⟨0, ⟨23000, 7, 1⟩⟩, ⟨2, ⟨23000, 9, 2⟩⟩], []⟩, [23000], 3⟩ := by decide
/-- Only one is announced: the other is removed. -/
example : announce {} false 0 exS 101 [none, some ⟨23000, 8, 2⟩] =
    some ⟨some ⟨101, [⟨1, ⟨23000, 8, 2⟩⟩], []⟩, [23000], 2⟩ := by decide
/-- Another NSEI: all are made anew. -/
example : announce {} false 0 exS 102 exA =
    some ⟨some ⟨102, [⟨2, ⟨23000, 7, 1⟩⟩, ⟨3, ⟨23000, 8, 2⟩⟩], []⟩, [23000], 4⟩ := by decide
/-- IP-SNS with another SGSN. -/
example : announce {} true 7 ⟨some ⟨101, [], [7]⟩, [23000], 0⟩ 101 [some ⟨23000, 8, 1⟩] = some ⟨some ⟨101, [], [8]⟩, [23000], 0⟩ := by decide

end Verif.NsCfg
