import Verif.Lemmas.Vty
/-!
# What commands keep, and the whole file
-/

namespace Verif.Vty

set_option maxRecDepth 4000

/-- What `argv` looks like when a line fits. -/
def ok : List Pat → List Tok → Prop
  | [], a => a = []
  | .lit _ :: ps, a => ok ps a
  | .rng lo hi :: ps, a => ∃ v r, a = .n v :: r ∧ lo ≤ v ∧ v ≤ hi ∧ ok ps r
  | .one ss :: ps, a => ∃ t r, a = .w t :: r ∧ t ∈ ss ∧ ok ps r
  | .alt s lo hi :: ps, a => (∃ v r, a = .n v :: r ∧ lo ≤ v ∧ v ≤ hi ∧ ok ps r) ∨ ∃ r, a = .w s :: r ∧ ok ps r
  | .var :: ps, a => ∃ t r, a = t :: r ∧ ok ps r
  | .optRng lo hi :: ps, a => (∃ v r, a = .n v :: r ∧ lo ≤ v ∧ v ≤ hi ∧ ok ps r) ∨ ok ps a
  | .optVar :: ps, a => (∃ t r, a = t :: r ∧ ok ps r) ∨ ok ps a
  | .optAlt s lo hi :: ps, a => (∃ v r, a = .n v :: r ∧ lo ≤ v ∧ v ≤ hi ∧ ok ps r) ∨ (∃ r, a = .w s :: r ∧ ok ps r) ∨ ok ps a

theorem ok_of_fits : ∀ (ps : List Pat) (l : Line) (a : List Tok), fits ps l = some a → ok ps a := by
  intro ps
  induction ps with
  | nil =>
    intro l a h
    cases l with
    | nil => simp only [fits, Option.some.injEq] at h; exact h.symm
    | cons t ts => simp [fits] at h
  | cons p ps ih =>
    intro l a h
    cases l with
    | nil =>
      cases p <;> simp only [fits, reduceCtorEq] at h
      · exact Or.inr (ih _ _ h)
      · exact Or.inr (ih _ _ h)
      · exact Or.inr (Or.inr (ih _ _ h))
    | cons t ts =>
      have h' : (match arg p t with | none => none | some a => match fits ps ts with | none => none | some r => some (a ++ r)) = some a := by
        cases p <;> exact h
      cases ha : arg p t with
      | none => rw [ha] at h'; cases h'
      | some b =>
        cases hf : fits ps ts with
        | none => rw [ha, hf] at h'; cases h'
        | some r =>
          rw [ha, hf] at h'
          dsimp only at h'
          injection h' with h'
          subst h'
          have hr := ih _ _ hf
          cases p with
          | lit s =>
            cases t with
            | w x =>
              simp only [arg] at ha
              split at ha
              · injection ha with ha; subst ha; exact hr
              · cases ha
            | n x => cases ha
          | rng lo hi =>
            cases t with
            | w x => cases ha
            | n x =>
              simp only [arg] at ha
              split at ha
              · rename_i hb
                injection ha with ha; subst ha; exact ⟨x, r, rfl, hb.1, hb.2, hr⟩
              · cases ha
          | one ss =>
            cases t with
            | w x =>
              simp only [arg] at ha
              split at ha
              · rename_i hb
                injection ha with ha; subst ha; exact ⟨x, r, rfl, hb, hr⟩
              · cases ha
            | n x => cases ha
          | alt s lo hi =>
            cases t with
            | w x =>
              simp only [arg] at ha
              split at ha
              · rename_i hb
                injection ha with ha; subst ha; subst hb; exact Or.inr ⟨r, rfl, hr⟩
              · cases ha
            | n x =>
              simp only [arg] at ha
              split at ha
              · rename_i hb
                injection ha with ha; subst ha; exact Or.inl ⟨x, r, rfl, hb.1, hb.2, hr⟩
              · cases ha
          | var =>
            have : b = [t] := by cases t <;> (injection ha with ha; exact ha.symm)
            subst this; exact ⟨t, r, rfl, hr⟩
          | optRng lo hi =>
            cases t with
            | w x => cases ha
            | n x =>
              simp only [arg] at ha
              split at ha
              · rename_i hb
                injection ha with ha; subst ha; exact Or.inl ⟨x, r, rfl, hb.1, hb.2, hr⟩
              · cases ha
          | optVar =>
            have : b = [t] := by cases t <;> (injection ha with ha; exact ha.symm)
            subst this; exact Or.inl ⟨t, r, rfl, hr⟩
          | optAlt s lo hi =>
            cases t with
            | w x =>
              simp only [arg] at ha
              split at ha
              · rename_i hb
                injection ha with ha; subst ha; subst hb; exact Or.inr (Or.inl ⟨r, rfl, hr⟩)
              · cases ha
            | n x =>
              simp only [arg] at ha
              split at ha
              · rename_i hb
                injection ha with ha; subst ha; exact Or.inl ⟨x, r, rfl, hb.1, hb.2, hr⟩
              · cases ha

/-- An accepted line is one of the commands with suitable arguments. -/
theorem exec_cases {c c' : Cfg} {l : Line} (h : exec c l = some c') : ∃ k ∈ cmds, ∃ a, fits k.pat l = some a ∧ k.run c a = some c' := by
  unfold exec at h
  cases hf : cmds.findSome? (fun k => (fits k.pat l).map (k.run c)) with
  | none => rw [hf] at h; cases h
  | some r =>
    rw [hf] at h
    have hr : r = some c' := h
    obtain ⟨k, hk, he⟩ := List.exists_of_findSome?_eq_some hf
    cases hx : fits k.pat l with
    | none => rw [hx] at he; cases he
    | some a =>
      rw [hx] at he
      have : k.run c a = r := by simpa using he
      exact ⟨k, hk, a, hx, by rw [this, hr]⟩

/-- What holds in all configurations: the ranges, and the caches know the timers. -/
structure Good (c : Cfg) : Prop extends Valid c where
  neigh : c.neighKeep = c.timers "X10"
  si : c.siKeep = c.timers "X11"

theorem tdefault_unknown {name : String} (h : tdef name = none) : tdefault name = 0 := by simp [tdefault, h]

theorem good_setTimer {c c' : Cfg} {name : String} {v : Nat} (g : Good c) (hn : name ≠ "X10" ∧ name ≠ "X11") (hv : v ≤ 2147483647)
    (h : setTimer c name v = some c') : Good c' := by
  unfold setTimer at h
  cases ht : tdef name with
  | none => rw [ht] at h; cases h
  | some p =>
    obtain ⟨d, mx⟩ := p
    rw [ht] at h
    dsimp only at h
    split at h
    · cases h
    · rename_i hx
      injection h with h
      subst h
      refine { g with timers := ?_, t3172 := ?_, unknown := ?_, neigh := ?_, si := ?_ }
      · intro k
        dsimp only
        split
        · exact hv
        · exact g.timers k
      · dsimp only
        split
        · rename_i he
          subst he
          have : tdef "T3172" = some (5000, 255000) := by decide
          rw [this] at ht
          injection ht with ht
          injection ht with _ ht
          omega
        · exact g.t3172
      · intro k hk
        dsimp only
        split
        · rename_i he
          rw [he, ht] at hk; cases hk
        · exact g.unknown k hk
      · dsimp only
        rw [if_neg (fun h => hn.1 h.symm)]; exact g.neigh
      · dsimp only
        rw [if_neg (fun h => hn.2 h.symm)]; exact g.si


theorem good_timerCmd {c c' : Cfg} {a : List Tok} (g : Good c) (ho : ok [.optVar, .optAlt "default" 0 2147483647] a)
    (h : timerCmd c a = some c') : Good c' := by
  have key : ∀ name v, v ≤ 2147483647 → (match setTimer c name v with
      | none => none
      | some c => if name = "X10" then some { c with neighKeep := c.timers name }
        else if name = "X11" then some { c with siKeep := c.timers name } else some c) = some c' → Good c' := by
    intro name v hv h
    by_cases h1 : name = "X10"
    · subst h1
      have ht : tdef "X10" = some (5, 0) := by decide
      simp only [setTimer, ht] at h
      simp only [ne_eq, not_true_eq_false, false_and, if_false, if_true, Option.some.injEq] at h
      subst h
      refine { g with timers := ?_, t3172 := ?_, unknown := ?_, neigh := ?_, si := ?_ }
      · intro k
        dsimp only
        split
        · exact hv
        · exact g.timers k
      · exact g.t3172
      · intro k hk
        dsimp only
        rw [if_neg (by intro e; rw [e, ht] at hk; cases hk)]; exact g.unknown k hk
      · simp
      · exact g.si
    · by_cases h2 : name = "X11"
      · subst h2
        have ht : tdef "X11" = some (5, 0) := by decide
        simp only [setTimer, ht] at h
        simp only [ne_eq, not_true_eq_false, false_and, if_false, if_true, Option.some.injEq, String.reduceEq] at h
        subst h
        refine { g with timers := ?_, t3172 := ?_, unknown := ?_, neigh := ?_, si := ?_ }
        · intro k
          dsimp only
          split
          · exact hv
          · exact g.timers k
        · exact g.t3172
        · intro k hk
          dsimp only
          rw [if_neg (by intro e; rw [e, ht] at hk; cases hk)]; exact g.unknown k hk
        · exact g.neigh
        · simp
      · cases hs : setTimer c name v with
        | none => rw [hs] at h; cases h
        | some d =>
          rw [hs] at h
          dsimp only at h
          rw [if_neg h1, if_neg h2] at h
          injection h with h
          subst h
          exact good_setTimer g ⟨h1, h2⟩ hv hs
  have hd : ∀ name, tdefault name ≤ 2147483647 := by
    intro name
    unfold tdefault tdef
    cases hl : tdefs.lookup name with
    | none => simp
    | some p =>
      have : ∀ l : List (String × Nat × Nat), (∀ q ∈ l, q.2.1 ≤ 2147483647) → l.lookup name = some p → p.1 ≤ 2147483647 := by
        intro l
        induction l with
        | nil => intro _ h; cases h
        | cons q l ih =>
          intro hq hh
          obtain ⟨x, y⟩ := q
          rw [List.lookup_cons] at hh
          split at hh
          · injection hh with hh; subst hh; exact hq _ List.mem_cons_self
          · exact ih (fun r hr => hq r (List.mem_cons_of_mem _ hr)) hh
      exact this tdefs (by decide) hl
  rcases ho with ⟨t, r, rfl, ho⟩ | ho
  · rcases ho with ⟨v, r, rfl, _, hv, ho⟩ | ⟨r, rfl, ho⟩ | ho
    · have : r = [] := ho
      subst this
      cases t with
      | w name => exact key name v hv h
      | n x => cases h
    · have : r = [] := ho
      subst this
      cases t with
      | w name => exact key name _ (hd name) h
      | n x => cases h
    · have : r = [] := ho
      subst this
      have : c = c' := by cases t <;> (injection h with h)
      subst this; exact g
  · rcases ho with ⟨v, r, rfl, _, hv, ho⟩ | ⟨r, rfl, ho⟩ | ho
    · have : r = [] := ho
      subst this
      injection h with h
      subst h; exact g
    · have : r = [] := ho
      subst this
      injection h with h
      subst h; exact g
    · have : a = [] := ho
      subst this
      injection h with h
      subst h; exact g

/-- All ranges, where a record was built from one that has them. -/
macro "ranges" : tactic => `(tactic| (
  constructor
  · constructor <;> dsimp only [atoi, second, u8, u16, u32, List.getElem?_cons_zero, List.getElem?_cons_succ, List.length_cons, List.length_nil] <;>
      first
        | assumption
        | omega
        | (simp [atoi, second, u8, u16, u32]; omega)
        | (simp [codelDefault, codelDisable])
        | (intro x hx; injection hx with hx; simp only [atoi, List.getElem?_cons_zero] at hx; omega)
        | (split <;> first | assumption | omega)
  · assumption
  · assumption))

set_option maxHeartbeats 2000000 in
theorem good_cmds : ∀ k ∈ cmds, ∀ c c' a, Good c → ok k.pat a → k.run c a = some c' → Good c' := by
  simp only [cmds, List.forall_mem_cons]
  repeat' apply And.intro
  all_goals intro c c' a g ho h
  all_goals first
    | (exact good_timerCmd g ho h)
    | (obtain ⟨v, r, rfl, _, hv, rfl⟩ := ho; exact good_setTimer g (by decide) (by simp only [atoi, List.getElem?_cons_zero]; omega) h)
    | (exact good_setTimer g (by decide) (by decide) h)
    | skip
  all_goals first
    | (injection h with h; subst h; obtain ⟨gv, gn, gs⟩ := g; obtain rfl : a = [] := ho; cases gv; ranges; done)
    | (injection h with h; subst h; obtain ⟨gv, gn, gs⟩ := g; obtain ⟨v, r, rfl, h1, h2, rfl⟩ := ho; cases gv; ranges; done)
    | skip
  · injection h with h; subst h; obtain ⟨gv, gn, gs⟩ := g; cases gv; ranges
  · cases hx : categOf a with
    | none => rw [hx] at h; cases h
    | some i => rw [hx] at h; injection h with h; subst h; obtain ⟨gv, gn, gs⟩ := g; cases gv; ranges
  · cases hx : categOf a with
    | none => rw [hx] at h; cases h
    | some i => rw [hx] at h; injection h with h; subst h; obtain ⟨gv, gn, gs⟩ := g; cases gv; ranges
  · injection h with h; subst h; exact g
  · injection h with h; subst h; exact g
  · injection h with h; subst h; exact g
  · obtain ⟨v, r, rfl, h1, h2, ho⟩ := ho
    injection h with h; subst h; obtain ⟨gv, gn, gs⟩ := g
    rcases ho with ⟨x, r, rfl, h3, h4, rfl⟩ | rfl
    · cases gv; ranges
    · cases gv; ranges
  · obtain ⟨v, r, rfl, h1, h2, ho⟩ := ho
    injection h with h; subst h; obtain ⟨gv, gn, gs⟩ := g
    rcases ho with ⟨x, r, rfl, h3, h4, rfl⟩ | rfl
    · cases gv; ranges
    · cases gv; ranges
  · obtain ⟨v, r, rfl, h1, h2, ho⟩ := ho
    injection h with h; subst h; obtain ⟨gv, gn, gs⟩ := g
    rcases ho with ⟨x, r, rfl, h3, h4, rfl⟩ | rfl
    · cases gv; ranges
    · cases gv; ranges
  · obtain ⟨v, r, rfl, h1, h2, ho⟩ := ho
    injection h with h; subst h; obtain ⟨gv, gn, gs⟩ := g
    rcases ho with ⟨x, r, rfl, h3, h4, rfl⟩ | rfl
    · cases gv; ranges
    · cases gv; ranges
  · obtain ⟨v, r, rfl, h1, h2, ho⟩ := ho
    injection h with h; subst h; obtain ⟨gv, gn, gs⟩ := g
    rcases ho with ⟨x, r, rfl, h3, h4, rfl⟩ | rfl
    · cases gv; ranges
    · cases gv; ranges
  · obtain ⟨v, r, rfl, h1, h2, rfl⟩ := ho
    injection h with h; subst h
    refine { g with codel := Or.inr (Or.inr ⟨v, h1, h2, ?_⟩) }
    show u32 (10 * u16 v) = 10 * v
    rw [u32, u16, Nat.mod_eq_of_lt (show v < 65536 by omega), Nat.mod_eq_of_lt (by omega)]
  · injection h with h; subst h; obtain ⟨gv, gn, gs⟩ := g
    rcases ho with ⟨v, r, rfl, h1, h2, rfl⟩ | ⟨r, rfl, rfl⟩
    · refine { gv with alpha := Or.inl ?_, neigh := gn, si := gs }
      show (if streq [Tok.n v] 0 "si13" then 255 else u8 v) ≤ 10
      rw [if_neg (by simp [streq]), u8]; omega
    · exact { gv with alpha := Or.inr rfl, neigh := gn, si := gs }
  · obtain ⟨v, r, rfl, h1, h2, x, r, rfl, h3, h4, rfl⟩ := ho
    have e1 : u8 (atoi [Tok.n v, .n x] 0) = v := by show v % 256 = v; omega
    have e2 : u8 (atoi [Tok.n v, .n x] 1) = x := by show x % 256 = x; omega
    rw [e1, e2] at h
    split at h
    · cases h
    · injection h with h; subst h; obtain ⟨gv, gn, gs⟩ := g; cases gv; ranges
  · obtain ⟨v1, r, rfl, _, h1, v2, r, rfl, _, h2, v3, r, rfl, _, h3, v4, r, rfl, _, h4, v5, r, rfl, _, h5, v6, r, rfl, _, h6, rfl⟩ := ho
    injection h with h; subst h; obtain ⟨gv, gn, gs⟩ := g; cases gv; ranges
  · obtain ⟨v1, r, rfl, _, h1, v2, r, rfl, _, h2, v3, r, rfl, _, h3, v4, r, rfl, _, h4, v5, r, rfl, _, h5, v6, r, rfl, _, h6,
      v7, r, rfl, _, h7, v8, r, rfl, _, h8, v9, r, rfl, _, h9, va, r, rfl, _, ha, vb, r, rfl, _, hb, vc, r, rfl, _, hc, vd, r, rfl, _, hd,
      ve, r, rfl, _, he, vf, r, rfl, _, hf, vg, r, rfl, _, hg, rfl⟩ := ho
    injection h with h; subst h
    exact { g with mcsLq1 := ⟨h1, h2, h3, h4, h5, h6, h7, h8⟩, mcsLq2 := ⟨h9, ha, hb, hc, hd, he, hf, hg⟩ }
  · exact absurd c' List.not_mem_nil

theorem good_exec {c c' : Cfg} {l : Line} (g : Good c) (h : exec c l = some c') : Good c' := by
  obtain ⟨k, hk, a, hf, hr⟩ := exec_cases h
  exact good_cmds k hk c c' a g (ok_of_fits _ _ _ hf) hr

theorem good_execAll : ∀ (l : List Line) (c c' : Cfg), Good c → execAll c l = some c' → Good c' := by
  intro l
  induction l with
  | nil => intro c c' g h; injection h with h; subst h; exact g
  | cons x l ih =>
    intro c c' g h
    change (match exec c x with | none => none | some c => execAll c l) = some c' at h
    cases hx : exec c x with
    | none => rw [hx] at h; cases h
    | some d => rw [hx] at h; exact ih d c' (good_exec g hx) h

theorem tdefault_le (name : String) : tdefault name ≤ 2147483647 := by
  unfold tdefault tdef
  cases hl : tdefs.lookup name with
  | none => simp
  | some p =>
    have : ∀ l : List (String × Nat × Nat), (∀ q ∈ l, q.2.1 ≤ 2147483647) → l.lookup name = some p → p.1 ≤ 2147483647 := by
      intro l
      induction l with
      | nil => intro _ h; cases h
      | cons q l ih =>
        intro hq hh
        obtain ⟨x, y⟩ := q
        rw [List.lookup_cons] at hh
        split at hh
        · injection hh with hh; subst hh; exact hq _ List.mem_cons_self
        · exact ih (fun r hr => hq r (List.mem_cons_of_mem _ hr)) hh
    exact this tdefs (by decide) hl

theorem good_initial : Good initial := by
  constructor
  · constructor <;> first
      | exact tdefault_le
      | exact fun name h => tdefault_unknown h
      | (intro v h; cases h)
      | exact Or.inl rfl
      | decide
  · rfl
  · rfl

theorem algo_cmds : ∀ k ∈ cmds, ∀ c c' a, k.run c a = some c' → c'.algo = c.algo ∨ c'.algo ≠ none := by
  simp only [cmds, List.forall_mem_cons]
  repeat' apply And.intro
  all_goals intro c c' a h
  all_goals first
    | (injection h with h; subst h; exact Or.inl rfl)
    | (injection h with h; subst h; exact Or.inr (by simp))
    | (cases hx : categOf a with
        | none => rw [hx] at h; cases h
        | some i => rw [hx] at h; injection h with h; subst h; exact Or.inl rfl)
    | (unfold setTimer at h; split at h <;> first | cases h | (split at h <;> first | cases h | (injection h with h; subst h; exact Or.inl rfl)))
    | (split at h <;> first | cases h | (injection h with h; subst h; exact Or.inl rfl))
    | skip
  · exact Or.inl rfl
  · unfold timerCmd at h
    split at h
    · split at h
      · cases h
      · rename_i d hd
        have e : d.algo = c.algo := by
          unfold setTimer at hd
          split at hd
          · cases hd
          · split at hd
            · cases hd
            · injection hd with hd; subst hd; rfl
        split at h
        · injection h with h; subst h; exact Or.inl e
        · split at h
          · injection h with h; subst h; exact Or.inl e
          · injection h with h; subst h; exact Or.inl e
    · cases h
    · injection h with h; subst h; exact Or.inl rfl
  · exact absurd c' List.not_mem_nil

theorem reach_good {c : Cfg} (r : Reach c) : Good c ∧ c.algo ≠ none := by
  induction r with
  | @boot file c h =>
    unfold boot at h
    cases he : execAll initial file with
    | none => rw [he] at h; cases h
    | some d =>
      rw [he] at h
      injection h with h
      subst h
      have g := good_execAll _ _ _ good_initial he
      exact ⟨{ g with }, by simp [finish]⟩
  | @typed c l c' _ h ih =>
    refine ⟨good_exec ih.1 h, ?_⟩
    obtain ⟨k, hk, a, _, hr⟩ := exec_cases h
    rcases algo_cmds k hk c c' a hr with h1 | h1
    · rw [h1]; exact ih.2
    · exact h1

theorem tdefs_lookup : ∀ p ∈ tdefs, tdef p.1 = some p.2 := by decide

theorem tdef_mem {name : String} {q : Nat × Nat} (h : tdef name = some q) : (name, q) ∈ tdefs := by
  have : ∀ l : List (String × Nat × Nat), l.lookup name = some q → (name, q) ∈ l := by
    intro l
    induction l with
    | nil => intro h; cases h
    | cons p l ih =>
      intro hh
      obtain ⟨x, y⟩ := p
      rw [List.lookup_cons] at hh
      split at hh
      · rename_i he
        injection hh with hh
        have : name = x := by simpa using he
        subst this; subst hh; exact List.mem_cons_self
      · exact List.mem_cons_of_mem _ (ih hh)
  exact this tdefs h

theorem ite_back {α : Type} [DecidableEq α] (x d : α) : (if x = d then d else x) = x := by
  by_cases h : x = d
  · rw [if_pos h, h]
  · rw [if_neg h]

/-- Starting with the file that was written. -/
theorem boot_write {c : Cfg} (g : Good c) (ha : c.algo ≠ none) : boot (write c) = some (restarted c) := by
  have v : Valid c := g.toValid
  obtain ⟨s', t1, t2, t3, t4, t5⟩ := run_timers c.timers tdefs
    { initial with
      fcInterval := c.fcInterval, fcBvcSize := c.fcBvcSize, fcBvcRate := c.fcBvcRate, fcMsSize := c.fcMsSize, fcMsRate := c.fcMsRate,
      forceCs := c.forceCs, csDl := c.csDl, csUl := c.csUl, forceMcs := c.forceMcs, mcsDl := c.mcsDl, mcsUl := c.mcsUl,
      maxCsDl := if c.maxCsDl = 0 then 4 else c.maxCsDl, maxCsUl := if c.maxCsUl = 0 then 4 else c.maxCsUl,
      maxMcsDl := if c.maxMcsDl = 0 then 9 else c.maxMcsDl, maxMcsUl := if c.maxMcsUl = 0 then 9 else c.maxMcsUl,
      twoPhase := c.twoPhase, alpha := c.alpha, gamma := c.gamma, preempt := c.preempt, arq2 := c.arq2, adj := c.adj, adjHi := c.adjHi,
      adjLo := c.adjLo, downgrade := c.downgrade, c1h := c.c1h, c2l := c.c2l, c2h := c.c2h, c3l := c.c3l, c3h := c.c3h, c4l := c.c4l,
      m1h := c.m1h, m2l := c.m2l, m2h := c.m2h, m3l := c.m3l, m3h := c.m3h, m4l := c.m4l, m4h := c.m4h, m5l := c.m5l, m5h := c.m5h, m6l := c.m6l,
      m6h := c.m6h, m7l := c.m7l, m7h := c.m7h, m8l := c.m8l, m8h := c.m8h, m9l := c.m9l,
      sns := c.sns, dscp := c.dscp, prio := c.prio, wsBase := c.wsBase, wsPdch := c.wsPdch, msclass := c.msclass, lifetime := c.lifetime,
      discard := c.discard, idleAck := if c.idleAck = 0 then 10 else c.idleAck, codel := c.codel, mask := c.mask &&& 0x3f80ff#32, host := c.host,
      algo := c.algo, sock := c.sock }
    tdefs_lookup g.timers (by
      have h1 : ∀ p ∈ tdefs, p.2.2 = 0 ∨ p = ("T3172", 5000, 255000) := by decide
      intro p hp
      rcases h1 p hp with h | h
      · exact Or.inl h
      · subst h; exact Or.inr g.t3172)
  have hw : execAll initial (write c) = some s' := by
    unfold write
    simp only [execAll_append, execAll, run_wFc v, run_wCs v, run_wCsMax v, run_wAdj v, run_wDowngrade v, exec_wCsLq v, exec_wMcsLq v, run_wMcs v,
      run_wMcsMax v, exec_wWs v, run_wArq, run_wQueue v, run_wCodel v, run_wAlgo ha, run_wRadio v, run_wGb v, Option.bind_some]
    rw [run_wGsmtap rfl]
    simp only [Option.bind_some]
    rw [← t1]
    show execAll _ (wTimers c) = execAll _ (wTimers c)
    congr 1
    simp only [initial, Cfg.mk.injEq]
    repeat' apply And.intro
    all_goals first
      | rfl
      | exact trivial
      | exact ite_back _ _
      | (cases c.forceCs <;> rfl)
      | (cases c.forceMcs <;> rfl)
      | (rcases v.cs with ⟨h, _⟩ | ⟨h, h1, h2⟩
         · rw [h, if_pos rfl]
         · rw [h, if_neg (by simp)] <;> first | exact h1.symm | exact h2.symm)
      | (rcases v.mcs with ⟨h, _⟩ | ⟨h, h1, h2⟩
         · rw [h, if_pos rfl]
         · rw [h, if_neg (by simp)] <;> first | exact h1.symm | exact h2.symm)
      | (cases c.preempt <;> rfl)
      | (cases c.arq2 <;> rfl)
      | (cases c.dscp <;> rfl)
      | (cases c.prio <;> rfl)
      | (cases c.host <;> rfl)
  have ht : s'.timers = c.timers := by
    funext k
    rw [t3 k]
    by_cases hk : ∃ p ∈ tdefs, p.1 = k ∧ c.timers k ≠ p.2.1
    · rw [if_pos hk]
    · rw [if_neg hk]
      show tdefault k = c.timers k
      cases htk : tdef k with
      | none => rw [tdefault_unknown htk, g.unknown k htk]
      | some q =>
        have hm := tdef_mem htk
        have h1 : c.timers k = q.1 := Classical.byContradiction fun hne => hk ⟨(k, q), hm, rfl, hne⟩
        rw [h1]; simp [tdefault, htk]
  have hn : s'.neighKeep = c.neighKeep := by rw [t4 rfl, ht, g.neigh]
  have hs : s'.siKeep = c.siKeep := by rw [t5 rfl, ht, g.si]
  unfold boot
  rw [hw, Option.map_some, t2, ht, hn, hs]
  have hal : some (c.algo.getD .dyn) = c.algo := by
    cases hx : c.algo with
    | none => exact absurd hx ha
    | some x => rfl
  simp only [finish, restarted, initial, hal]

end Verif.Vty
