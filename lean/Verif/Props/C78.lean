import Verif.Lemmas.VtyOneCmd
/-!
# C78: A command changes what it names, and nothing else
-/

namespace Verif.Vty

set_option maxRecDepth 4000

theorem claim_exec {c c' : Cfg} {l : Line} (h : exec c l = some c') : Claim c l c' := by
  obtain ⟨k, hk, a, hf, hr⟩ := exec_cases h
  exact claim_cmds k hk (shape_of_fits _ _ _ hf) hr

/-- C78, what is not named: whatever the configuration is, when a command is accepted all lines of the configuration about other things stay as
they were, in the same order. -/
theorem C78_others {c c' : Cfg} {l : Line} (h : exec c l = some c') : otherThings l (write c') = otherThings l (write c) :=
  others_of_claim (claim_exec h)

/-- C78, what is named: the configuration now says about it what the command said, with the one exception of `flow-control bucket-time`. -/
theorem C78_own_partial {c c' : Cfg} {l : Line} (h : exec c l = some c') (hb : ¬ isBucketTime l) :
    sameThing l (write c') = expected l (sameThing l (write c)) := by
  rw [sameThing_eq, sameThing_eq]
  exact (claim_exec h).own hb

/-- Two commands about different things: what the configuration says about either does not depend on their order. -/
theorem C78_order {c c1 c2 c12 c21 : Cfg} {l1 l2 : Line} (h1 : exec c l1 = some c1) (h2 : exec c l2 = some c2) (h12 : exec c1 l2 = some c12)
    (h21 : exec c2 l1 = some c21) (hb1 : ¬ isBucketTime l1) (hb2 : ¬ isBucketTime l2)
    (hd : ∀ s, ¬ (touches l1 s = true ∧ touches l2 s = true)) :
    sameThing l1 (write c12) = sameThing l1 (write c21) ∧ sameThing l2 (write c12) = sameThing l2 (write c21) ∧
    otherThings l2 (otherThings l1 (write c12)) = otherThings l2 (otherThings l1 (write c21)) := by
  have part : ∀ (a b : Line) (f : List Line), (∀ s, ¬ (touches a s = true ∧ touches b s = true)) → sameThing a (otherThings b f) = sameThing a f := by
    intro a b f hab
    simp only [sameThing, otherThings, List.filter_filter]
    apply List.filter_congr
    intro x _
    have := hab (subject x)
    cases h1 : touches a (subject x) <;> cases h2 : touches b (subject x) <;> simp_all
  have hd' : ∀ s, ¬ (touches l2 s = true ∧ touches l1 s = true) := fun s h => hd s ⟨h.2, h.1⟩
  have comm : ∀ f : List Line, otherThings l2 (otherThings l1 f) = otherThings l1 (otherThings l2 f) := by
    intro f
    simp only [otherThings, List.filter_filter]
    apply List.filter_congr
    intro x _
    exact Bool.and_comm _ _
  refine ⟨?_, ?_, ?_⟩
  · rw [C78_own_partial h21 hb1, ← part l1 l2 (write c12) hd, C78_others h12, part l1 l2 _ hd, C78_own_partial h1 hb1,
      ← part l1 l2 (write c2) hd, C78_others h2, part l1 l2 _ hd]
  · rw [C78_own_partial h12 hb2, ← part l2 l1 (write c21) hd', C78_others h21, part l2 l1 _ hd', C78_own_partial h2 hb2,
      ← part l2 l1 (write c1) hd', C78_others h1, part l2 l1 _ hd']
  · rw [C78_others h21, comm, C78_others h12, ← comm, C78_others h1, comm (write c2), C78_others h2, ← comm]

theorem bucket_keep : ∀ k ∈ cmds, ∀ (c c' : Cfg) (a : List Tok), k.run c a = some c' → c'.fcBucketTime = c.fcBucketTime ∨
    k.pat = [.lit "flow-control", .lit "bucket-time", .rng 1 65534] ∨ k.pat = [.lit "no", .lit "flow-control", .lit "bucket-time"] := by
  have tm : ∀ (c c' : Cfg) (n : String) (v : Nat), setTimer c n v = some c' → c'.fcBucketTime = c.fcBucketTime := by
    intro c c' n v h
    unfold setTimer at h
    split at h
    · cases h
    · split at h
      · cases h
      · injection h with h; subst h; rfl
  have tc : ∀ (c c' : Cfg) (a : List Tok), timerCmd c a = some c' → c'.fcBucketTime = c.fcBucketTime := by
    intro c c' a h
    unfold timerCmd at h
    split at h
    · split at h
      · cases h
      · rename_i d hd
        have := tm _ _ _ _ hd
        split at h
        · injection h with h; subst h; exact this
        · split at h <;> (injection h with h; subst h; exact this)
    · cases h
    · injection h with h; subst h; rfl
  simp only [cmds, List.forall_mem_cons]
  repeat' apply And.intro
  all_goals intro c c' a h
  all_goals first
    | exact .inr (.inl trivial)
    | exact .inr (.inr trivial)
    | exact .inl (tc _ _ _ h)
    | exact .inl (tm _ _ _ _ h)
    | (injection h with h; subst h; exact .inl rfl)
    | (split at h <;> first | (cases h; done) | (injection h with h; subst h; exact .inl rfl))
    | (obtain ⟨i, _, h⟩ := Option.map_eq_some_iff.mp h; subst h; exact .inl rfl)
    | (exact absurd c' List.not_mem_nil)

/-- The target of the queueing time, which the written configuration does not show: only its own commands change it, to what they say. -/
theorem C78_bucket {c c' : Cfg} {l : Line} (h : exec c l = some c') :
    (∃ v, l = [.w "flow-control", .w "bucket-time", .n v] ∧ c'.fcBucketTime = v) ∨
    (l = [.w "no", .w "flow-control", .w "bucket-time"] ∧ c'.fcBucketTime = 0) ∨
    ((∀ v, l ≠ [.w "flow-control", .w "bucket-time", .n v]) ∧ l ≠ [.w "no", .w "flow-control", .w "bucket-time"] ∧
      c'.fcBucketTime = c.fcBucketTime) := by
  by_cases h1 : ∃ v, l = [.w "flow-control", .w "bucket-time", .n v]
  · obtain ⟨v, rfl⟩ := h1
    refine .inl ⟨v, rfl, ?_⟩
    by_cases hv : 1 ≤ v ∧ v ≤ 65534
    · have e : v % 65536 = v := by omega
      simp [exec, cmds, fits, arg, hv.1, hv.2, atoi, u16, e] at h
      rw [← h]
    · simp [exec, cmds, fits, arg, hv] at h
  · by_cases h2 : l = [.w "no", .w "flow-control", .w "bucket-time"]
    · subst h2
      refine .inr (.inl ⟨rfl, ?_⟩)
      simp [exec, cmds, fits, arg] at h
      rw [← h]
    · refine .inr (.inr ⟨fun v hv => h1 ⟨v, hv⟩, h2, ?_⟩)
      obtain ⟨k, hk, a, hf, hr⟩ := exec_cases h
      have hs := shape_of_fits _ _ _ hf
      rcases bucket_keep k hk c c' a hr with he | hp | hp
      · exact he
      · rw [hp] at hs
        obtain ⟨_, rfl, _, rfl, v, _, _, rfl, rfl, _, _, rfl, rfl⟩ := hs
        exact absurd ⟨v, rfl⟩ h1
      · rw [hp] at hs
        obtain ⟨_, rfl, _, rfl, _, rfl, rfl, rfl⟩ := hs
        exact absurd rfl h2

/-- C78 violated: the target of the queueing time is set, but the configuration never says so. -/
theorem C78_fails {c : Cfg} {v : Nat} (hv : 1 ≤ v ∧ v ≤ 65534) :
    ∃ c', exec c [.w "flow-control", .w "bucket-time", .n v] = some c' ∧ c'.fcBucketTime = v ∧ write c' = write c := by
  have e : v % 65536 = v := by omega
  exact ⟨{ c with fcBucketTime := v }, by simp [exec, cmds, fits, arg, hv.1, hv.2, atoi, u16, e], rfl, rfl⟩

/-- The hypotheses are met, and the settings change: largest coding schemes, then the window. -/
example : ∃ c1 c12, exec initial [.w "cs", .w "max", .n 3, .n 2] = some c1 ∧ exec c1 [.w "window-size", .n 100] = some c12 ∧
    sameThing [.w "cs", .w "max", .n 3, .n 2] (write c12) = [[.w "cs", .w "max", .n 3, .n 2]] ∧
    sameThing [.w "window-size", .n 100] (write c1) = [[.w "window-size", .n 64, .n 0]] ∧
    sameThing [.w "window-size", .n 100] (write c12) = [[.w "window-size", .n 100, .n 0]] := by
  refine ⟨{ initial with maxCsDl := 3, maxCsUl := 2 }, { initial with maxCsDl := 3, maxCsUl := 2, wsBase := 100 }, ?_, ?_, ?_⟩
  · simp [exec, cmds, fits, arg, atoi, u8, second]
  · simp [exec, cmds, fits, arg, atoi, u16]
  · decide +kernel

/-- All kinds of frames, then one less; of the lines about them fourteen stay. -/
example : ∃ c1 c2, exec initial [.w "gsmtap-category", .w "enable-all"] = some c1 ∧
    exec c1 [.w "no", .w "gsmtap-category", .w "dl-dummy"] = some c2 ∧
    (sameThing [.w "gsmtap-category", .w "enable-all"] (write c1)).length = 15 ∧
    (sameThing [.w "gsmtap-category", .w "enable-all"] (write c2)).length = 14 := by
  refine ⟨{ initial with mask := 0xffffffff#32 }, { initial with mask := 0xfffffffd#32 }, ?_, ?_, ?_, ?_⟩
  · simp [exec, cmds, fits, arg, streq]
  · simp [exec, cmds, fits, arg, categOf, categs, List.lookup]
  · decide +kernel
  · decide +kernel

end Verif.Vty
