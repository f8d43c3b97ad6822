import Verif.Props.C24

/-!
# C26: supervision counters

A TBF is given up exactly when N3101 / N3103 / N3105 consecutive supervision failures have
occurred since the last success; any success restarts the count.

The outcome of each operation is defined in `Spec/Supervision.lean` without the counters;
`streak` counts the failures since the last success.  The theorems say, for every history
that does not inject the "limit reached" event itself: as long as the TBF is in use fewer
failures than the limit have occurred in a row, and the next operation gives it up if and
only if it is a failure that makes them reach the limit.  A configured limit of zero
stands for 256.
-/

namespace Verif.Tbf
open Verif.TbfSpec

theorem bump_streak (h : List Outcome) (n : Nat) (o : Option Outcome) (hn : n = streak h % 256) :
    bump n o = streak (o.toList ++ h) % 256 := by
  subst hn
  cases o with
  | none => rfl
  | some o => cases o <;> simp [bump, streak]

theorem hit_iff {lim n : Nat} (hl : lim < 256) (hs : n < effLimit lim) :
    (n % 256 + 1) % 256 = lim ↔ n + 1 = effLimit lim := by
  unfold effLimit at *
  split at hs <;> simp only [*, if_true, if_false] <;> omega

/-- The invariant of N3105. -/
def Q3105 (lim : Nat) (s : Dl) (h : List Outcome) : Prop :=
  s.freed = true ∨ (s.n3105 = streak h % 256 ∧ s.st ≠ .new ∧
    (DlActive s.st → streak h < effLimit lim))

theorem DlMove.from_active {c a : Bool} {x y : St} {op : DlOp} (h : DlMove c a x op y)
    (hx : x ≠ .new) (hy : DlActive y) : DlActive x ∧ y ≠ .new := by
  cases h <;> first
    | exact absurd rfl hx
    | exact ⟨by decide, nofun⟩
    | exact absurd hy (by decide)

theorem effLimit_pos (lim : Nat) : 0 < effLimit lim := by unfold effLimit; split <;> omega

theorem dlStep_q (lim : Nat) (hl : lim < 256) (s s' : Dl) (op : DlOp) (env : Env)
    (h : List Outcome) (hi : DlInv s) (ho : DlOk op) (hm : op ≠ .ev .maxN3105)
    (hq : Q3105 lim s h) (hs : dlStep lim s op env = some s') :
    Q3105 lim s' ((outcome3105 s op).toList ++ h) := by
  by_cases hf : s.freed = true
  · unfold dlStep at hs; rw [if_pos hf] at hs; cases hs; exact .inl hf
  obtain ⟨q1, q2, q3⟩ := hq.resolve_left hf
  have hff : s.freed = false := by simpa using hf
  obtain ⟨s1, a, _, b⟩ := dlStep_ok lim s op env hi ho
  rw [a] at hs; cases hs
  have hnew : s'.st ≠ .new := by
    rcases b with b | b
    · rw [b]; exact q2
    · intro h; rw [h] at b; generalize s.st = x at b; cases b
  refine .inr ⟨?_, hnew, fun hact => ?_⟩
  · rw [dlStep_count lim s s' op env hi a]; exact bump_streak h _ _ q1
  have hact0 : DlActive s.st := by
    rcases b with b | b
    · rw [← b]; exact hact
    · exact (DlMove.from_active b q2 hact).1
  have q4 := q3 hact0
  have hg := dlStep_giveUp lim s s' op env hi ho hm hff hact0 a
  have hnr : s'.st ≠ .releasing := by intro h; rw [h] at hact; exact absurd hact (by decide)
  cases ho' : outcome3105 s op with
  | none => exact q4
  | some o =>
    cases o with
    | ok => exact effLimit_pos lim
    | fail =>
      have : ¬ (s.n3105 + 1) % 256 = lim := fun h => hnr (hg.2 ⟨ho', h⟩)
      rw [q1, hit_iff hl q4] at this
      show streak h + 1 < _
      omega

theorem dlRun_q (lim : Nat) (hl : lim < 256) (s s' : Dl) (ops : List (DlOp × Env))
    (h : List Outcome) (hi : DlInv s) (ho : ∀ p ∈ ops, DlOk p.1 ∧ p.1 ≠ .ev .maxN3105)
    (hq : Q3105 lim s h) (hs : dlRun lim s ops = some s') :
    DlInv s' ∧ Q3105 lim s' (hist3105 lim s h ops) := by
  induction ops generalizing s h with
  | nil => cases hs; exact ⟨hi, hq⟩
  | cons p r ih =>
    obtain ⟨op, env⟩ := p
    have hp := ho _ List.mem_cons_self
    obtain ⟨s1, a, b, _⟩ := dlStep_ok lim s op env hi hp.1
    have hr' : dlRun lim s1 r = some s' := by simpa [dlRun, a] using hs
    simp only [hist3105, a]
    exact ih s1 _ b (fun p hp => ho p (List.mem_cons_of_mem _ hp))
      (dlStep_q lim hl s s1 op env h hi hp.1 hp.2 hq a) hr'

/-- N3105 (unanswered polls of a downlink TBF).  A history starts with the assignment. -/
theorem C26_n3105 (lim : Nat) (hl : lim < 256) (u : Bool) (e : Ev) (env0 : Env)
    (he : e = .addCcch ∨ e = .addPacch) (ops : List (DlOp × Env)) (s : Dl)
    (ho : ∀ p ∈ ops, DlOk p.1 ∧ p.1 ≠ .ev .maxN3105)
    (hr : dlRun lim { upg := u } ((.ev e, env0) :: ops) = some s)
    (hf : s.freed = false) (ha : DlActive s.st) :
    let fails := streak (hist3105 lim { upg := u } [] ((.ev e, env0) :: ops))
    fails < effLimit lim ∧
    ∀ op env s', DlOk op → op ≠ .ev .maxN3105 → dlStep lim s op env = some s' →
      (s'.st = .releasing ↔ outcome3105 s op = some .fail ∧ fails + 1 = effLimit lim) := by
  have hok : DlOk (.ev e) := ⟨nofun, nofun⟩
  obtain ⟨s1, a, b, _⟩ := dlStep_ok lim { upg := u } (.ev e) env0 (dlInv_fresh u) hok
  have hr' : dlRun lim s1 ops = some s := by simpa [dlRun, a] using hr
  have hq : Q3105 lim s1 [] := by
    refine .inr ?_
    have hz : s1.n3105 = 0 ∧ s1.st = .assign := by
      rcases he with he | he <;> subst he <;> cases a <;> exact ⟨rfl, rfl⟩
    exact ⟨hz.1, by rw [hz.2]; nofun, fun _ => effLimit_pos lim⟩
  obtain ⟨hi, q⟩ := dlRun_q lim hl s1 s ops [] b ho hq hr'
  have hh : hist3105 lim { upg := u } [] ((.ev e, env0) :: ops) = hist3105 lim s1 [] ops := by
    simp only [hist3105, a]; rfl
  rw [hh]
  obtain ⟨q1, _, q3⟩ := q.resolve_left (by simp [hf])
  refine ⟨q3 ha, fun op env s' h1 h2 h3 => ?_⟩
  rw [dlStep_giveUp lim s s' op env hi h1 h2 hf ha h3, q1, hit_iff hl (q3 ha)]

/-- The invariant of N3101. -/
def Q3101 (lim : Lim) (s : Ul) (h : List Outcome) : Prop :=
  s.freed = true ∨ (s.n3101 = streak h % 256 ∧
    (s.st = .new ∨ s.st = .assign → streak h = 0) ∧ (s.st = .flow → streak h < effLimit lim.n3101))

theorem ulRun_q3101 (lim : Lim) (hl : lim.n3101 < 256) (s s' : Ul) (ops : List (UlOp × Env))
    (h : List Outcome) (hi : UlInv s) (ho : ∀ p ∈ ops, UlOk p.1 ∧ p.1 ≠ .ev .maxN3101)
    (hu : UsfSaneRun lim s ops)
    (hq : Q3101 lim s h) (hs : ulRun lim s ops = some s') :
    UlInv s' ∧ Q3101 lim s' (hist3101 lim s h ops) := by
  induction ops generalizing s h with
  | nil => cases hs; exact ⟨hi, hq⟩
  | cons p r ih =>
    obtain ⟨op, env⟩ := p
    have hp := ho _ List.mem_cons_self
    obtain ⟨s1, a, b, c⟩ := ulStep_ok lim s op env hi hp.1
    have hr' : ulRun lim s1 r = some s' := by simpa [ulRun, a] using hs
    simp only [hist3101, a]
    refine ih s1 _ b (fun p hp => ho p (List.mem_cons_of_mem _ hp)) (hu.2 s1 a) ?_ hr'
    by_cases hf : s.freed = true
    · unfold ulStep at a; rw [if_pos hf] at a; cases a; exact .inl hf
    have hff : s.freed = false := by simpa using hf
    obtain ⟨q1, q2, q3⟩ := hq.resolve_left hf
    have hfail : outcome3101 s op = some .fail → op = .usfTimeout := by
      intro h1
      unfold outcome3101 at h1
      rw [if_neg (by simp [hf])] at h1
      cases op <;> first | rfl | (simp only at h1; cases h1)
    refine .inr ⟨?_, fun hst => ?_, fun hst => ?_⟩
    · rw [(ulStep_facts lim s s1 op env hi a).n3101]; exact bump_streak h _ _ q1
    · have hst0 : s.st = .new ∨ s.st = .assign := by
        rcases c with c | c
        · rw [← c]; exact hst
        · rcases hst with hst | hst <;> rw [hst] at c <;> generalize s.st = x at c <;> cases c
          exact .inl rfl
      cases ho' : outcome3101 s op with
      | none => exact q2 hst0
      | some o =>
        cases o with
        | ok => rfl
        | fail =>
          have := hu.1 (hfail ho')
          rcases hst0 with h | h
          · exact absurd h this.1
          · exact absurd h this.2
    · have q4 : streak h < effLimit lim.n3101 := by
        rcases c with c | c
        · exact q3 (c.symm.trans hst)
        · rw [hst] at c
          have : s.st = .assign := by generalize s.st = x at c; cases c; rfl
          rw [q2 (.inr this)]; exact effLimit_pos _
      cases ho' : outcome3101 s op with
      | none => exact q4
      | some o =>
        cases o with
        | ok => exact effLimit_pos _
        | fail =>
          have hop := hfail ho'
          have hfl : s.st = .flow := by
            rcases c with c | c
            · exact c.symm.trans hst
            · exfalso
              rw [hst, hop] at c
              generalize s.st = x at c
              cases c with
              | assigned h => rcases h with h | h | h | h <;> cases h
          have hg := ulStep_giveUp3101 lim s s1 op env hi hp.1 hp.2 hff hfl a
          have hnr : s1.st ≠ .releasing := by rw [hst]; nofun
          have : ¬ (s.n3101 + 1) % 256 = lim.n3101 := fun h => hnr (hg.2 ⟨ho', h⟩)
          rw [q1, hit_iff hl q4] at this
          show streak h + 1 < _
          omega

/-- N3101 (granted uplink blocks that were not used). -/
theorem C26_n3101 (lim : Lim) (hl : lim.n3101 < 256) (ops : List (UlOp × Env)) (s : Ul)
    (ho : ∀ p ∈ ops, UlOk p.1 ∧ p.1 ≠ .ev .maxN3101) (hu : UsfSaneRun lim {} ops)
    (hr : ulRun lim {} ops = some s) (hf : s.freed = false) (ha : s.st = .flow) :
    let fails := streak (hist3101 lim {} [] ops)
    fails < effLimit lim.n3101 ∧
    ∀ op env s', UlOk op → op ≠ .ev .maxN3101 → ulStep lim s op env = some s' →
      (s'.st = .releasing ↔ outcome3101 s op = some .fail ∧ fails + 1 = effLimit lim.n3101) := by
  obtain ⟨hi, q⟩ := ulRun_q3101 lim hl {} s ops [] ulInv_fresh ho hu
    (.inr ⟨rfl, fun _ => rfl, nofun⟩) hr
  obtain ⟨q1, _, q3⟩ := q.resolve_left (by simp [hf])
  refine ⟨q3 ha, fun op env s' h1 h2 h3 => ?_⟩
  rw [ulStep_giveUp3101 lim s s' op env hi h1 h2 hf ha h3, q1, hit_iff hl (q3 ha)]

/-- The invariant of N3103. -/
def Q3103 (lim : Lim) (s : Ul) (h : List Outcome) : Prop :=
  s.freed = true ∨ (s.n3103 = streak h % 256 ∧
    (s.st = .new ∨ s.st = .assign ∨ s.st = .flow → streak h = 0) ∧
    (s.st = .finished → streak h < effLimit lim.n3103))

theorem ulRun_q3103 (lim : Lim) (hl : lim.n3103 < 256) (s s' : Ul) (ops : List (UlOp × Env))
    (h : List Outcome) (hi : UlInv s) (ho : ∀ p ∈ ops, UlOk p.1 ∧ p.1 ≠ .ev .maxN3103)
    (hq : Q3103 lim s h) (hs : ulRun lim s ops = some s') :
    UlInv s' ∧ Q3103 lim s' (hist3103 lim s h ops) := by
  induction ops generalizing s h with
  | nil => cases hs; exact ⟨hi, hq⟩
  | cons p r ih =>
    obtain ⟨op, env⟩ := p
    have hp := ho _ List.mem_cons_self
    obtain ⟨s1, a, b, c⟩ := ulStep_ok lim s op env hi hp.1
    have hr' : ulRun lim s1 r = some s' := by simpa [ulRun, a] using hs
    simp only [hist3103, a]
    refine ih s1 _ b (fun p hp => ho p (List.mem_cons_of_mem _ hp)) ?_ hr'
    by_cases hf : s.freed = true
    · unfold ulStep at a; rw [if_pos hf] at a; cases a; exact .inl hf
    have hff : s.freed = false := by simpa using hf
    obtain ⟨q1, q2, q3⟩ := hq.resolve_left hf
    have hfail : outcome3103 s op = some .fail → s.st = .finished := by
      intro h1
      unfold outcome3103 at h1
      rw [if_neg (by simp [hf])] at h1
      cases op with
      | pollTimeout r =>
        cases r with
        | ulAck =>
          simp only at h1
          split at h1
          · rename_i h; exact h.2
          · cases h1
        | _ => cases h1
      | data f c v r => simp only at h1; split at h1 <;> cases h1
      | _ => cases h1
    refine .inr ⟨?_, fun hst => ?_, fun hst => ?_⟩
    · rw [(ulStep_facts lim s s1 op env hi a).n3103]; exact bump_streak h _ _ q1
    · have hst0 : s.st = .new ∨ s.st = .assign ∨ s.st = .flow := by
        rcases c with c | c
        · rw [← c]; exact hst
        · generalize s.st = x at c
          rcases hst with hst | hst | hst <;> rw [hst] at c <;> cases c
          · exact .inl rfl
          · exact .inr (.inl rfl)
      cases ho' : outcome3103 s op with
      | none => exact q2 hst0
      | some o =>
        cases o with
        | ok => rfl
        | fail =>
          have := hfail ho'
          rw [this] at hst0
          rcases hst0 with h | h | h <;> cases h
    · have q4 : streak h < effLimit lim.n3103 := by
        rcases c with c | c
        · exact q3 (c.symm.trans hst)
        · rw [hst] at c
          have : s.st = .flow := by generalize s.st = x at c; cases c; rfl
          rw [q2 (.inr (.inr this))]; exact effLimit_pos _
      cases ho' : outcome3103 s op with
      | none => exact q4
      | some o =>
        cases o with
        | ok => exact effLimit_pos _
        | fail =>
          have hg := ulStep_giveUp3103 lim s s1 op env hi hp.1 hp.2 hff (hfail ho') a
          have hnr : s1.st ≠ .releasing := by rw [hst]; nofun
          have : ¬ (s.n3103 + 1) % 256 = lim.n3103 := fun h => hnr (hg.2 ⟨ho', h⟩)
          rw [q1, hit_iff hl q4] at this
          show streak h + 1 < _
          omega

/-- N3103 (final acknowledgements that were not confirmed). -/
theorem C26_n3103 (lim : Lim) (hl : lim.n3103 < 256) (ops : List (UlOp × Env)) (s : Ul)
    (ho : ∀ p ∈ ops, UlOk p.1 ∧ p.1 ≠ .ev .maxN3103)
    (hr : ulRun lim {} ops = some s) (hf : s.freed = false) (ha : s.st = .finished) :
    let fails := streak (hist3103 lim {} [] ops)
    fails < effLimit lim.n3103 ∧
    ∀ op env s', UlOk op → op ≠ .ev .maxN3103 → ulStep lim s op env = some s' →
      (s'.st = .releasing ↔ outcome3103 s op = some .fail ∧ fails + 1 = effLimit lim.n3103) := by
  obtain ⟨hi, q⟩ := ulRun_q3103 lim hl {} s ops [] ulInv_fresh ho
    (.inr ⟨rfl, fun _ => rfl, nofun⟩) hr
  obtain ⟨q1, _, q3⟩ := q.resolve_left (by simp [hf])
  refine ⟨q3 ha, fun op env s' h1 h2 h3 => ?_⟩
  rw [ulStep_giveUp3103 lim s s' op env hi h1 h2 hf ha h3, q1, hit_iff hl (q3 ha)]

/-! ## Concrete cases -/

/-- Two unanswered polls, an answer, two more: alive with limit three; the next one ends it. -/
example : (dlRun 3 {} [(.ev .addPacch, {}), (.ev .ackPacch, {}), (.pollTimeout .dlAck, {}),
    (.pollTimeout .dlAck, {}), (.dlAck false, {}), (.pollTimeout .dlAck, {}),
    (.pollTimeout .dlAck, {})]).map (fun (s : Dl) => (s.st, s.n3105)) = some (.flow, 2) := by decide
example : hist3105 3 {} [] [(.ev .addPacch, {}), (.ev .ackPacch, {}), (.pollTimeout .dlAck, {}),
    (.pollTimeout .dlAck, {}), (.dlAck false, {}), (.pollTimeout .dlAck, {}),
    (.pollTimeout .dlAck, {})] = [.fail, .fail, .ok, .fail, .fail] := by decide
example : (dlRun 3 {} [(.ev .addPacch, {}), (.ev .ackPacch, {}), (.dlAck false, {}),
    (.pollTimeout .dlAck, {}), (.pollTimeout .dlAck, {}), (.pollTimeout .dlAck, {})]).map
    (fun (s : Dl) => s.st) = some .releasing := by decide
example : (ulRun ⟨2, 2⟩ {} [(.ev .addPacch, {}), (.ev .ackPacch, {}), (.usfTimeout, {}),
    (.data false false false false, {}), (.usfTimeout, {})]).map
    (fun (s : Ul) => (s.st, s.n3101)) = some (.flow, 1) := by decide
example : (ulRun ⟨2, 2⟩ {} [(.ev .addPacch, {}), (.ev .ackPacch, {}),
    (.data false true true false, {}), (.createAck true true, {}), (.pollTimeout .ulAck, {}),
    (.createAck true true, {}), (.pollTimeout .ulAck, {})]).map
    (fun (s : Ul) => (s.st, s.n3103)) = some (.releasing, 2) := by decide

end Verif.Tbf
