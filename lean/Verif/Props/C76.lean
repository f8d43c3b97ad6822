import Verif.Lemmas.LiveStuck
/-!
C76: a TBF whose mobile is not heard any more is given up.

A TBF takes a turn when something it waits for has come about although its mobile was not heard: a timer ran out, a promised block passed unused, a
poll was not answered, a control message was sent once more. `ulTurnsLeft`, `dlTurnsLeft` (Spec/Live): the turns that the limits N3101, N3103 and
N3105 leave it. `UlMoves`, `DlMoves`: a turn of the TBF can still come.
-/

namespace Verif.Live

open Verif.Tbf Verif.LiveSpec

/-- How many failures are left, for a counter below its limit: the difference. -/
theorem C76_left (lim n : Nat) (hl : lim < 256) (hn : n < lim) : left lim n = lim - n := by
  unfold left; omega

/-- No history runs into a failing assertion. -/
theorem C76_no_crash (c : Cfg) (h1 : c.ul.n3101 < 256) (h3 : c.ul.n3103 < 256) (hl : c.n3105 < 256) (ops : List (Op × Env)) :
    ∃ q, run c Pd.empty ops = some q :=
  run_total h1 h3 hl ops _ uinv_empty dinv_empty
    ⟨fun _ _ h => absurd h List.not_mem_nil, fun _ _ h => absurd h List.not_mem_nil⟩

/-- After all histories, every uplink TBF and every downlink TBF is one for which a turn can still come: it is not forgotten. Partial: histories in
which no measurement report and no cell change notification arrives in a block in which the answer to a poll is expected (`Stray`; see `C76_stuck`). -/
theorem C76_moves_partial (c : Cfg) (h1 : c.ul.n3101 < 256) (h3 : c.ul.n3103 < 256) (hl : c.n3105 < 256) (ops : List (Op × Env)) (q : Pd)
    (hr : run c Pd.empty ops = some q) (hs : Always c (fun p op => ¬ Stray p op) Pd.empty ops) :
    (∀ b s, q.ul b = some s → UlMoves q b s) ∧ ∀ b s, q.dl b = some s → DlMoves q b s := by
  obtain ⟨hu, hd, hw⟩ := live_run h1 h3 hl ops _ q uinv_empty dinv_empty hr
  obtain ⟨w1, w2⟩ := hw uwait_empty dwait_empty hs
  exact ⟨fun b s h => ul_moves hu w1 h, fun b s h => dl_moves hd w2 h⟩

theorem ul_left_pos (c : Cfg) (s : Ul) : 1 ≤ ulTurnsLeft c s := by
  have h1 := left_pos c.ul.n3101 s.n3101
  have h2 := left_pos c.ul.n3103 s.n3103
  unfold ulTurnsLeft
  split <;> omega

theorem dl_left_pos (c : Cfg) (s : Dl) : 1 ≤ dlTurnsLeft c s := by
  have h1 := left_pos c.n3105 s.n3105
  unfold dlTurnsLeft
  split <;> first
    | omega
    | (split <;> first
        | omega
        | (split <;> omega))

/-- In all histories: from any time on, an uplink TBF whose mobile sends no data any more takes at most as many turns as it had left, and fewer as long
as it exists. -/
theorem C76_ul (c : Cfg) (h1 : c.ul.n3101 < 256) (h3 : c.ul.n3103 < 256) (hl : c.n3105 < 256) (past future : List (Op × Env)) (p q : Pd)
    (hp : run c Pd.empty past = some p) (hq : run c p future = some q) (b : Nat) (s : Ul) (hb : p.ul b = some s)
    (hs : ∀ x ∈ future, UlSilent b x.1) :
    turns c (fun p => ulTurn p b) p future ≤ ulTurnsLeft c s ∧
    (q.ul b ≠ none → turns c (fun p => ulTurn p b) p future < ulTurnsLeft c s) := by
  obtain ⟨hu, _, _⟩ := live_run h1 h3 hl past _ p uinv_empty dinv_empty hp
  have h := (ul_turns h1 h3 b future p q hu hs hq).2 s hb
  refine ⟨h.1, fun hx => ?_⟩
  rcases h.2 with x | ⟨s', x, y⟩
  · exact absurd x hx
  · have := ul_left_pos c s'
    omega

/-- In all histories: from any time on, a downlink TBF whose mobile neither acknowledges data nor answers a poll takes at most as many turns as it
had left, and fewer as long as it exists. -/
theorem C76_dl (c : Cfg) (h1 : c.ul.n3101 < 256) (h3 : c.ul.n3103 < 256) (hl : c.n3105 < 256) (past future : List (Op × Env)) (p q : Pd)
    (hp : run c Pd.empty past = some p) (hq : run c p future = some q) (b : Nat) (s : Dl) (hb : p.dl b = some s)
    (hs : Always c (fun p op => DlSilent p b op) p future) :
    turns c (fun p => dlTurn p b) p future ≤ dlTurnsLeft c s ∧
    (q.dl b ≠ none → turns c (fun p => dlTurn p b) p future < dlTurnsLeft c s) := by
  obtain ⟨_, hd, _⟩ := live_run h1 h3 hl past _ p uinv_empty dinv_empty hp
  have h := (dl_turns hl b future p q hd hs hq).2 s hb
  refine ⟨h.1, fun hx => ?_⟩
  rcases h.2 with x | ⟨s', x, y⟩
  · exact absurd x hx
  · have := dl_left_pos c s'
    omega

/-- The other circumstances of a step do not matter in these examples. -/
def e : Env := {}

/-- A mobile sends all its data; instead of the answer to the final acknowledgement, a measurement report arrives. -/
def strayed : List (Op × Env) :=
  [(.newUl 0 true, e), (.ul 0 .timer, e), (.recv 8 (.data 0 true true true false), e), (.sendAck 0 13 true, e), (.recv 13 .report, e)]

/-- The property fails: after `strayed` the uplink TBF takes no turn any more and stays for ever, whatever happens, unless something else asks for it
(it is freed from outside, or is used to assign another uplink TBF). -/
theorem C76_stuck (c : Cfg) (p : Pd) (hp : run c Pd.empty strayed = some p) (future : List (Op × Env))
    (hf : ∀ x ∈ future, x.1 ≠ .ul 0 .free ∧ x.1 ≠ .ul 0 .schedUl ∧ x.1 ≠ .ul 0 .schedRej) (q : Pd) (hq : run c p future = some q) :
    (∃ s, q.ul 0 = some s ∧ ¬ UlMoves q 0 s) ∧ turns c (fun p => ulTurn p 0) p future = 0 := by
  have start : Sep p ∧ DeadAt 0 p := by
    cases hp
    refine ⟨⟨List.Pairwise.nil, fun _ h => absurd h List.not_mem_nil⟩, ⟨_, rfl, ?_⟩, fun _ h => absurd h List.not_mem_nil⟩
    exact ⟨rfl, rfl, rfl, rfl, rfl, rfl, rfl⟩
  have dead : ∀ p, DeadAt 0 p → ∃ s, p.ul 0 = some s ∧ ¬ UlMoves p 0 s := by
    rintro p ⟨⟨s, hs, h⟩, hn⟩
    refine ⟨s, hs, ?_⟩
    rintro (x | x | x | ⟨n, x1, x2, x3, _⟩)
    · exact x h.2.2.1
    · rw [h.1] at x; cases x
    · rw [h.2.1] at x; cases x
    · rw [hn n (mem_of.2 ⟨x1, x2⟩)] at x3; cases x3
  have noturn : ∀ p op, DeadAt 0 p → ulTurn p 0 op = false := by
    rintro p op ⟨⟨s, hs, h⟩, hn⟩
    unfold ulTurn
    rw [hs]
    cases op with
    | ul b o => cases o <;> simp [h.2.2.1]
    | sendAck b fn t => simp [h.2.1]
    | expire fn =>
      cases hx : p.node fn with
      | none => simp [hx]
      | some n =>
        by_cases ho : n.own = .ul 0
        · have := hn n (mem_of.2 ⟨(node_some hx).1, ho⟩)
          simp [hx, this]
        · simp [hx, ho]
    | _ => rfl
  clear hp
  induction future generalizing p with
  | nil => cases hq; exact ⟨dead _ start.2, rfl⟩
  | cons x r ih =>
    obtain ⟨op, env⟩ := x
    obtain ⟨p1, h, hr⟩ := run_cons hq
    have hop := hf _ List.mem_cons_self
    have := ih p1 (fun x hx => hf x (List.mem_cons_of_mem _ hx)) hr ⟨start.1.step h, start.2.step start.1 hop h⟩
    refine ⟨this.1, ?_⟩
    rw [turns_cons h, noturn p op start.2, this.2]
    rfl

/-! Examples: the default limits. -/

def defaults : Cfg := ⟨⟨10, 4⟩, 8⟩

/-- The TBF of `strayed` exists. -/
example : ∃ p s, run defaults Pd.empty strayed = some p ∧ p.ul 0 = some s ∧ s.st = .finished :=
  ⟨_, _, rfl, rfl, rfl⟩

/-- A mobile that asked for an uplink TBF and never uses the granted blocks: 10 of them. -/
def mute : List (Op × Env) :=
  (.ul 0 .timer, e) ::
    ((List.range 10).flatMap fun i => [(.grant 0 (13 * i + 4), e), (.expire (13 * i + 4), e)]) ++ [(.ul 0 .timer, e)]

example : ∃ p s, run defaults Pd.empty [(.newUl 0 true, e)] = some p ∧ p.ul 0 = some s ∧ ulTurnsLeft defaults s = 12 ∧
    turns defaults (fun p => ulTurn p 0) p mute = 12 ∧ (run defaults p mute).isSome ∧ ∀ x ∈ mute, UlSilent 0 x.1 := by
  refine ⟨_, _, rfl, rfl, rfl, rfl, rfl, ?_⟩
  intro x hx
  simp only [mute, List.cons_append, List.mem_cons, List.mem_append, List.mem_flatMap, List.not_mem_nil, or_false] at hx
  rcases hx with rfl | ⟨i, _, rfl | rfl⟩ | rfl <;> exact ⟨fun _ => nofun, fun _ _ _ _ _ => nofun⟩

/-- A mobile that was assigned a downlink TBF and never answers a poll: 8 of them. (After each of the first ones the assignment is sent again.) -/
def deaf : List (Op × Env) :=
  ((List.range 8).flatMap fun i =>
    [(.dl 0 (.ev .pcuifCnf), e), (.dl 0 .timer, e), (.dlPoll 0 (13 * i + 4), e), (.expire (13 * i + 4), e)]) ++ [(.dl 0 .timer, e)]

example : ∃ p, run defaults Pd.empty [(.newDl 0 true false, e)] = some p ∧ (∃ s, p.dl 0 = some s ∧ dlTurnsLeft defaults s = 26) ∧
    (∃ q, run defaults p deaf = some q ∧ q.dl 0 = none ∧ turns defaults (fun p => dlTurn p 0) p deaf = 25) :=
  ⟨_, rfl, ⟨_, rfl, rfl⟩, _, rfl, rfl, rfl⟩

/-- Nothing of it is stray. -/
theorem always_mono {c : Cfg} {P Q : Pd → Op → Prop} (ops : List (Op × Env)) (p : Pd) (hx : ∀ p, ∀ x ∈ ops, P p x.1 → Q p x.1)
    (h : Always c P p ops) : Always c Q p ops := by
  induction ops generalizing p with
  | nil => trivial
  | cons x r ih =>
    obtain ⟨op, env⟩ := x
    rw [Always] at h ⊢
    exact ⟨hx p _ List.mem_cons_self h.1, fun q hq => ih q (fun p x hm => hx p x (List.mem_cons_of_mem _ hm)) (h.2 q hq)⟩

theorem always_true {c : Cfg} (ops : List (Op × Env)) (p : Pd) : Always c (fun _ _ => True) p ops := by
  induction ops generalizing p with
  | nil => trivial
  | cons x r ih => rw [Always]; exact ⟨trivial, fun q _ => ih q⟩

example : Always defaults (fun p op => ¬ Stray p op) Pd.empty ((.newUl 0 true, e) :: mute) := by
  refine always_mono _ _ ?_ (always_true _ _)
  intro p x hx _
  rintro ⟨fn, n, _, _, h⟩
  simp only [mute, List.cons_append, List.mem_cons, List.mem_append, List.mem_flatMap, List.not_mem_nil, or_false] at hx
  rcases hx with rfl | rfl | ⟨i, _, rfl | rfl⟩ | rfl <;> rcases h with h | h <;> cases h

example (p : Pd) : Always defaults (fun p op => DlSilent p 0 op) p deaf := by
  refine always_mono _ _ ?_ (always_true _ _)
  intro p x hx _
  simp only [deaf, List.mem_cons, List.mem_append, List.mem_flatMap, List.not_mem_nil, or_false] at hx
  rcases hx with ⟨i, _, rfl | rfl | rfl | rfl⟩ | rfl <;>
    exact ⟨fun _ _ => nofun, fun _ _ => nofun, fun _ _ _ _ h => by cases h⟩

end Verif.Live
