import Verif.Props.C30
/-!
# C31: Application information
-/

namespace Verif.Sched

open Verif.Cs

/-- History of the application information of a cell: requests of the BSC, mobiles that are freed,
and blocks asked for by the BTS with their frame number (the rest of the state of the scheduler is
arbitrary). Orderly histories (`ord`): a request is only made while no mobile waits, and no mobile
is freed while it waits. -/
inductive AppHist (c : Cfg) (ord : Bool) : App → List (Nat × Block) → Prop
  | init : AppHist c ord {} []
  | request {a blks} (m : Nat) (withDl : List Nat) : AppHist c ord a blks → withDl.Nodup → withDl.length < 2 ^ 32 →
      (ord = true → ∀ x, a.flag x = false) → AppHist c ord (appReq m withDl a) blks
  | free {a blks} (x : Nat) : AppHist c ord a blks → (ord = true → a.flag x = false) →
      AppHist c ord (appFree x a) blks
  | block {a blks} (e : Env) (s s1 : St) (o : Out) : AppHist c ord a blks → s.app = a → rts c e s = some (s1, o) →
      AppHist c ord s1.app ((e.fn, o.blk) :: blks)

theorem rts_not_app {c : Cfg} {e : Env} {s s1 : St} {o : Out} (h : rts c e s = some (s1, o)) (m : Nat) :
    o.blk ≠ .ctrl (.app m) := by
  intro hb
  have h1 := ((rts_ctrl h).2.2 _).1 hb
  unfold selCtrl at h1
  dsimp only at h1
  split at h1
  · cases h1
  · split at h1
    · cases h1
    · split at h1
      · cases h1
      · dsimp only at h1
        split at h1 <;> cases h1

/-- C31 does not hold: in no history is application information ever sent to any mobile. -/
theorem C31_never_sent (c : Cfg) (ord : Bool) (a : App) (blks : List (Nat × Block)) (h : AppHist c ord a blks) :
    ∀ x ∈ blks, ∀ m, x.2 ≠ .ctrl (.app m) := by
  induction h with
  | init => intro x hx; cases hx
  | request _ _ _ _ _ _ ih => exact ih
  | free _ _ _ ih => exact ih
  | block e s s1 o _ _ hr ih =>
    intro x hx m
    rcases List.mem_cons.1 hx with rfl | hx
    · exact rts_not_app hr m
    · exact ih x hx m

/-- The mobiles waiting are those of the list, without repetition, and the counter is their number;
the message is stored exactly while there are some. -/
def Waiting (a : App) (l : List Nat) : Prop :=
  l.Nodup ∧ (∀ x, a.flag x = true ↔ x ∈ l) ∧ a.count = l.length ∧ l.length < 2 ^ 32 ∧ (a.info = none ↔ l = [])

theorem selCtrl_app (e : Env) (n : Nat) (a : App) :
    (selCtrl e n a).2.2 = (schedApp a (cand e.trxUl e.trxDl .dlAss)).2 := by
  unfold selCtrl
  dsimp only
  generalize schedApp a (cand e.trxUl e.trxDl .dlAss) = q
  obtain ⟨m, a1⟩ := q
  cases m with
  | some m => rfl
  | none =>
    simp only
    split
    · rfl
    · split <;> rfl

/-- One block: nothing changes, or exactly one mobile (with a downlink assignment pending) is
taken off. -/
theorem Waiting.block {c : Cfg} {e : Env} {s s1 : St} {o : Out} {l : List Nat} (hw : Waiting s.app l)
    (h : rts c e s = some (s1, o)) :
    (s1.app = s.app) ∨ ∃ x ∈ l, Waiting s1.app (l.erase x) ∧ ∃ r, Pending e .dlAss r ∧ r.t.ms = x := by
  have h2 := (rts_ctrl h).2.1
  rw [h2, selCtrl_app]
  unfold schedApp
  cases hc : cand e.trxUl e.trxDl .dlAss with
  | none => exact .inl rfl
  | some r =>
    dsimp only
    split
    · rename_i hf
      right
      obtain ⟨h1, h2, h3, h4, h5⟩ := hw
      have hx := (h2 r.t.ms).1 hf
      have hlen : 0 < l.length := List.length_pos_of_mem hx
      have herase : (l.erase r.t.ms).length = l.length - 1 := List.length_erase_of_mem hx
      have hcnt : (s.app.count + 2 ^ 32 - 1) % 2 ^ 32 = l.length - 1 := by rw [h3]; omega
      refine ⟨r.t.ms, hx, ⟨h1.erase _, fun y => ?_, ?_, ?_, ?_⟩, r, cand_mem hc, rfl⟩
      · dsimp only
        rw [h1.mem_erase_iff]
        split
        · simp [*]
        · rw [h2 y]; simp [*]
      · dsimp only; rw [herase, hcnt]
      · omega
      · dsimp only
        rw [hcnt]
        rw [← List.length_eq_zero_iff, herase]
        split
        · simp [*]
        · rename_i hne
          constructor
          · intro hi; rw [h5] at hi; rw [hi] at hlen; cases hlen
          · intro h0; exact absurd h0 hne
    · exact .inl rfl

/-- C31, counter. Partial: the property is claimed for all histories; it is proved for orderly
ones: there the counter is the number of the mobiles that wait. -/
theorem C31_counter_partial (c : Cfg) (a : App) (blks : List (Nat × Block)) (h : AppHist c true a blks) :
    ∃ l, Waiting a l := by
  induction h with
  | init => exact ⟨[], List.nodup_nil, by simp, rfl, by decide, by simp⟩
  | @request a blks m l _ hnd hlen hno ih =>
    obtain ⟨l0, hw⟩ := ih
    have hno := hno rfl
    have hnil : l0 = [] := by
      cases l0 with
      | nil => rfl
      | cons x l0 => have := (hw.2.1 x).2 List.mem_cons_self; rw [hno x] at this; cases this
    have hmod : l.length % 2 ^ 32 = l.length := Nat.mod_eq_of_lt hlen
    unfold appReq
    dsimp only
    rw [hmod]
    split
    · rename_i h0
      refine ⟨l, hnd, fun x => ?_, rfl, hlen, ?_⟩
      · simp [hno x]
      · dsimp only
        rw [hw.2.2.2.2, hnil, ← List.length_eq_zero_iff, ← List.length_eq_zero_iff, h0]
        simp
    · rename_i h0
      refine ⟨l, hnd, fun x => ?_, rfl, hlen, ?_⟩
      · simp [hno x]
      · dsimp only
        rw [← List.length_eq_zero_iff]
        simp [h0]
  | @free a blks x _ hx ih =>
    obtain ⟨l, hw⟩ := ih
    have : appFree x a = a := by
      unfold appFree
      congr 1
      funext y
      split
      · rename_i h; rw [h, hx rfl]
      · rfl
    rw [this]
    exact ⟨l, hw⟩
  | block e s s1 o _ hs hr ih =>
    obtain ⟨l, hw⟩ := ih
    rw [← hs] at hw
    rcases hw.block hr with h | ⟨x, _, h, _⟩
    · rw [h]; exact ⟨l, hw⟩
    · exact ⟨_, h⟩

/-- C31: a mobile is only taken off the list when a downlink assignment is pending for it: without
one it waits for ever. -/
theorem C31_only_with_dl_assignment (c : Cfg) (e : Env) (s s1 : St) (o : Out) (h : rts c e s = some (s1, o))
    (x : Nat) (hx : s.app.flag x = true) (hno : ∀ r, Pending e .dlAss r → r.t.ms ≠ x) : s1.app.flag x = true := by
  have h2 := (rts_ctrl h).2.1
  rw [h2, selCtrl_app]
  unfold schedApp
  cases hc : cand e.trxUl e.trxDl .dlAss with
  | none => exact hx
  | some r =>
    dsimp only
    split
    · dsimp only
      rw [if_neg (fun h => hno r (cand_mem hc) h.symm)]
      exact hx
    · exact hx

/-! ### Other histories -/

def exAss31 (x : Nat) : CtlT := { id := x, ms := x, ctrlTs := true, dlAss := true }

theorem exBlock31 {c : Cfg} {ord : Bool} {a : App} {blks : List (Nat × Block)} (x : Nat) (h : AppHist c ord a blks)
    (hc : c = exCfg29) :
    ∃ blks', AppHist c ord (schedApp a (some ⟨true, exAss31 x⟩)).2 blks' := by
  subst hc
  have hr : ∃ s1 o, rts exCfg29 (exEnv30 (fun _ _ => false) [exAss31 x] []) { app := a } = some (s1, o) := by
    unfold rts
    generalize hq : selUsf (exEnv30 (fun _ _ => false) [exAss31 x] []) { app := a } (St.gprsOnly { app := a }) = q
    have hq2 : q.usf = none := by rw [← hq]; rfl
    unfold selBlock
    dsimp only
    generalize hs : selCtrl (exEnv30 (fun _ _ => false) [exAss31 x] []) 0 a = r
    obtain ⟨m, n, a1⟩ := r
    cases m with
    | some m => exact ⟨_, _, rfl⟩
    | none =>
      rw [hq2]
      dsimp only
      have : ∃ y z, selDl exCfg29 0 (reqKind (St.gprsOnly { app := a }) none) (exEnv30 (fun _ _ => false) [exAss31 x] []).dl 0 = (y, some (2, exDl29 1 false)) ∧ dataCs exCfg29 (reqKind (St.gprsOnly { app := a }) none) (exDl29 1 false) = some z := by
        exact ⟨_, _, rfl, rfl⟩
      obtain ⟨y, z, h1, h2⟩ := this
      have h1' : selDl exCfg29 (exEnv30 (fun _ _ => false) [exAss31 x] []).fn (reqKind (St.gprsOnly { app := a }) none) (exEnv30 (fun _ _ => false) [exAss31 x] []).dl 0 = (y, some (2, exDl29 1 false)) := h1
      rw [h1']
      dsimp only
      rw [h2]
      exact ⟨_, _, rfl⟩
  obtain ⟨s1, o, hr⟩ := hr
  have := AppHist.block _ _ s1 o h rfl hr
  rw [(rts_ctrl hr).2.1, selCtrl_app] at this
  exact ⟨_, this⟩

/-- A mobile that is freed while it waits stays in the counter for ever. -/
theorem C31_freed_is_counted (c : Cfg) : ∃ a, AppHist c false a [] ∧ a.count = 1 ∧ ∀ x, a.flag x = false := by
  refine ⟨appFree 1 (appReq 9 [1] {}), .free 1 (.request 9 [1] .init (by decide) (by decide) nofun) nofun, rfl, fun x => ?_⟩
  show (if x = 1 then false else (decide (x ∈ [1]) || false)) = false
  split
  · rfl
  · simp [*]

/-- A second request before all mobiles got the first one: a mobile which has no downlink TBF any
more still waits but is not counted. The message is discarded while it waits, and when it is taken
off in the end the counter wraps around. -/
theorem C31_second_request : ∃ a b blks1 blks2, AppHist exCfg29 false a blks1 ∧ AppHist exCfg29 false b blks2 ∧
    (a.flag 2 = true ∧ a.count = 0 ∧ a.info = none) ∧ ((∀ x, b.flag x = false) ∧ b.count = 2 ^ 32 - 1) := by
  have h0 : AppHist exCfg29 false (appReq 10 [1] (appReq 9 [1, 2] {})) [] :=
    .request 10 [1] (.request 9 [1, 2] .init (by decide) (by decide) nofun) (by decide) (by decide) nofun
  obtain ⟨b1, h1⟩ := exBlock31 1 h0 rfl
  obtain ⟨b2, h2⟩ := exBlock31 2 h1 rfl
  refine ⟨_, _, _, _, h1, h2, ⟨by decide +kernel, by decide +kernel, by decide +kernel⟩, fun x => ?_, by decide +kernel⟩
  show (if x = 2 then false else if x = 1 then false else (decide (x ∈ [1]) || (decide (x ∈ [1, 2]) || false))) = false
  split
  · rfl
  · split
    · rfl
    · simp [*]

/-! Instance: two mobiles wait, one of them is taken off. -/

example : ∃ a blks, AppHist exCfg29 true a blks ∧ Waiting a [2] := by
  obtain ⟨b, h⟩ := exBlock31 1 (AppHist.request (ord := true) 9 [1, 2] .init (by decide) (by decide) (fun _ _ => rfl)) rfl
  refine ⟨_, _, h, by decide, fun x => ?_, by decide +kernel, by decide, ?_⟩
  · show (if x = 1 then false else (decide (x ∈ [1, 2]) || false)) = true ↔ _
    split
    · simp [*]
    · simp [*]
  · exact ⟨fun h => absurd h (by decide +kernel), nofun⟩

end Verif.Sched
