import Verif.Spec.Confirm
/-!
Lemmas for C87.
-/

namespace Verif.Tbf

/-- A TBF that was started is assigned on one of the channels. -/
def Nice (s : Dl) : Prop := s.st ≠ .new ∧ (s.ccch = true → s.pacch = false)

/-- X2002 is only started by the confirmation, and assignments on the CCCH are handed to the BTS. -/
def Tame (s s' : Dl) : Prop :=
  (s'.st = .assign → s'.tmr = some .x2002 → s.st = .assign ∧ s.tmr = some .x2002 ∧ s'.immAss = s.immAss) ∧
  (s'.st = .assign → s'.ccch = true → (s.st = .assign ∧ s.ccch = true) ∨ s.immAss < s'.immAss) ∧ s.immAss ≤ s'.immAss ∧ Nice s'

theorem dispatch_tame {env : Env} {s s' : Dl} {e : Ev} (h : dlDispatch env s e = some s') (hn : Nice s) (h1 : e ≠ .pcuifCnf) (h2 : e ≠ .addCcch)
    (h3 : e = .addPacch → s.ccch = false) : Tame s s' := by
  obtain ⟨st, cc, pa, tmr, fa, up, da, ua, n, im, su, fr, uf⟩ := s
  unfold Nice at hn
  unfold dlDispatch at h
  split at h
  · cases st <;> cases e <;> simp_all [dlIn, dlAction, dlChg, dlOut, dlTimeout, dlEnter, Tame, Nice] <;>
      grind [Option.bind_eq_some_iff, Option.map_eq_some_iff]
  · injection h with h; subst h; exact ⟨fun a b => ⟨a, b, rfl⟩, fun a b => .inl ⟨a, b⟩, Nat.le_refl _, hn⟩

theorem dispatch_flow {env : Env} {s s' : Dl} {e : Ev} (h : dlDispatch env s e = some s') (h0 : s.st = .assign) (h1 : s'.st = .flow) :
    e = .ackPacch ∨ e = .readyCcch := by
  obtain ⟨st, cc, pa, tmr, fa, up, da, ua, n, im, su, fr, uf⟩ := s
  subst h0
  unfold dlDispatch at h
  split at h
  · cases e <;> simp_all [dlIn, dlAction, dlChg, dlOut, dlTimeout, dlEnter] <;> grind [Option.bind_eq_some_iff, Option.map_eq_some_iff]
  · injection h with h; subst h; cases h1

theorem Tame.refl {s : Dl} (h : Nice s) : Tame s s := ⟨fun a b => ⟨a, b, rfl⟩, fun a b => .inl ⟨a, b⟩, Nat.le_refl _, h⟩

/-- States that agree on what `Tame` is about. -/
theorem Tame.of {s s1 s' : Dl} (h : Tame s1 s') (h1 : s1.st = s.st) (h2 : s1.tmr = some .x2002 → s.tmr = some .x2002)
    (h3 : s1.ccch = true → s.ccch = true) (h4 : s1.immAss = s.immAss) : Tame s s' := by
  obtain ⟨a, b, c, d⟩ := h
  refine ⟨fun x y => ?_, fun x y => ?_, h4 ▸ c, d⟩
  · obtain ⟨p, q, r⟩ := a x y
    exact ⟨h1 ▸ p, h2 q, h4 ▸ r⟩
  · rcases b x y with ⟨p, q⟩ | p
    · exact .inl ⟨h1 ▸ p, h3 q⟩
    · exact .inr (h4 ▸ p)

theorem Tame.same {s s' : Dl} (hn : Nice s') (h1 : s'.st = s.st) (h2 : s'.tmr = some .x2002 → s.tmr = some .x2002) (h3 : s'.ccch = true → s.ccch = true)
    (h4 : s'.immAss = s.immAss) : Tame s s' :=
  Tame.of (Tame.refl hn) h1 h2 h3 h4

/-- An operation other than the confirmation. -/
theorem step_tame {lim : Nat} {s s' : Dl} {op : DlOp} {env : Env} (h : dlStep lim s op env = some s') (hn : Nice s)
    (h1 : ∀ e, op = .ev e → e = .ackPacch ∨ e = .lastDlSent) : Tame s s' := by
  unfold dlStep at h
  split at h
  · injection h with h; subst h; exact .refl hn
  · cases op with
    | ev e => rcases h1 e rfl with rfl | rfl <;> exact dispatch_tame h hn nofun nofun nofun
    | timer =>
      dsimp only at h
      unfold dlTimer at h
      split at h
      · injection h with h; subst h; exact .refl hn
      · unfold dlX2002 at h
        split at h
        · injection h with h; subst h; exact .same hn rfl nofun id rfl
        · split at h
          · exact (dispatch_tame h hn nofun nofun nofun).of rfl nofun id rfl
          · split at h
            · obtain ⟨d, _, h⟩ := Option.bind_eq_some_iff.1 h
              exact (dispatch_tame h ⟨hn.1, nofun⟩ nofun nofun (fun _ => rfl)).of rfl nofun nofun rfl
            · injection h with h; subst h; exact .same ⟨hn.1, nofun⟩ rfl nofun nofun rfl
      · unfold dlChg at h
        split at h
        · unfold dlEnter at h
          dsimp only at h
          injection h with h; subst h
          exact ⟨nofun, nofun, Nat.le_refl _, nofun, hn.2⟩
        · cases h
      all_goals first
        | (injection h with h; subst h; exact .same hn rfl nofun id rfl)
        | cases h
    | uaTimer =>
      obtain ⟨f, _, rfl⟩ := Option.map_eq_some_iff.1 h
      exact .same hn rfl id id rfl
    | dlAck f =>
      dsimp only at h
      unfold dlRcvdAck at h
      dsimp only at h
      split at h
      · exact (dispatch_tame h hn nofun nofun nofun).of rfl id id rfl
      · injection h with h; subst h; exact .same hn rfl id id rfl
    | pollTimeout r =>
      dsimp only at h
      unfold dlPollTimeout at h
      cases r with
      | ulAck => cases h
      | ulAss =>
        dsimp only at h
        split at h
        · injection h with h; subst h; exact .refl hn
        · split at h
          · exact (dispatch_tame h hn nofun nofun nofun).of rfl id id rfl
          · obtain ⟨f, _, rfl⟩ := Option.map_eq_some_iff.1 h
            exact .same hn rfl id id rfl
      | dlAss =>
        dsimp only at h
        split at h
        · injection h with h; subst h; exact .refl hn
        · split at h
          · exact (dispatch_tame h hn nofun nofun nofun).of rfl id id rfl
          · obtain ⟨f, _, rfl⟩ := Option.map_eq_some_iff.1 h
            exact .same hn rfl id id rfl
      | dlAck =>
        dsimp only at h
        split at h
        · exact (dispatch_tame h hn nofun nofun nofun).of rfl id id rfl
        · exact (dispatch_tame h hn nofun nofun nofun).of rfl id id rfl
    | ctrlAck r t =>
      dsimp only at h
      unfold dlCtrlAck at h
      cases r with
      | ulAck => cases h
      | ulAss =>
        dsimp only at h
        split at h
        · injection h with h; subst h; exact .refl hn
        · obtain ⟨f, _, rfl⟩ := Option.map_eq_some_iff.1 h
          exact .same hn rfl id id rfl
      | dlAss =>
        dsimp only at h
        split at h
        · injection h with h; subst h; exact .refl hn
        · obtain ⟨d, _, h⟩ := Option.bind_eq_some_iff.1 h
          split at h
          · injection h with h; subst h; exact .same hn rfl id id rfl
          · split at h
            · injection h with h; subst h; exact .same hn rfl id id rfl
            · split at h
              · injection h with h; subst h; exact .same hn rfl id id rfl
              · exact (dispatch_tame h hn nofun nofun nofun).of rfl id id rfl
      | dlAck => injection h with h; subst h; exact .refl hn
    | createDl m =>
      obtain ⟨f, _, rfl⟩ := Option.map_eq_some_iff.1 h
      exact .same hn rfl id id rfl
    | createUl m =>
      obtain ⟨f, _, rfl⟩ := Option.map_eq_some_iff.1 h
      exact .same hn rfl id id rfl
    | schedDl =>
      dsimp only at h
      split at h
      · obtain ⟨f, _, rfl⟩ := Option.map_eq_some_iff.1 h
        exact .same hn rfl id id rfl
      · injection h with h; subst h; exact .refl hn
    | schedUl =>
      obtain ⟨f, _, rfl⟩ := Option.map_eq_some_iff.1 h
      exact .same hn rfl id id rfl
    | schedRej =>
      obtain ⟨f, _, rfl⟩ := Option.map_eq_some_iff.1 h
      exact .same hn rfl id id rfl
    | abortDl =>
      obtain ⟨f, _, rfl⟩ := Option.map_eq_some_iff.1 h
      exact .same hn rfl id id rfl
    | free => injection h with h; subst h; exact .same hn rfl id id rfl

/-- How data transfer begins. -/
theorem step_flow {lim : Nat} {s s' : Dl} {op : DlOp} {env : Env} (h : dlStep lim s op env = some s') (h0 : s.st = .assign) (h1 : s'.st = .flow) :
    op = .ev .ackPacch ∨ op = .ev .readyCcch ∨ (∃ b, op = .ctrlAck .dlAss b) ∨ (op = .timer ∧ s.tmr = some .x2002) := by
  have same : some s = some s' → False := fun e => by injection e with e; subst e; rw [h0] at h1; cases h1
  unfold dlStep at h
  split at h
  · exact (same h).elim
  · cases op with
    | ev e => rcases dispatch_flow h h0 h1 with rfl | rfl <;> simp
    | timer =>
      dsimp only at h
      unfold dlTimer at h
      split at h
      · exact (same h).elim
      · next ht => exact .inr (.inr (.inr ⟨rfl, ht⟩))
      · rw [dlChg, if_neg (by simp [h0, dlOut])] at h; cases h
      all_goals first
        | (injection h with h; subst h; exact absurd (h0.symm.trans (show s.st = .flow from h1)) nofun)
        | cases h
    | ctrlAck r t =>
      cases r with
      | dlAss => exact .inr (.inr (.inl ⟨t, rfl⟩))
      | ulAck => cases h
      | dlAck => exact (same h).elim
      | ulAss =>
        dsimp only [dlCtrlAck] at h
        split at h
        · exact (same h).elim
        · obtain ⟨f, _, rfl⟩ := Option.map_eq_some_iff.1 h
          exact absurd (h0.symm.trans (show s.st = .flow from h1)) nofun
    | pollTimeout r =>
      dsimp only at h
      unfold dlPollTimeout at h
      have hd : ∀ s1 e, dlDispatch env s1 e = some s' → s1.st = .assign → e = .ackPacch ∨ e = .readyCcch := fun s1 e b a => dispatch_flow b a h1
      cases r with
      | ulAck => cases h
      | ulAss =>
        dsimp only at h
        split at h
        · exact (same h).elim
        · split at h
          · rcases hd _ _ h h0 with e | e <;> cases e
          · obtain ⟨f, _, rfl⟩ := Option.map_eq_some_iff.1 h
            exact absurd (h0.symm.trans (show s.st = .flow from h1)) nofun
      | dlAss =>
        dsimp only at h
        split at h
        · exact (same h).elim
        · split at h
          · rcases hd _ _ h h0 with e | e <;> cases e
          · obtain ⟨f, _, rfl⟩ := Option.map_eq_some_iff.1 h
            exact absurd (h0.symm.trans (show s.st = .flow from h1)) nofun
      | dlAck =>
        dsimp only at h
        split at h
        · rcases hd _ _ h h0 with e | e <;> cases e
        · rcases hd _ _ h h0 with e | e <;> cases e
    | dlAck f =>
      dsimp only [dlRcvdAck] at h
      split at h
      · rcases dispatch_flow h h0 h1 with e | e <;> cases e
      · injection h with h; subst h; exact absurd (h0.symm.trans (show s.st = .flow from h1)) nofun
    | schedDl =>
      dsimp only at h
      split at h
      · obtain ⟨f, _, rfl⟩ := Option.map_eq_some_iff.1 h
        exact absurd (h0.symm.trans (show s.st = .flow from h1)) nofun
      · exact (same h).elim
    | free => injection h with h; subst h; exact absurd (h0.symm.trans (show s.st = .flow from h1)) nofun
    | _ =>
      obtain ⟨f, _, rfl⟩ := Option.map_eq_some_iff.1 h
      exact absurd (h0.symm.trans (show s.st = .flow from h1)) nofun

end Verif.Tbf
