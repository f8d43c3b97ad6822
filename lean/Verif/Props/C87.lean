import Verif.Lemmas.Confirm
import Verif.Lemmas.MsStore
import Verif.Model.PcuIf
import Verif.Model.PcuTx

/-!
# C87: a downlink TBF carries nothing before the mobile can know of it

An assignment on the CCCH is handed to the BTS, which says when it has sent it; the PCU waits for X2002 then. Blocks of a downlink TBF are only
scheduled when data transfer has begun (C29).
-/

namespace Verif.Confirm

open Verif.Tbf (Dl DlOp Env Nice Tame)

/-- Since the BTS was last given an assignment of TBF `k` it has confirmed one. -/
def Heard (l : List Did) (k : Nat) : Prop :=
  ∃ l1 d l2, l = l1 ++ d :: l2 ∧ d.Confirms k ∧ (∀ d' ∈ l1, ¬ d'.Sends k) ∧ ∃ d' ∈ l2, d'.Sends k

theorem Heard.cons {l : List Did} {k : Nat} (h : Heard l k) {d : Did} (hd : ¬ d.Sends k) : Heard (d :: l) k := by
  obtain ⟨l1, e, l2, rfl, h1, h2, h3⟩ := h
  refine ⟨d :: l1, e, l2, rfl, h1, fun d' hd' => ?_, h3⟩
  rcases List.mem_cons.1 hd' with rfl | hd'
  · exact hd
  · exact h2 d' hd'

def TbfInv (l : List Did) (w : W) (k : Nat) (s : Dl) : Prop :=
  k < w.next ∧ Nice s ∧ (s.st = .assign → s.tmr = some .x2002 → Heard l k) ∧ (s.st = .assign → s.ccch = true → ∃ d ∈ l, d.Sends k)

def Inv (l : List Did) (w : W) : Prop := ∀ k t, w.tbf k = some t → TbfInv l w k t.fsm

theorem TbfInv.keep {l : List Did} {w w' : W} {k : Nat} {s s' : Dl} (h : TbfInv l w k s) {d : Did} (hd : ¬ d.Sends k) (hn : w.next ≤ w'.next)
    (h1 : s'.st = s.st) (h2 : s'.tmr = s.tmr) (h3 : s'.ccch = s.ccch) (h4 : s'.pacch = s.pacch) : TbfInv (d :: l) w' k s' := by
  obtain ⟨a, ⟨b1, b2⟩, c, e⟩ := h
  refine ⟨Nat.lt_of_lt_of_le a hn, ⟨h1 ▸ b1, h3 ▸ h4 ▸ b2⟩, fun x y => (c (h1 ▸ x) (h2 ▸ y)).cons hd, fun x y => ?_⟩
  obtain ⟨d', hd', hs⟩ := e (h1 ▸ x) (h3 ▸ y)
  exact ⟨d', List.mem_cons_of_mem _ hd', hs⟩

theorem assignment_tbf (ids : Store.St) (k i : Nat) : (assignment ids k i).tbf = k := by
  unfold assignment; split <;> rfl

theorem byTlli_mem {s : Store.St} {t i : Nat} (h : Store.byTlli s t = some i) :
    ∃ m, (i, m) ∈ s.ms ∧ t ≠ 0xffffffff ∧ (t = m.tlli ∨ t = m.newUl ∨ t = m.newDl) := by
  unfold Store.byTlli Store.getMs at h
  split at h
  · rename_i p hp
    injection h with h
    subst h
    split at hp
    · have h1 := List.mem_of_find?_eq_some hp
      have h2 := List.find?_some (p := fun p : Nat × Store.Mob => p.2.check t || p.2.check Store.noTlli) hp
      refine ⟨p.2, h1, ?_⟩
      simp [Store.Mob.check, Store.noTlli, or_assoc] at h2
      exact ⟨of_decide_eq_true h2.1, h2.2⟩
    · cases hp
  · rw [if_neg (by simp)] at h; cases h

theorem confirm_inv {w w' : W} {id : Nat} (h : confirm w id = some w') :
    w' = w ∨ ∃ i k t s, Store.byTlli w.ids id = some i ∧ w.cur i = some k ∧ w.tbf k = some t ∧ Tbf.dlDispatch {} t.fsm .pcuifCnf = some s ∧
      w' = { w with tbf := fun j => if j = k then some { t with fsm := s } else w.tbf j } := by
  unfold confirm at h
  split at h
  · injection h with h; exact .inl h.symm
  · split at h
    · injection h with h; exact .inl h.symm
    · rename_i i hi
      split at h
      · injection h with h; exact .inl h.symm
      · rename_i k hk
        split at h
        · injection h with h; exact .inl h.symm
        · rename_i t ht
          obtain ⟨s, hs, rfl⟩ := Option.map_eq_some_iff.1 h
          exact .inr ⟨i, k, t, s, hi, hk, ht, hs, rfl⟩

/-- What the confirmation does to a TBF. -/
theorem cnf_dispatch {s s' : Dl} (h : Tbf.dlDispatch {} s .pcuifCnf = some s') :
    s' = s ∨ (s.st = .assign ∧ s.ccch = true ∧ s' = { s with tmr := some .x2002 }) := by
  obtain ⟨st, cc, pa, tmr, fa, up, da, ua, n, im, su, fr, uf⟩ := s
  cases st <;> cases cc <;> simp_all [Tbf.dlDispatch, Tbf.dlIn, Tbf.dlAction]

theorem put_out {w : W} {k : Nat} {t : TbfOf} {s : Dl} {j : Nat} (hj : j ≠ k) : ∀ m ∈ (put w k t s).2, m.tbf ≠ j := by
  intro m hm
  unfold put at hm
  dsimp only at hm
  split at hm
  · rw [List.mem_singleton.1 hm, assignment_tbf]; exact Ne.symm hj
  · cases hm

theorem start_fsm {ccch upg : Bool} {s : Dl} (h : Tbf.dlDispatch {} { upg := upg } (if ccch then .addCcch else .addPacch) = some s) :
    s.st = .assign ∧ s.freed = false ∧ s.ccch = ccch ∧ s.pacch = !ccch ∧ s.tmr ≠ some .x2002 ∧ s.immAss = (if ccch then 1 else 0) := by
  cases ccch <;> cases upg <;> (have h := h; injection h with h; subst h; decide)

theorem run_inv {lim : Nat} {l : List Did} {w : W} (h : Run lim l w) : Inv l w := by
  induction h with
  | init => intro k t h; cases h
  | @step l w w' out ev hr ho hs ih =>
    intro k t hk
    cases ev with
    | ids s =>
      injection hs with hs; injection hs with h1 h2; subst h1; subst h2
      exact (ih k t hk).keep (by rintro ⟨m, hm, -⟩; cases hm) (Nat.le_refl _) rfl rfl rfl rfl
    | start i ccch upg =>
      obtain ⟨s, hd, hp⟩ := Option.map_eq_some_iff.1 (show start w i ccch upg = _ from hs)
      obtain ⟨f1, f2, f3, f4, f5, f6⟩ := start_fsm hd
      have e1 := congrArg Prod.fst hp
      have e2 := congrArg Prod.snd hp
      dsimp only at e1 e2
      have hout : ∀ j, j ≠ w.next → ∀ m ∈ out, m.tbf ≠ j := fun j hj => e2 ▸ put_out hj
      subst e1
      by_cases hkn : k = w.next
      · subst hkn
        unfold put at hk
        dsimp only at hk
        rw [if_pos rfl, f2, if_neg (by decide)] at hk
        injection hk with hk
        subst hk
        refine ⟨Nat.lt_succ_self _, ⟨by simp [f1], by simp [f3, f4]⟩, fun _ h => absurd h f5, fun _ h => ?_⟩
        refine ⟨_, List.mem_cons_self, ?_⟩
        rw [show s.ccch = ccch from f3] at h
        subst h
        unfold put at e2
        dsimp only at e2
        rw [if_pos (by rw [f6]; decide)] at e2
        exact ⟨_, e2 ▸ List.mem_singleton.2 rfl, assignment_tbf ..⟩
      · unfold put at hk
        dsimp only at hk
        rw [if_neg hkn] at hk
        obtain ⟨t0, h0, rfl⟩ := Option.map_eq_some_iff.1 hk
        refine (ih k t0 h0).keep (by rintro ⟨m, hm, hj⟩; exact hout k hkn m hm hj) (Nat.le_succ _) ?_ ?_ ?_ ?_ <;> split <;> rfl
    | op k0 o env =>
      dsimp only [step] at hs
      split at hs
      · injection hs with hs; injection hs with h1 h2; subst h1; subst h2
        exact (ih k t hk).keep (by rintro ⟨m, hm, -⟩; cases hm) (Nat.le_refl _) rfl rfl rfl rfl
      · rename_i t0 h0
        obtain ⟨s, hd, hp⟩ := Option.map_eq_some_iff.1 hs
        have e1 := congrArg Prod.fst hp
        have e2 := congrArg Prod.snd hp
        dsimp only at e1 e2
        have hout : ∀ j, j ≠ k0 → ∀ m ∈ out, m.tbf ≠ j := fun j hj => e2 ▸ put_out hj
        subst e1
        by_cases hkn : k = k0
        · subst hkn
          obtain ⟨a, b, c, e⟩ := ih k t0 h0
          obtain ⟨t1, t2, t3, t4⟩ := Tbf.step_tame hd b (fun x hx => by subst hx; exact ho)
          unfold put at hk
          dsimp only at hk
          rw [if_pos rfl] at hk
          split at hk
          · cases hk
          · injection hk with hk
            subst hk
            unfold put at e2
            dsimp only at e2
            refine ⟨a, t4, fun x y => ?_, fun x y => ?_⟩
            · obtain ⟨p, q, r⟩ := t1 x y
              rw [if_neg (by omega)] at e2
              subst e2
              exact (c p q).cons (by rintro ⟨m, hm, -⟩; cases hm)
            · rcases t2 x y with ⟨p, q⟩ | p
              · obtain ⟨d', hd', hs'⟩ := e p q
                exact ⟨d', List.mem_cons_of_mem _ hd', hs'⟩
              · rw [if_pos p] at e2
                subst e2
                exact ⟨_, List.mem_cons_self, _, List.mem_singleton.2 rfl, assignment_tbf ..⟩
        · unfold put at hk
          dsimp only at hk
          rw [if_neg hkn] at hk
          exact (ih k t hk).keep (by rintro ⟨m, hm, hj⟩; exact hout k hkn m hm hj) (Nat.le_refl _) rfl rfl rfl rfl
    | confirm id =>
      obtain ⟨w1, hc, hp⟩ := Option.map_eq_some_iff.1 (show (confirm w id).map (·, []) = _ from hs)
      injection hp with h1 h2; subst h1; subst h2
      have hno : ∀ j, ¬ Did.Sends ⟨w, .confirm id, [], w1⟩ j := by rintro j ⟨m, hm, -⟩; cases hm
      rcases confirm_inv hc with rfl | ⟨i, k0, t0, s, hi, hcur, h0, hd, rfl⟩
      · exact (ih k t hk).keep (hno k) (Nat.le_refl _) rfl rfl rfl rfl
      · dsimp only at hk
        split at hk
        · rename_i hkn
          subst hkn
          injection hk with hk
          subst hk
          rcases cnf_dispatch hd with rfl | ⟨p, q, rfl⟩
          · exact (ih k t0 h0).keep (hno k) (Nat.le_refl _) rfl rfl rfl rfl
          · obtain ⟨a, b, -, e⟩ := ih k t0 h0
            refine ⟨a, b, fun _ _ => ?_, fun x y => ?_⟩
            · obtain ⟨m, hm, hne, ht⟩ := byTlli_mem hi
              exact ⟨[], _, l, rfl, ⟨id, i, m, rfl, hne, hm, ht, hcur⟩, nofun, e p q⟩
            · obtain ⟨d', hd', hs'⟩ := e x y
              exact ⟨d', List.mem_cons_of_mem _ hd', hs'⟩
        · exact (ih k t hk).keep (hno k) (Nat.le_refl _) rfl rfl rfl rfl

/-- In all histories: data transfer of a downlink TBF `k` that waits for its assignment begins when the mobile acknowledges an assignment on the
PACCH, or when the timer of the TBF runs out after the BTS, since it was last given an assignment of the TBF, has confirmed that it sent an
assignment for the mobile. -/
theorem C87_begins (lim : Nat) (l : List Did) (w w' : W) (h : Run lim l w) (ev : Ev) (ho : Outside ev) (out : List Msg) (hs : step lim w ev = some (w', out))
    (k : Nat) (h0 : w.at k = some .assign) (h1 : w'.at k = some .flow) :
    AckedOnPacch k ev ∨ ((∃ env, ev = .op k .timer env) ∧
      ∃ l1 d l2, l = l1 ++ d :: l2 ∧ d.Confirms k ∧ (∀ d' ∈ l1, ¬ d'.Sends k) ∧ ∃ d' ∈ l2, d'.Sends k) := by
  unfold W.at at h0 h1
  obtain ⟨t, ht, h0⟩ := Option.map_eq_some_iff.1 h0
  obtain ⟨t', ht', h1⟩ := Option.map_eq_some_iff.1 h1
  have hi := run_inv h k t ht
  have no : t'.fsm.st = t.fsm.st → False := fun e => by rw [h0, h1] at e; cases e
  cases ev with
  | ids s => injection hs with hs; injection hs with e1 e2; subst e1; rw [ht] at ht'; injection ht' with e; subst e; exact (no rfl).elim
  | start i ccch upg =>
    obtain ⟨s, hd, hp⟩ := Option.map_eq_some_iff.1 (show start w i ccch upg = _ from hs)
    have e1 := congrArg Prod.fst hp
    dsimp only at e1
    subst e1
    unfold put at ht'
    dsimp only at ht'
    rw [if_neg (Nat.ne_of_lt hi.1), ht] at ht'
    injection ht' with e
    subst e
    refine (no ?_).elim
    dsimp only
    split <;> rfl
  | op k0 o env =>
    dsimp only [step] at hs
    split at hs
    · injection hs with hs; injection hs with e1 e2; subst e1; rw [ht] at ht'; injection ht' with e; subst e; exact (no rfl).elim
    · rename_i t0 ht0
      obtain ⟨s, hd, hp⟩ := Option.map_eq_some_iff.1 hs
      have e1 := congrArg Prod.fst hp
      dsimp only at e1
      subst e1
      unfold put at ht'
      dsimp only at ht'
      split at ht'
      · rename_i hk
        subst hk
        rw [ht] at ht0
        injection ht0 with e
        subst e
        split at ht'
        · cases ht'
        · injection ht' with e
          subst e
          rcases Tbf.step_flow hd h0 h1 with rfl | rfl | ⟨b, rfl⟩ | ⟨rfl, hx⟩
          · exact .inl rfl
          · rcases ho with e | e <;> cases e
          · exact .inl rfl
          · exact .inr ⟨⟨env, rfl⟩, hi.2.2.1 h0 hx⟩
      · rw [ht] at ht'; injection ht' with e; subst e; exact (no rfl).elim
  | confirm id =>
    obtain ⟨w1, hc, hp⟩ := Option.map_eq_some_iff.1 (show (confirm w id).map (·, []) = _ from hs)
    injection hp with e1 e2; subst e1
    rcases confirm_inv hc with rfl | ⟨i, k0, t0, s, _, _, ht0, hd, rfl⟩
    · rw [ht] at ht'; injection ht' with e; subst e; exact (no rfl).elim
    · dsimp only at ht'
      split at ht'
      · rename_i hk
        subst hk
        rw [ht] at ht0
        injection ht0 with e
        subst e
        injection ht' with e
        subst e
        rcases cnf_dispatch hd with rfl | ⟨-, -, rfl⟩ <;> exact (no rfl).elim
      · rw [ht] at ht'; injection ht' with e; subst e; exact (no rfl).elim

/-- A confirmation is for the mobile with the TLLI: nothing changes but the state of its downlink TBF, and this only if the TBF waits for an assignment
on the CCCH; then X2002 is started. The BTS is given nothing. -/
theorem C87_confirm (lim : Nat) (w w' : W) (id : Nat) (out : List Msg) (hs : step lim w (.confirm id) = some (w', out)) :
    out = [] ∧ w'.ids = w.ids ∧ w'.cur = w.cur ∧ w'.next = w.next ∧ ∀ k, w'.tbf k = w.tbf k ∨
      ∃ t i m, w.tbf k = some t ∧ t.fsm.st = .assign ∧ t.fsm.ccch = true ∧ w.cur i = some k ∧ (i, m) ∈ w.ids.ms ∧ id ≠ 0xffffffff ∧
        (id = m.tlli ∨ id = m.newUl ∨ id = m.newDl) ∧ w'.tbf k = some { t with fsm := { t.fsm with tmr := some .x2002 } } := by
  obtain ⟨w1, hc, hp⟩ := Option.map_eq_some_iff.1 (show (confirm w id).map (·, []) = _ from hs)
  injection hp with e1 e2; subst e1; subst e2
  rcases confirm_inv hc with rfl | ⟨i, k0, t, s, hi, hcur, ht, hd, rfl⟩
  · exact ⟨rfl, rfl, rfl, rfl, fun _ => .inl rfl⟩
  · refine ⟨rfl, rfl, rfl, rfl, fun k => ?_⟩
    by_cases hk : k = k0
    · subst hk
      obtain ⟨m, hm, hne, hid⟩ := byTlli_mem hi
      rcases cnf_dispatch hd with rfl | ⟨p, q, rfl⟩
      · exact .inl (by simp [ht])
      · exact .inr ⟨t, i, m, ht, p, q, hcur, hm, hne, hid, by simp⟩
    · exact .inl (by simp [hk])

/-- When a TBF of a mobile is assigned on the CCCH, the BTS is given one message for it with a TLLI of the mobile, for the paging group of the mobile
if its IMSI is known; the TBF waits. -/
theorem C87_handed (lim : Nat) (w : W) (i : Nat) (m : Store.Mob) (upg : Bool) (hm : Store.get? w.ids i = some m)
    (ht : m.tlli ≠ 0xffffffff ∨ m.newUl ≠ 0xffffffff ∨ m.newDl ≠ 0xffffffff) :
    ∃ w' k id, step lim w (.start i true upg) = some (w', [⟨k, id, if m.imsi = [] then none else some m.imsi⟩]) ∧ k = w.next ∧ w'.at k = some .assign ∧
      w'.cur i = some k ∧ id ≠ 0xffffffff ∧ (id = m.tlli ∨ id = m.newUl ∨ id = m.newDl) := by
  have hd : Tbf.dlDispatch {} { upg := upg } .addCcch = some { upg := upg, st := .assign, ccch := true, immAss := 1 } := by cases upg <;> rfl
  refine ⟨(put { w with
      tbf := fun j => (w.tbf j).map fun t => if w.cur i = some j then { t with fsm := { t.fsm with sup := true } } else t
      cur := fun j => if j = i then some w.next else w.cur j
      next := w.next + 1 } w.next ⟨i, { upg := upg }⟩ { upg := upg, st := .assign, ccch := true, immAss := 1 }).1, w.next, m.anyTlli, ?_, rfl, ?_, ?_, ?_⟩
  rotate_left 1
  · simp [put, W.at]
  · simp [put]
  · unfold Store.Mob.anyTlli Store.noTlli
    split
    · next h => exact ⟨h, .inr (.inl rfl)⟩
    · split
      · next h => exact ⟨h, .inl rfl⟩
      · next h1 h2 =>
        refine ⟨?_, .inr (.inr rfl)⟩
        rcases ht with h | h | h
        · exact absurd h h2
        · exact absurd h h1
        · exact h
  · show start w i true upg = _
    unfold start
    rw [if_pos rfl, hd]
    simp [put, assignment, hm]

/-- If TLLIs are unique, the confirmation with a TLLI of the mobile reaches the TBF that waits for its assignment on the CCCH. When the timer runs out then,
data transfer begins. (A TBF that is to get more slots first, `upg`, is assigned once more on its PACCH.) -/
theorem C87_progress (lim : Nat) (w : W) (hu : ∀ a ∈ w.ids.ms, ∀ b ∈ w.ids.ms, ∀ t, a.2.check t = true → b.2.check t = true → a.1 = b.1)
    (i k id : Nat) (m : Store.Mob) (t : TbfOf) (hm : (i, m) ∈ w.ids.ms)
    (hid : id ≠ 0xffffffff ∧ (id = m.tlli ∨ id = m.newUl ∨ id = m.newDl)) (hc : w.cur i = some k) (ht : w.tbf k = some t) (hst : t.fsm.st = .assign)
    (hcc : t.fsm.ccch = true) (hf : t.fsm.freed = false) (hup : t.fsm.upg = false) :
    ∃ w1, step lim w (.confirm id) = some (w1, []) ∧ w1.at k = some .assign ∧
      ∀ env, ∃ w2, step lim w1 (.op k .timer env) = some (w2, []) ∧ w2.at k = some .flow := by
  have hb : Store.byTlli w.ids id = some i := (Store.byTlli_iff hu id i).2 ⟨m, hm, by
    unfold Store.Mob.check Store.noTlli
    simp only [ne_eq, hid.1, not_false_eq_true, decide_true, Bool.true_and, Bool.or_eq_true, decide_eq_true_eq]
    rcases hid.2 with h | h | h
    · exact .inl (.inl h)
    · exact .inl (.inr h)
    · exact .inr h⟩
  obtain ⟨mob, s⟩ := t
  obtain ⟨st, cc, pa, tmr, fa, up, da, ua, n, im, su, fr, uf⟩ := s
  dsimp only at hst hcc hf hup
  subst hst hcc hf hup
  refine ⟨{ w with tbf := fun j => if j = k then some ⟨mob, ⟨.assign, true, pa, some .x2002, fa, false, da, ua, n, im, su, false, uf⟩⟩ else w.tbf j }, ?_, ?_, ?_⟩
  rotate_left 1
  · simp [W.at]
  · intro env
    refine ⟨(put { w with tbf := fun j => if j = k then some ⟨mob, ⟨.assign, true, pa, some .x2002, fa, false, da, ua, n, im, su, false, uf⟩⟩ else w.tbf j } k
      ⟨mob, ⟨.assign, true, pa, some .x2002, fa, false, da, ua, n, im, su, false, uf⟩⟩ ⟨.flow, true, pa, none, fa, false, da, ua, n, im, su, false, uf⟩).1, ?_, ?_⟩
    · simp only [step]
      simp [Tbf.dlStep, Tbf.dlTimer, Tbf.dlX2002, Tbf.dlDispatch, Tbf.dlIn, Tbf.dlAction, Tbf.dlChg, Tbf.dlOut, Tbf.dlEnter, Tbf.dlTimeout, put]
    · simp [put, W.at]
  · have hne : id ≠ Store.noTlli := hid.1
    simp only [step, confirm, if_neg hne, hb, hc, ht]
    rfl

/-- What the BTS confirms: if it had nothing with this reference when it was given the assignment of TBF `k`, and got nothing with it for other TBFs since, then
what it has with this reference is an assignment of TBF `k`. Partial: other cases, see `C87_fails`. -/
theorem C87_own_partial (l1 l2 : List Did) (k id : Nat) (h2 : ∀ p, Unsent l2 p → ∀ m ∈ p, m.id ≠ id)
    (h1 : ∀ d ∈ l1, ∀ m ∈ d.out, m.id = id → m.tbf = k) : ∀ p, Unsent (l1 ++ l2) p → ∀ m ∈ p, m.id = id → m.tbf = k := by
  induction l1 with
  | nil => exact fun p hp m hm he => absurd he (h2 p hp m hm)
  | cons d l1 ih =>
    have ih := ih fun d hd => h1 d (List.mem_cons_of_mem _ hd)
    have hd := h1 d List.mem_cons_self
    intro p hp m hm he
    cases hp with
    | other _ hp _ =>
      rcases List.mem_append.1 hm with hm | hm
      · exact hd m hm he
      · exact ih _ hp m hm he
    | confirm _ x hp _ =>
      rcases List.mem_append.1 hm with hm | hm
      · exact hd m hm he
      · refine ih _ hp m ?_ he
        rcases List.mem_append.1 hm with hm | hm
        · exact List.mem_append_left _ hm
        · exact List.mem_append_right _ (List.mem_cons_of_mem _ hm)

/-- The reference: what the BTS is given for the AGCH or the PCH (`msg`) has the TLLI in four octets, and if the BTS sends them back, as they are, in its
confirmation, the PCU reads the TLLI. -/
theorem C87_reference (e : PcuIf.Env) (s : PcuIf.St) (nr plen id : Nat) (imsi : Option (List Nat)) (block msg : List Nat) (hid : id < 2 ^ 32)
    (hk : (s.ensure nr).get nr ≠ none) (hm : PcuTx.txAgch nr plen true id block = some msg ∨ PcuTx.txPch nr plen true imsi id block = some msg) :
    PcuIf.rx e s ([0x11, nr, 0, 0, msg.getD 4 0] ++ (msg.drop 6).take 4) = .ok (s.ensure nr) [.immAssCnf nr id] true := by
  have key : ∀ (sapi : Nat) (rest : List Nat), sapi = 8 ∨ sapi = 9 → rest.length < 158 →
      PcuTx.dataReq nr 0 0 sapi 0 0 0 (PcuTx.low 4 id ++ rest) = some msg →
      PcuIf.rx e s ([0x11, nr, 0, 0, msg.getD 4 0] ++ (msg.drop 6).take 4) = .ok (s.ensure nr) [.immAssCnf nr id] true := by
    intro sapi rest hs hl hd
    have hlen : (PcuTx.low 4 id ++ rest).length % 256 = rest.length + 4 := by
      rw [List.length_append, show (PcuTx.low 4 id).length = 4 from rfl]; omega
    unfold PcuTx.dataReq at hd
    dsimp only at hd
    rw [hlen, if_pos (by omega)] at hd
    injection hd with hd
    subst hd
    have e1 : ([0x11, nr, 0, 0, (PcuTx.prim 0x00 nr (sapi :: (rest.length + 4) :: (PcuTx.array 162 ((PcuTx.low 4 id ++ rest).take (rest.length + 4)) ++
        (PcuTx.low 4 0 ++ (PcuTx.low 2 0 ++ [0 % 256, 0 % 256, 0 % 256, 0, 0, 0, 0, 0, 0, 0]))))).getD 4 0] ++
        ((PcuTx.prim 0x00 nr (sapi :: (rest.length + 4) :: (PcuTx.array 162 ((PcuTx.low 4 id ++ rest).take (rest.length + 4)) ++
        (PcuTx.low 4 0 ++ (PcuTx.low 2 0 ++ [0 % 256, 0 % 256, 0 % 256, 0, 0, 0, 0, 0, 0, 0]))))).drop 6).take 4) =
        [0x11, nr, 0, 0, sapi, id % 256, id / 256 % 256, id / 256 / 256 % 256, id / 256 / 256 / 256 % 256] := rfl
    rw [e1]
    have e2 : PcuIf.rxDataCnf (s.ensure nr) nr
        (PcuIf.slice [0x11, nr, 0, 0, sapi, id % 256, id / 256 % 256, id / 256 / 256 % 256, id / 256 / 256 / 256 % 256] 4 5) =
        .ok (s.ensure nr) [.immAssCnf nr id] true := by
      have e3 : PcuIf.u32 (PcuIf.slice [0x11, nr, 0, 0, sapi, id % 256, id / 256 % 256, id / 256 / 256 % 256, id / 256 / 256 / 256 % 256] 4 5) 1 = id := by
        simp only [PcuIf.u32, PcuIf.u16, PcuIf.u8, PcuIf.slice, List.drop_succ_cons, List.drop_zero, List.take_succ_cons, List.take_zero,
          List.getD_cons_zero, List.getD_cons_succ]
        omega
      unfold PcuIf.rxDataCnf
      rw [show PcuIf.u8 (PcuIf.slice [0x11, nr, 0, 0, sapi, id % 256, id / 256 % 256, id / 256 / 256 % 256, id / 256 / 256 / 256 % 256] 4 5) 0 =
        sapi from rfl, if_pos hs, e3]
    have hl : ([0x11, nr, 0, 0, sapi, id % 256, id / 256 % 256, id / 256 / 256 % 256, id / 256 / 256 / 256 % 256] : List Nat).length = 9 := rfl
    have h0 : PcuIf.u8 [0x11, nr, 0, 0, sapi, id % 256, id / 256 % 256, id / 256 / 256 % 256, id / 256 / 256 / 256 % 256] 0 = 0x11 := rfl
    have h1 : PcuIf.u8 [0x11, nr, 0, 0, sapi, id % 256, id / 256 % 256, id / 256 / 256 % 256, id / 256 / 256 / 256 % 256] 1 = nr := rfl
    generalize ([0x11, nr, 0, 0, sapi, id % 256, id / 256 % 256, id / 256 / 256 % 256, id / 256 / 256 / 256 % 256] : List Nat) = v at e2 hl h0 h1 ⊢
    unfold PcuIf.rx
    dsimp only
    rw [if_neg (by omega), h1, h0]
    cases hg : (s.ensure nr).get nr with
    | none => exact absurd hg hk
    | some b =>
      dsimp only
      rw [if_neg (by decide), if_pos rfl]
      unfold PcuIf.check PcuIf.cast
      rw [if_neg (by omega), if_pos (by omega), e2]
  rcases hm with hm | hm
  · unfold PcuTx.txAgch at hm
    split at hm
    · refine key 9 _ (.inr rfl) ?_ hm
      simp [PcuTx.array, PcuTx.zeros]; omega
    · cases hm
  · unfold PcuTx.txPch at hm
    split at hm
    · refine key 8 _ (.inl rfl) ?_ hm
      simp [PcuTx.array, PcuTx.zeros, PcuTx.imsiBuf]; omega
    · cases hm

/-! ### Cases -/

/-- A message for the AGCH, its confirmation, and what the PCU reads of it. -/
example : (PcuTx.txAgch 0 20 true 0xc0001234 (List.replicate 22 0x2b)).isSome ∧ ((({} : PcuIf.St).ensure 0).get 0).isSome :=
  ⟨by decide +kernel, by decide +kernel⟩

/-- The state and history after these events. -/
def play (lim : Nat) (x : List Did × W) : List Ev → List Did × W
  | [] => x
  | e :: es => match step lim x.2 e with
    | some (w, out) => play lim (⟨x.2, e, out, w⟩ :: x.1, w) es
    | none => x

theorem play_run {lim : Nat} : ∀ (es : List Ev) (x : List Did × W), (∀ e ∈ es, Outside e) → Run lim x.1 x.2 → Run lim (play lim x es).1 (play lim x es).2
  | [], _, _, h => h
  | e :: es, x, ho, h => by
    rw [play]
    cases hs : step lim x.2 e with
    | none => exact h
    | some r => exact play_run es _ (fun e he => ho e (List.mem_cons_of_mem _ he)) (.step e h (ho e List.mem_cons_self) hs)

/-- A mobile with TLLI c0001234. -/
def exIds : Store.St := ⟨[(0, { Store.newMob 0 0 with tlli := 0xc0001234 })], 1⟩

/-- A TBF is assigned on the CCCH, the BTS confirms, the timer runs out. -/
def exRun : List Did × W := play 8 ([], {}) [.ids exIds, .start 0 true false, .confirm 0xc0001234]

example : Run 8 exRun.1 exRun.2 ∧ exRun.2.at 0 = some .assign ∧ (step 8 exRun.2 (.op 0 .timer {})).map (·.1.at 0) = some (some .flow) ∧
    (exRun.1.map (·.out)) = [[], [⟨0, 0xc0001234, none⟩], []] :=
  ⟨play_run _ _ (by simp [Outside]) .init, by decide +kernel, by decide +kernel, by decide +kernel⟩

/-- The first TBF of a mobile is given up (the mobile asked for an uplink TBF), a second one is assigned on the CCCH as well, then the BTS confirms. -/
def exLate : List Did × W := play 8 ([], {}) [.ids exIds, .start 0 true false, .op 0 .free {}, .start 0 true false, .confirm 0xc0001234]

/-- The property fails for the assignment itself: what was confirmed is the assignment of the TBF that is gone, the one of the second TBF is still to be sent
when the timer runs out and data transfer on the second TBF begins. -/
theorem C87_fails : Run 8 exLate.1 exLate.2 ∧ Unsent exLate.1 [⟨1, 0xc0001234, none⟩] ∧ exLate.2.at 0 = none ∧ exLate.2.at 1 = some .assign ∧
    ∃ w', step 8 exLate.2 (.op 1 .timer {}) = some (w', []) ∧ w'.at 1 = some .flow := by
  refine ⟨play_run _ _ (by simp [Outside]) .init, ?_, by decide +kernel, by decide +kernel, ?_⟩
  · refine .confirm (a := [⟨1, 0xc0001234, none⟩]) (b := []) _ ⟨0, 0xc0001234, none⟩ ?_ rfl
    exact .other _ (.other _ (.other _ (.other _ .init nofun) nofun) nofun) nofun
  · exact ⟨_, rfl, by decide +kernel⟩

end Verif.Confirm
