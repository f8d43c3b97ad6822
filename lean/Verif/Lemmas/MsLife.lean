import Verif.Spec.MsLife
import Verif.Lemmas.MsStore
/-! # Life of mobiles: what each act does to each mobile -/

namespace Verif.Store

/-! ### One mobile of the list -/

theorem get_modify (s : St) (j i : Nat) (f : Mob → Mob) :
    get? (modify s j f) i = if i = j then (get? s i).map f else get? s i := by
  unfold get? modify
  induction s.ms with
  | nil => simp
  | cons p l ih =>
    by_cases h : p.1 = i
    · by_cases hj : i = j
      · subst hj; simp [h]
      · have : p.1 ≠ j := by rw [h]; exact hj
        simp [this, h, hj]
    · have e : (if p.1 = j then (p.1, f p.2) else p).1 = p.1 := by split <;> rfl
      simp only [List.map_cons, List.find?_cons, e, h, decide_false]
      exact ih

theorem get_free (s : St) (j i : Nat) : get? (free s j) i = if i = j then none else get? s i := by
  unfold get? free
  induction s.ms with
  | nil => simp
  | cons p l ih =>
    by_cases hj : p.1 = j
    · simp only [List.filter_cons, hj, ne_eq, not_true, decide_false, Bool.false_eq_true, if_false, List.find?_cons]
      rw [ih]
      by_cases hi : i = j
      · simp [hi]
      · simp [hi, Ne.symm hi]
    · simp only [List.filter_cons, hj, ne_eq, not_false_eq_true, decide_true, if_true, List.find?_cons]
      by_cases hi : p.1 = i
      · have : i ≠ j := by rw [← hi]; exact hj
        simp [hi, this]
      · simp only [hi, decide_false]
        exact ih

theorem get_alloc (s : St) (c r i : Nat) :
    get? (alloc s c r).1 i = if i = s.next then some (newMob c r) else get? s i := by
  unfold get? alloc
  by_cases h : i = s.next
  · simp [h]
  · simp [h, Ne.symm h]

/-- What becomes of a mobile whose users are counted. -/
def Mob.rest (k : Clock) (m : Mob) : Option Mob :=
  if m.users ≠ 0 then some m
  else if k.x2030 = 0 ∨ m.anyTlli = noTlli then none
  else some { m with releasing := some (k.now + k.x2030) }

theorem get_checkIdle (k : Clock) (s : St) (j i : Nat) :
    get? (checkIdle k s j) i = if i = j then (get? s i).bind (·.rest k) else get? s i := by
  unfold checkIdle
  by_cases h : i = j
  · subst h
    cases hg : get? s i with
    | none => simp [hg]
    | some m =>
      simp only [if_true, Option.bind_some, Mob.rest]
      by_cases h1 : m.users ≠ 0
      · rw [if_pos h1, if_pos h1, hg]
      · rw [if_neg h1, if_neg h1]
        by_cases h2 : k.x2030 = 0 ∨ m.anyTlli = noTlli
        · rw [if_pos h2, if_pos h2, get_free, if_pos rfl]
        · rw [if_neg h2, if_neg h2, get_modify, if_pos rfl, hg]; rfl
  · rw [if_neg h]
    cases hg : get? s j with
    | none => rfl
    | some m =>
      dsimp only
      split
      · rfl
      · split
        · rw [get_free, if_neg h]
        · rw [get_modify, if_neg h]

theorem get_unref (k : Clock) (s : St) (j i : Nat) : get? (unref k s j) i =
    if i = j then (get? s i).bind fun m => ({ m with refs := m.refs - 1 } : Mob).rest k else get? s i := by
  unfold unref
  rw [get_checkIdle, get_modify]
  by_cases h : i = j
  · simp only [h, if_true, Option.bind_map]; rfl
  · simp only [h, if_false]

theorem get_attachOpt (s : St) (j i : Nat) (att : Option Bool) : get? (attachOpt s j att) i =
    if i = j then (get? s i).map (fun m => match att with | none => m | some t => m.attachUl t) else get? s i := by
  cases att with
  | none =>
    show get? s i = _
    by_cases h : i = j
    · rw [if_pos h]; cases get? s i <;> rfl
    · rw [if_neg h]
  | some t => exact get_modify s j i _

theorem next_modify (s : St) (j : Nat) (f : Mob → Mob) : (modify s j f).next = s.next := rfl

theorem next_checkIdle (k : Clock) (s : St) (j : Nat) : (checkIdle k s j).next = s.next := by
  unfold checkIdle
  split
  · rfl
  · split
    · rfl
    · split <;> rfl

theorem next_unref (k : Clock) (s : St) (j : Nat) : (unref k s j).next = s.next := by
  unfold unref; rw [next_checkIdle]; rfl

theorem next_attachOpt (s : St) (j : Nat) (att : Option Bool) : (attachOpt s j att).next = s.next := by
  cases att <;> rfl

/-! ### Numbers of mobiles stay distinct -/

theorem ids_free {s : St} (h : Ids s) (i : Nat) : Ids (free s i) := (sub_free s i).ids h

theorem ids_checkIdle {s : St} (h : Ids s) (k : Clock) (i : Nat) : Ids (checkIdle k s i) := (sub_checkIdle k s i).ids h

theorem ids_unref {s : St} (h : Ids s) (k : Clock) (i : Nat) : Ids (unref k s i) := (sub_unref k s i).ids h

theorem ids_alloc {s : St} (hi : Ids s) (c r : Nat) : Ids (alloc s c r).1 := by
  refine ⟨?_, ?_⟩
  · simp only [alloc, List.map_cons, List.nodup_cons]
    refine ⟨fun h => ?_, hi.1⟩
    obtain ⟨p, hp, e⟩ := List.mem_map.1 h
    have := hi.2 p hp
    omega
  · intro p hp
    simp only [alloc, List.mem_cons] at hp ⊢
    rcases hp with rfl | hp
    · exact Nat.lt_succ_self _
    · have := hi.2 p hp; omega

theorem ids_attachOpt {s : St} (h : Ids s) (i : Nat) (att : Option Bool) : Ids (attachOpt s i att) := by
  cases att with
  | none => exact h
  | some t => exact ids_modify' h _ _

theorem ids_reqMs {s : St} (h : Ids s) (c t : Nat) : Ids (reqMs c s t).1 := by
  unfold reqMs
  split
  · exact h
  · exact ids_modify' (ids_alloc h c 0) _ _

theorem ids_announce {k : Clock} {s s' : St} {i t : Nat} (h : Ids s) (hs : announce k s i t = some s') : Ids s' := by
  unfold announce at hs
  split at hs
  · cases hs; exact h
  · split at hs
    · cases hs
    · dsimp only at hs
      split at hs
      · cases hs; exact ids_modify' h _ _
      · exact (merge_sub hs).1.ids (ids_modify' h _ _)

theorem ids_dlHandle {k : Clock} {c : Nat} {s s' : St} {p : Pdu} (h : Ids s) (hs : dlHandle k c s p = some s') : Ids s' := by
  obtain ⟨s1, i, new, s2, hf, hsub, -, rfl⟩ := dlHandle_parts hs
  have h1 : Ids s1 := by
    rcases findMs_ok hf with ⟨-, -, rfl, -⟩ | ⟨-, -, h2, -⟩
    · exact ids_alloc h c 1
    · exact h2.ids h
  have h2 := ids_modify' (hsub.ids h1) i (·.accept p)
  split
  · exact ids_unref h2 _ _
  · exact h2

theorem ids_step {k : Clock} {c : Nat} {s s' : St} {o : Op} (h : Ids s) (hs : step k c s o = some s') : Ids s' := by
  cases o with
  | pdu p => exact ids_dlHandle h hs
  | announce i t => exact ids_announce h hs
  | resource t att => cases hs; exact ids_unref (ids_attachOpt (ids_modify' (ids_reqMs h _ _) _ _) _ _) _ _
  | meas t =>
    cases hs
    unfold measReport
    split
    · exact h
    · exact ids_unref (ids_modify' (ids_alloc h _ _) _ _) _ _
  | access => cases hs; exact ids_modify' (ids_alloc h c 0) _ _
  | attachDl i b => cases hs; exact ids_modify' h _ _
  | attachUl i b => cases hs; exact ids_modify' h _ _
  | freeUl i => cases hs; exact ids_checkIdle (ids_modify' h _ _) _ _
  | freeDl i => cases hs; exact ids_checkIdle (ids_modify' h _ _) _ _
  | freeOld i n => cases hs; exact ids_checkIdle (ids_modify' h _ _) _ _
  | llc i q t => cases hs; exact ids_modify' h _ _
  | release i =>
    cases hs
    split
    · split
      · split
        · exact ids_free h _
        · exact h
      · exact h
    · exact h

/-! ### Users and names -/

theorem busy_iff (m : Mob) (hr : m.refs = 0) : m.busy ↔ m.users ≠ 0 := by
  unfold Mob.busy Mob.users
  cases h1 : m.ul <;> cases h2 : m.dl <;> cases h3 : m.old <;> simp [hr]

theorem named_iff (m : Mob) : m.named ↔ m.anyTlli ≠ noTlli := by
  unfold Mob.named Mob.anyTlli
  grind

theorem named_of_check {m : Mob} {t : Nat} (h : m.check t = true) : m.named :=
  (named_iff m).2 (anyTlli_of_check m t h)

theorem named_set (m : Mob) (t : Nat) (h : t ≠ noTlli) : (m.setTlli t).named :=
  named_of_check (check_set_self m t h)

theorem named_confirm (m : Mob) (t : Nat) (h : t ≠ noTlli) : (m.confirmTlli t).named :=
  named_of_check (check_confirm_self m t h)

/-- Life goes on as before. -/
structure Same (m m' : Mob) : Prop where
  refs : m'.refs = m.refs
  users : m'.users = m.users
  rel : m'.releasing = m.releasing

theorem Same.rfl (m : Mob) : Same m m := ⟨_root_.rfl, _root_.rfl, _root_.rfl⟩

/-- A mobile whose identity has been taken is there only for the sake of TBFs it had before. -/
def Lost (m : Mob) (r : Option Mob) : Prop :=
  ∀ m', r = some m' → m'.refs = m.refs ∧ m'.users ≠ 0 ∧ m'.users ≤ m.users ∧ m'.releasing = m.releasing

/-- Identities move to mobile `j`: it goes on as before, others are untouched or have been claimed. -/
structure Ph (j : Nat) (cl : Nat → Mob → Prop) (s s' : St) : Prop where
  next : s'.next = s.next
  ids : Ids s → Ids s'
  absent : ∀ x, get? s x = none → get? s' x = none
  self : ∀ m, get? s j = some m → ∃ m', get? s' j = some m' ∧ Same m m' ∧ (m.named → m'.named)
  other : ∀ x m, x ≠ j → get? s x = some m → get? s' x = some m ∨ (cl x m ∧ Lost m (get? s' x))

theorem Ph.rfl {j : Nat} {cl : Nat → Mob → Prop} {s : St} : Ph j cl s s :=
  ⟨_root_.rfl, id, fun _ h => h, fun m h => ⟨m, h, .rfl m, id⟩, fun _ _ _ h => .inl h⟩

theorem Ph.trans {j : Nat} {cl : Nat → Mob → Prop} {a b c : St} (h1 : Ph j cl a b) (h2 : Ph j cl b c) : Ph j cl a c := by
  refine ⟨h2.next.trans h1.next, fun h => h2.ids (h1.ids h), fun x h => h2.absent x (h1.absent x h), fun m h => ?_, fun x m hx h => ?_⟩
  · obtain ⟨m1, a1, b1, c1⟩ := h1.self m h
    obtain ⟨m2, a2, b2, c2⟩ := h2.self m1 a1
    exact ⟨m2, a2, ⟨b2.refs.trans b1.refs, b2.users.trans b1.users, b2.rel.trans b1.rel⟩, fun h => c2 (c1 h)⟩
  · rcases h1.other x m hx h with h3 | ⟨h3, h4⟩
    · exact h2.other x m hx h3
    · refine .inr ⟨h3, ?_⟩
      cases hb : get? b x with
      | none => rw [h2.absent x hb]; exact nofun
      | some m1 =>
        have l1 := h4 m1 hb
        rcases h2.other x m1 hx hb with h5 | ⟨-, h5⟩
        · rw [h5, ← hb]; exact h4
        · intro m2 e
          have l2 := h5 m2 e
          exact ⟨l2.1.trans l1.1, l2.2.1, Nat.le_trans l2.2.2.1 l1.2.2.1, l2.2.2.2.trans l1.2.2.2⟩

theorem ph_modify {j : Nat} {cl : Nat → Mob → Prop} {s : St} {f : Mob → Mob} (hf : ∀ m, Same m (f m))
    (hn : ∀ m, m.named → (f m).named) : Ph j cl s (modify s j f) := by
  refine ⟨_root_.rfl, fun h => ids_modify' h _ _, fun x h => ?_, fun m h => ?_, fun x m hx h => ?_⟩
  · rw [get_modify, h]; split <;> rfl
  · exact ⟨f m, by rw [get_modify, if_pos _root_.rfl, h]; rfl, hf m, hn m⟩
  · left; rw [get_modify, if_neg hx, h]

theorem reset_life {m m' : Mob} (h : m.reset = some m') : m'.refs = m.refs ∧ m'.users ≤ m.users ∧
    m'.releasing = m.releasing ∧ ¬ m'.named := by
  unfold Mob.reset at h
  split at h
  · cases h
  · cases h
    refine ⟨_root_.rfl, ?_, _root_.rfl, by simp [Mob.named]⟩
    unfold Mob.users
    cases m.ul with
    | none => cases m.dl with
      | none => simp
      | some d => cases hd : d.timers <;> simp [hd] <;> omega
    | some u => cases u <;> cases m.dl with
      | none => simp <;> omega
      | some d => cases hd : d.timers <;> simp [hd] <;> omega

theorem ph_merge {k : Clock} {j o : Nat} {cl : Nat → Mob → Prop} {s s' : St} (h : merge k s j o = some s')
    (hc : ∀ m, get? s o = some m → cl o m) : Ph j cl s s' := by
  obtain ⟨hne, m, om, om', h1, h2, h3, rfl⟩ := merge_eq h
  have hl := reset_life h3
  have hd : om.drained.users = om.users ∧ om.drained.refs = om.refs ∧ om.drained.releasing = om.releasing := by
    refine ⟨?_, _root_.rfl, _root_.rfl⟩
    unfold Mob.users Mob.drained
    cases om.dl <;> rfl
  refine ⟨next_checkIdle _ _ _, fun h => ids_checkIdle (ids_modify' (ids_modify' h _ _) _ _) _ _, fun x hx => ?_, fun m' hm' => ?_, fun x mx hx hm => ?_⟩
  · rw [get_checkIdle, get_modify, get_modify, hx]
    split <;> split <;> rfl
  · rw [h1] at hm'; cases hm'
    rw [get_checkIdle, if_neg (Ne.symm hne), get_modify, if_neg (Ne.symm hne), get_modify, if_pos _root_.rfl, h1]
    exact ⟨_, _root_.rfl, ⟨_root_.rfl, _root_.rfl, _root_.rfl⟩, id⟩
  · rw [get_checkIdle, get_modify, get_modify, if_neg hx, hm]
    by_cases hxo : x = o
    · subst hxo
      rw [h2] at hm; cases hm
      right
      refine ⟨hc _ h2, ?_⟩
      simp only [if_true, Option.map_some, Option.bind_some]
      intro m' e
      have hu : ({ om' with q := (Llc.moveAndMerge m.q om.backlog).2 } : Mob).users = om'.users := _root_.rfl
      have ha : ({ om' with q := (Llc.moveAndMerge m.q om.backlog).2 } : Mob).anyTlli = noTlli :=
        Decidable.byContradiction fun h => hl.2.2.2 ((named_iff om').2 h)
      unfold Mob.rest at e
      rw [hu, ha] at e
      split at e
      · rename_i h0
        cases e
        exact ⟨hl.1.trans hd.2.1, h0, by rw [← hd.1]; exact hl.2.1, hl.2.2.1.trans hd.2.2⟩
      · rw [if_pos (Or.inr _root_.rfl)] at e; cases e
    · left
      rw [if_neg hxo, if_neg hxo]

/-! ### Acts -/

/-- What an act does to a mobile with record `m`. `fr`: it gives up a TBF of the mobile, `as`: the
mobile requests resources, `cl`: its identity is claimed. -/
inductive Chg (k : Clock) (fr as cl : Prop) (m : Mob) : Option Mob → Prop
  | same (m' : Mob) : Same m m' → (m.named → m'.named ∨ cl) → Chg k fr as cl m (some m')
  | busy (m' : Mob) : m'.refs = 0 → m'.users ≠ 0 → m'.releasing = none → (m.named → m'.named ∨ cl) → Chg k fr as cl m (some m')
  | idle (m' : Mob) : (fr ∨ (m.users = 0 ∧ as)) → m'.refs = 0 → m'.users = 0 → k.x2030 ≠ 0 →
      m'.releasing = some (k.now + k.x2030) → (m.named → m'.named) → Chg k fr as cl m (some m')
  | gone : (fr ∨ (m.users = 0 ∧ as)) → (k.x2030 = 0 ∨ ¬ m.named) → Chg k fr as cl m none
  | lost (r : Option Mob) : cl → Lost m r → Chg k fr as cl m r

/-- A new mobile. -/
def NewOk (k : Clock) (m : Mob) : Prop := m.refs = 0 ∧
  (m.users ≠ 0 ∧ m.releasing = none ∨ m.users = 0 ∧ k.x2030 ≠ 0 ∧ m.releasing = some (k.now + k.x2030))

/-- Between the acts: no user but TBFs; a mobile without TBF is about to be released later on, one
with a TBF is not. -/
def Fine (now : Nat) (m : Mob) : Prop :=
  m.refs = 0 ∧ (m.users = 0 → ∃ d, m.releasing = some d ∧ now < d) ∧ (m.users ≠ 0 → m.releasing = none)

structure Inv (s : Sys) : Prop where
  ids : Ids s.st
  fine : ∀ i m, get? s.st i = some m → Fine s.k.now m

/-- The mobiles after an act, compared with those before. -/
structure View (k : Clock) (s : St) (a : Act) (s' : St) : Prop where
  next : s.next ≤ s'.next
  ids : Ids s'
  old : ∀ i m, get? s i = some m → Chg k (Frees i a) (Asks s i a) (Claimed s i m a) m (get? s' i)
  new : ∀ i m', get? s i = none → get? s' i = some m' → i = s.next ∧ i < s'.next ∧ NewOk k m'

theorem get_lt {s : St} (h : Ids s) {i : Nat} {m : Mob} (hg : get? s i = some m) : i < s.next := h.2 _ (get_mem hg)

theorem get_next {s : St} (h : Ids s) : get? s s.next = none := by
  cases hg : get? s s.next with
  | none => rfl
  | some m => exact absurd (get_lt h hg) (Nat.lt_irrefl _)

theorem chg_id {k : Clock} {fr as cl : Prop} {m : Mob} {r : Option Mob} (h : r = some m) : Chg k fr as cl m r := by
  rw [h]; exact .same m (.rfl m) .inl

/-- A mobile whose users are counted at the end of an act. -/
theorem chg_rest {k : Clock} {fr as cl : Prop} {m m1 : Mob} (hw : fr ∨ (m.users = 0 ∧ as) ∨ m1.users ≠ 0)
    (hr : m1.refs = 0) (hu : m1.users ≠ 0 → m1.releasing = none) (hn : m.named → m1.named) :
    Chg k fr as cl m (m1.rest k) := by
  unfold Mob.rest
  split
  · rename_i h
    exact .busy m1 hr h (hu h) fun h => .inl (hn h)
  · rename_i h
    have hw' : fr ∨ (m.users = 0 ∧ as) := by
      rcases hw with h1 | h1 | h1
      · exact .inl h1
      · exact .inr h1
      · exact absurd h1 h
    have h0 : m1.users = 0 := Decidable.not_not.1 h
    split
    · rename_i h2
      refine .gone hw' ?_
      rcases h2 with h2 | h2
      · exact .inl h2
      · exact .inr fun h3 => (named_iff m1).1 (hn h3) h2
    · rename_i h2
      rw [not_or] at h2
      exact .idle _ hw' hr h0 h2.1 rfl fun h3 => hn h3

theorem new_rest {k : Clock} {m1 m' : Mob} (hr : m1.refs = 0) (hu : m1.users ≠ 0 → m1.releasing = none)
    (h : m1.rest k = some m') : NewOk k m' := by
  unfold Mob.rest at h
  split at h
  · rename_i h0
    cases h
    exact ⟨hr, .inl ⟨h0, hu h0⟩⟩
  · rename_i h0
    split at h
    · cases h
    · rename_i h2
      rw [not_or] at h2
      cases h
      exact ⟨hr, .inr ⟨Decidable.not_not.1 h0, h2.1, rfl⟩⟩

theorem users_ul {m : Mob} (h : m.ul.isSome = true) : m.users ≠ 0 := by
  unfold Mob.users; rw [if_pos h]; omega

theorem users_attachDl (m : Mob) (t : Bool) : (m.attachDl t).users ≠ 0 := by
  simp [Mob.users, Mob.attachDl]

theorem users_attachUl (m : Mob) (t : Bool) : (m.attachUl t).users ≠ 0 := by
  simp [Mob.users, Mob.attachUl]

/-- An act on one existing mobile. -/
theorem view_one {k : Clock} {s s' : St} {a : Act} (j : Nat) (hn : s'.next = s.next) (hids : Ids s')
    (g : Mob → Option Mob) (hg : ∀ i, get? s' i = if i = j then (get? s i).bind g else get? s i)
    (hc : ∀ m, get? s j = some m → Chg k (Frees j a) (Asks s j a) (Claimed s j m a) m (g m)) : View k s a s' := by
  refine ⟨by rw [hn]; exact Nat.le_refl _, hids, fun i m h => ?_, fun i m' h h' => ?_⟩
  · rw [hg]
    by_cases hij : i = j
    · subst hij
      rw [if_pos rfl, h]; exact hc m h
    · rw [if_neg hij]; exact chg_id h
  · rw [hg, h] at h'
    split at h' <;> cases h'

/-- An act that makes a new mobile. -/
theorem view_new {k : Clock} {s s' : St} {a : Act} (hid : Ids s) (hn : s'.next = s.next + 1) (hids : Ids s')
    (hg : ∀ i, i ≠ s.next → get? s' i = get? s i) (hc : ∀ m', get? s' s.next = some m' → NewOk k m') : View k s a s' := by
  refine ⟨by omega, hids, fun i m h => ?_, fun i m' h h' => ?_⟩
  · refine chg_id ?_
    rw [hg i fun e => ?_, h]
    have := get_lt hid h; omega
  · by_cases e : i = s.next
    · subst e; exact ⟨rfl, by omega, hc m' h'⟩
    · rw [hg i e, h] at h'; cases h'

theorem users_congr {m m1 : Mob} (h1 : m1.ul.isSome = m.ul.isSome) (h2 : m1.dl.isSome = m.dl.isSome)
    (h3 : m1.old.length = m.old.length) (h4 : m1.refs = m.refs) : m1.users = m.users := by
  unfold Mob.users; rw [h1, h2, h3, h4]

theorem same_accept (m : Mob) (p : Pdu) (h : p.att = none) : Same m (m.accept p) := by
  unfold Mob.accept Mob.confirmTlli Mob.applyTlli
  rw [h]
  dsimp only
  split
  · exact ⟨rfl, rfl, rfl⟩
  · split <;> exact ⟨rfl, rfl, rfl⟩

theorem accept_att (m : Mob) (p : Pdu) (t : Bool) (h : p.att = some t) :
    (m.accept p).refs = m.refs ∧ (m.accept p).users ≠ 0 ∧ (m.accept p).releasing = none := by
  unfold Mob.accept Mob.confirmTlli Mob.applyTlli
  rw [h]
  refine ⟨?_, users_attachDl _ _, rfl⟩
  dsimp only [Mob.attachDl]
  split
  · rfl
  · split <;> rfl

theorem named_accept (m : Mob) (p : Pdu) (h : p.tlli ≠ noTlli) : (m.accept p).named :=
  named_of_check (t := p.tlli) (by rw [check_accept]; exact check_confirm_self m p.tlli h)

theorem byImsi_get {s : St} (hid : Ids s) {im : List Nat} {i : Nat} (h : byImsi s im = some i) :
    im ≠ [] ∧ ∃ m, get? s i = some m ∧ m.imsi = im := by
  unfold byImsi getMs at h
  split at h
  · rename_i p hp
    simp at hp
  · split at h
    · rename_i hne
      cases hf : s.ms.find? (fun p => p.2.imsi ≠ [] && p.2.imsi = im) with
      | none => rw [hf] at h; cases h
      | some p =>
        rw [hf] at h
        cases h
        have h1 := List.find?_some hf
        simp only [Bool.and_eq_true, decide_eq_true_eq] at h1
        exact ⟨hne, p.2, get_of_mem hid.1 (List.mem_of_find?_eq_some hf), h1.2⟩
    · cases h

/-- Where the identities of a PDU for the known mobile `j` go. -/
theorem ph_pdu {k : Clock} {c : Nat} {s s1 s2 : St} {p : Pdu} {j : Nat} (hid : Ids s)
    (hf : findMs k c s p = some (s1, j, false))
    (hs : (match p.imsi with | none => some s1 | some imsi => setImsi k s1 j imsi) = some s2) :
    Ph j (fun i m => Claimed s i m (.op (.pdu p))) s s2 ∧ ∃ m, get? s j = some m := by
  have hgm : getMs s p.tlli p.old (p.imsi.getD []) = some j := by
    rcases findMs_ok hf with ⟨h, -⟩ | ⟨-, h, -⟩
    · cases h
    · exact h
  obtain ⟨mj, hj, hcase⟩ : ∃ mj, get? s j = some mj ∧ ((mj.check p.tlli = true ∨ mj.check p.old = true) ∨
      (p.imsi.getD [] ≠ [] ∧ mj.imsi = p.imsi.getD [])) := by
    rcases @getMs_cases s p.tlli p.old (p.imsi.getD []) with ⟨i, m, h1, h2, h3⟩ | ⟨-, ⟨i, m, h1, h2, h3, h4⟩ | ⟨h1, -⟩⟩
    · rw [hgm] at h1; cases h1; exact ⟨m, get_of_mem hid.1 h2, .inl h3⟩
    · rw [hgm] at h1; cases h1; exact ⟨m, get_of_mem hid.1 h2, .inr ⟨h3, h4⟩⟩
    · rw [hgm] at h1; cases h1
  refine ⟨?_, mj, hj⟩
  cases him : p.imsi with
  | none =>
    rw [him] at hs; cases hs
    unfold findMs at hf
    rw [hgm, him] at hf
    dsimp only at hf
    rw [hj] at hf
    cases hf
    exact .rfl
  | some im =>
    rw [him] at hs hcase
    dsimp only at hs
    simp only [Option.getD_some] at hcase
    -- a merge into `j` takes a mobile that is claimed
    have claim : ∀ o, o ≠ j → mj.imsi ≠ im ∨ im = [] → ∀ m, get? s o = some m → m.imsi = im → im ≠ [] →
        Claimed s o m (.op (.pdu p)) := by
      intro o ho hne m _ hmi hmne
      refine .inr ⟨im, j, mj, him, hmne, hmi, Ne.symm ho, hj, ?_⟩
      rcases hcase with h | ⟨h1, h2⟩
      · exact h
      · rcases hne with hne | hne
        · exact absurd h2 hne
        · exact absurd hne h1
    have ph1 : Ph j (fun i m => Claimed s i m (.op (.pdu p))) s s1 ∧ (∀ m1, get? s1 j = some m1 → m1.imsi = mj.imsi ∨ m1.imsi = im) := by
      unfold findMs at hf
      rw [hgm, him] at hf
      dsimp only at hf
      rw [hj] at hf
      dsimp only at hf
      split at hf
      · rename_i hnil
        split at hf
        · rename_i o ho
          obtain ⟨hine, mo, hmo, hmi⟩ := byImsi_get hid ho
          split at hf
          · rename_i hoj
            cases hm : merge k s j o with
            | none => rw [hm] at hf; cases hf
            | some s3 =>
              rw [hm] at hf
              cases hf
              refine ⟨ph_merge hm fun m hg => claim o hoj (.inl fun e => hine (e ▸ hnil)) m hg ?_ hine, fun m1 h1 => ?_⟩
              · rw [hmo] at hg; cases hg; exact hmi
              · obtain ⟨hne, m, om, om', e1, e2, e3, rfl⟩ := merge_eq hm
                rw [get_checkIdle, if_neg (Ne.symm hne), get_modify, if_neg (Ne.symm hne), get_modify, if_pos rfl, e1] at h1
                rw [hmo] at e2; cases e2
                cases h1
                dsimp only [Mob.takeOver]
                rw [hj] at e1; cases e1
                split
                · exact .inr hmi
                · exact .inl rfl
          · cases hf; exact ⟨.rfl, fun m1 h1 => by rw [hj] at h1; cases h1; exact .inl rfl⟩
        · cases hf; exact ⟨.rfl, fun m1 h1 => by rw [hj] at h1; cases h1; exact .inl rfl⟩
      · cases hf; exact ⟨.rfl, fun m1 h1 => by rw [hj] at h1; cases h1; exact .inl rfl⟩
    have hid1 := ph1.1.ids hid
    refine ph1.1.trans ?_
    unfold setImsi at hs
    split at hs
    · cases hs; exact .rfl
    · split at hs
      · cases hs
      · rename_i m1 hm1
        split at hs
        · cases hs; exact .rfl
        · rename_i hne
          have hne' : mj.imsi ≠ im := by
            intro e
            rcases ph1.2 m1 hm1 with h | h
            · exact hne (by rw [h, e])
            · exact hne h.symm
          dsimp only at hs
          split at hs
          · cases hs
            exact ph_modify (fun m => ⟨rfl, rfl, rfl⟩) fun m h => h
          · rename_i o ho
            obtain ⟨hine, mo, hmo, hmi⟩ := byImsi_get hid1 ho
            cases hm : merge k s1 j o with
            | none => rw [hm] at hs; cases hs
            | some s3 =>
              rw [hm] at hs
              cases hs
              have hoj := (merge_eq hm).1
              have hcl : ∀ m, get? s1 o = some m → Claimed s o m (.op (.pdu p)) := by
                intro m hg
                refine .inr ⟨im, j, mj, him, hine, ?_, Ne.symm hoj, hj, ?_⟩
                · rw [hmo] at hg; cases hg; exact hmi
                · rcases hcase with h | ⟨-, h2⟩
                  · exact h
                  · exact absurd h2 hne'
              exact (ph_merge hm hcl).trans (ph_modify (fun m => ⟨rfl, rfl, rfl⟩) fun m h => h)

theorem view_ph {k : Clock} {s s' : St} {a : Act} {j : Nat} (hid : Ids s) (h : Ph j (fun i m => Claimed s i m a) s s') : View k s a s' := by
  refine ⟨by rw [h.next]; exact Nat.le_refl _, h.ids hid, fun i m hm => ?_, fun i m' h1 h2 => ?_⟩
  · by_cases hij : i = j
    · subst hij
      obtain ⟨m', e, hs, hn⟩ := h.self m hm
      rw [e]; exact .same m' hs fun h => .inl (hn h)
    · rcases h.other i m hij hm with e | ⟨e1, e2⟩
      · exact chg_id e
      · exact .lost _ e1 e2
  · rw [h.absent i h1] at h2; cases h2

theorem view_announce {k : Clock} {s s' : St} {i t : Nat} (hid : Ids s) (h : announce k s i t = some s') :
    View k s (.op (.announce i t)) s' := by
  unfold announce at h
  split at h
  · cases h; exact view_ph (j := i) hid .rfl
  · rename_i ht
    split at h
    · cases h
    · rename_i m hm
      have ph0 : Ph i (fun x m => Claimed s x m (.op (.announce i t))) s (modify s i (·.setTlli t)) := by
        refine ph_modify (fun m => ?_) fun m _ => named_set m t ht
        unfold Mob.setTlli Mob.applyTlli
        split
        · exact .rfl m
        · split <;> exact ⟨rfl, rfl, rfl⟩
      dsimp only at h
      split at h
      · cases h; exact view_ph hid ph0
      · rename_i o ho
        split at ho
        · cases ho
        · obtain ⟨mo, h1, h2⟩ := byTlli_some ho
          have hoi := (merge_eq h).1
          refine view_ph hid (ph0.trans (ph_merge h fun mx hx => ⟨Ne.symm hoi, ?_⟩))
          rw [get_modify, if_neg hoi, get_of_mem hid.1 h1] at hx
          cases hx
          exact h2

theorem view_pdu {k : Clock} {c : Nat} {s s' : St} {p : Pdu} (hid : Ids s) (hf : ∀ i m, get? s i = some m → Fine k.now m)
    (h : dlHandle k c s p = some s') : View k s (.op (.pdu p)) s' := by
  have hids := ids_dlHandle hid h
  obtain ⟨s1, j, new, s2, h1, h2, rfl⟩ := dlHandle_eq h
  cases new with
  | false =>
    obtain ⟨ph, mj, hj⟩ := ph_pdu hid h1 h2
    refine ⟨?_, hids, fun i m hm => ?_, fun i m' h3 h4 => ?_⟩
    · show s.next ≤ s2.next
      rw [ph.next]; exact Nat.le_refl _
    · show Chg _ _ _ _ _ (get? (modify s2 j (·.accept p)) i)
      rw [get_modify]
      by_cases hij : i = j
      · subst hij
        obtain ⟨m2, e, hs, -⟩ := ph.self m hm
        rw [if_pos rfl, e]
        have hn : m.named → (m2.accept p).named ∨ Claimed s i m (.op (.pdu p)) := fun _ => by
          by_cases ht : p.tlli = noTlli
          · exact .inr (.inl ht)
          · exact .inl (named_accept m2 p ht)
        cases ha : p.att with
        | none =>
          have h5 := same_accept m2 p ha
          exact .same _ ⟨h5.refs.trans hs.refs, h5.users.trans hs.users, h5.rel.trans hs.rel⟩ hn
        | some t =>
          have h5 := accept_att m2 p t ha
          exact .busy _ (h5.1.trans (hs.refs.trans (hf i m hm).1)) h5.2.1 h5.2.2 hn
      · rw [if_neg hij]
        rcases ph.other i m hij hm with e | ⟨e1, e2⟩
        · exact chg_id e
        · exact .lost _ e1 e2
    · have h4 : get? (modify s2 j (·.accept p)) i = some m' := h4
      rw [get_modify, ph.absent i h3] at h4
      split at h4 <;> cases h4
  | true =>
    obtain ⟨hgm, rfl, rfl⟩ : getMs s p.tlli p.old (p.imsi.getD []) = none ∧ s1 = (alloc s c 1).1 ∧ j = s.next := by
      rcases findMs_ok h1 with ⟨-, h⟩ | ⟨h, -⟩
      · exact h
      · cases h
    -- the IMSI is not known
    obtain ⟨m2, hm2, hr2, hu2, hl2, hg2, hn2⟩ : ∃ m2, get? s2 s.next = some m2 ∧ m2.refs = 1 ∧ m2.users = 1 ∧ m2.releasing = none ∧
        (∀ i, i ≠ s.next → get? s2 i = get? s i) ∧ s2.next = s.next + 1 := by
      have base : get? (alloc s c 1).1 s.next = some (newMob c 1) := by rw [get_alloc, if_pos rfl]
      cases him : p.imsi with
      | none =>
        rw [him] at h2; cases h2
        exact ⟨_, base, rfl, rfl, rfl, fun i hi => by rw [get_alloc, if_neg hi], rfl⟩
      | some im =>
        rw [him] at h2 hgm
        dsimp only at h2
        unfold setImsi at h2
        split at h2
        · cases h2
          exact ⟨_, base, rfl, rfl, rfl, fun i hi => by rw [get_alloc, if_neg hi], rfl⟩
        · rw [base] at h2
          dsimp only at h2
          split at h2
          · cases h2
            exact ⟨_, base, rfl, rfl, rfl, fun i hi => by rw [get_alloc, if_neg hi], rfl⟩
          · split at h2
            · cases h2
              refine ⟨_, by rw [get_modify, if_pos rfl, base]; rfl, rfl, rfl, rfl, fun i hi => ?_, rfl⟩
              rw [get_modify, if_neg hi, get_alloc, if_neg hi]
            · rename_i o ho
              exfalso
              obtain ⟨hine, mo, hmo, hmi⟩ := byImsi_get (ids_alloc hid c 1) ho
              rw [get_alloc] at hmo
              split at hmo
              · cases hmo; exact hine hmi.symm
              · rcases @getMs_cases s p.tlli p.old im with ⟨_, _, e, -⟩ | ⟨-, ⟨_, _, e, -⟩ | ⟨-, e⟩⟩
                · simp only [Option.getD_some] at hgm; rw [hgm] at e; cases e
                · simp only [Option.getD_some] at hgm; rw [hgm] at e; cases e
                · exact e _ (get_mem hmo) hine hmi
    simp only [if_true] at hids ⊢
    refine view_new hid ?_ hids (fun i hi => ?_) fun m' hm' => ?_
    · rw [next_unref]; exact hn2
    · rw [get_unref, if_neg hi, get_modify, if_neg hi, hg2 i hi]
    · rw [get_unref, if_pos rfl, get_modify, if_pos rfl, hm2] at hm'
      simp only [Option.map_some, Option.bind_some] at hm'
      have key : (m2.accept p).refs = 1 ∧ (m2.accept p).releasing = none := by
        cases ha : p.att with
        | none => have := same_accept m2 p ha; exact ⟨this.refs.trans hr2, this.rel.trans hl2⟩
        | some t => have := accept_att m2 p t ha; exact ⟨this.1.trans hr2, this.2.2⟩
      have hr : ({ m2.accept p with refs := (m2.accept p).refs - 1 } : Mob).refs = 0 := by
        show (m2.accept p).refs - 1 = 0
        rw [key.1]
      exact new_rest hr (fun _ => key.2) hm'

/-- Mobile `i` is changed by `f`. -/
structure On (i : Nat) (f : Mob → Mob) (s s' : St) : Prop where
  next : s'.next = s.next
  ids : Ids s → Ids s'
  get : ∀ x, get? s' x = if x = i then (get? s x).map f else get? s x

theorem On.trans {i : Nat} {f g : Mob → Mob} {a b c : St} (h1 : On i f a b) (h2 : On i g b c) : On i (fun m => g (f m)) a c := by
  refine ⟨h2.next.trans h1.next, fun h => h2.ids (h1.ids h), fun x => ?_⟩
  rw [h2.get, h1.get]
  split
  · rw [Option.map_map]; rfl
  · rfl

theorem on_modify (s : St) (i : Nat) (f : Mob → Mob) : On i f s (modify s i f) :=
  ⟨rfl, fun h => ids_modify' h _ _, fun x => get_modify s i x f⟩

theorem on_id {i : Nat} {f : Mob → Mob} {s : St} {m : Mob} (hm : get? s i = some m) (hf : f m = m) : On i f s s := by
  refine ⟨rfl, id, fun x => ?_⟩
  by_cases h : x = i
  · subst h; rw [if_pos rfl, hm, Option.map_some, hf]
  · rw [if_neg h]

/-- Users are counted while somebody else uses the mobile. -/
theorem on_checkIdle {k : Clock} {s : St} {i : Nat} {m : Mob} (f : Mob → Mob) (hm : get? s i = some m) (hu : (f m).users ≠ 0) :
    On i f s (checkIdle k (modify s i f) i) := by
  refine ⟨next_checkIdle _ _ _, fun h => ids_checkIdle (ids_modify' h _ _) _ _, fun x => ?_⟩
  rw [get_checkIdle, get_modify]
  by_cases h : x = i
  · subst h
    rw [if_pos rfl, if_pos rfl, hm]
    simp only [Option.map_some, Option.bind_some, Mob.rest]
    rw [if_pos hu]
  · rw [if_neg h, if_neg h]

theorem on_dropUl {k : Clock} {s : St} {i : Nat} {m : Mob} (hm : get? s i = some m) (hr : m.refs ≠ 0) :
    ∃ s', dropUl k s i = some s' ∧ On i (fun m => { m with ul := none }) s s' := by
  unfold dropUl
  rw [hm]
  dsimp only
  split
  · exact ⟨_, rfl, on_checkIdle _ hm (by unfold Mob.users; dsimp only; omega)⟩
  · rename_i h
    refine ⟨s, rfl, on_id hm ?_⟩
    cases hul : m.ul with
    | none => cases m; cases hul; rfl
    | some _ => rw [hul] at h; exact absurd rfl h

theorem on_dropDl {k : Clock} {s : St} {i : Nat} {m : Mob} (hm : get? s i = some m) (hr : m.refs ≠ 0) :
    ∃ s', dropDl k s i = some s' ∧ On i (fun m => { m with dl := none }) s s' := by
  unfold dropDl
  rw [hm]
  dsimp only
  split
  · exact ⟨_, rfl, on_checkIdle _ hm (by unfold Mob.users; dsimp only; omega)⟩
  · rename_i h
    refine ⟨s, rfl, on_id hm ?_⟩
    cases hdl : m.dl with
    | none => cases m; cases hdl; rfl
    | some _ => rw [hdl] at h; exact absurd rfl h

def Mob.ulOpt (att : Option Bool) (m : Mob) : Mob := match att with | none => m | some t => m.attachUl t
def Mob.dlOpt (att : Option Bool) (m : Mob) : Mob := match att with | none => m | some t => m.attachDl t

theorem on_startUl {s : St} {i : Nat} {m : Mob} (hm : get? s i = some m) (att : Option Bool) :
    ∃ s', startUl s i att = some s' ∧ On i (·.ulOpt att) s s' := by
  unfold startUl
  rw [hm]
  refine ⟨_, rfl, next_attachOpt _ _ _, fun h => ids_attachOpt h _ _, fun x => ?_⟩
  rw [get_attachOpt]; rfl

theorem on_startDl {s : St} {i : Nat} {m : Mob} (hm : get? s i = some m) (att : Option Bool) :
    ∃ s', startDl s i att = some s' ∧ On i (·.dlOpt att) s s' := by
  unfold startDl
  rw [hm]
  cases att with
  | none => exact ⟨s, rfl, on_id hm rfl⟩
  | some t => exact ⟨_, rfl, on_modify _ _ _⟩

theorem On.self {i : Nat} {f : Mob → Mob} {s s' : St} (h : On i f s s') {m : Mob} (hm : get? s i = some m) : get? s' i = some (f m) := by
  rw [h.get, if_pos rfl, hm]; rfl

/-- The record of a mobile during a request. -/
def Mob.served (ul dl : Bool) (att : Option Bool) (m : Mob) : Mob :=
  Mob.ulOpt att { m with ul := if ul then none else m.ul, dl := if dl then none else m.dl, refs := m.refs + 1 }

theorem serve_on {k : Clock} {s : St} {i : Nat} {m : Mob} (hm : get? s i = some m) (ul dl : Bool) (att : Option Bool) :
    ∃ s4, serve k s i ul dl att = some (unref k s4 i) ∧ On i (·.served ul dl att) s s4 := by
  have o1 := on_modify s i (fun m => { m with refs := m.refs + 1 })
  have g1 := o1.self hm
  obtain ⟨s2, e2, o2, r2⟩ : ∃ s2, (if ul then dropUl k (modify s i fun m => { m with refs := m.refs + 1 }) i else some (modify s i fun m => { m with refs := m.refs + 1 })) = some s2 ∧
      On i (fun m => { m with ul := if ul then none else m.ul, refs := m.refs + 1 }) s s2 ∧ True := by
    cases ul with
    | true => obtain ⟨s', a, b⟩ := on_dropUl (k := k) g1 (by simp); exact ⟨s', a, o1.trans b, trivial⟩
    | false => exact ⟨_, rfl, o1, trivial⟩
  have g2 := o2.self hm
  obtain ⟨s3, e3, o3⟩ : ∃ s3, (if dl then dropDl k s2 i else some s2) = some s3 ∧
      On i (fun m => { m with ul := if ul then none else m.ul, dl := if dl then none else m.dl, refs := m.refs + 1 }) s s3 := by
    cases dl with
    | true => obtain ⟨s', a, b⟩ := on_dropDl (k := k) g2 (by simp); exact ⟨s', a, o2.trans b⟩
    | false => exact ⟨_, rfl, o2⟩
  have g3 := o3.self hm
  obtain ⟨s4, e4, o4⟩ := on_startUl g3 att
  have o5 := o3.trans o4
  refine ⟨s4, ?_, o5⟩
  unfold serve ref
  rw [hm]
  simp only [Option.bind_some]
  rw [e2, Option.bind_some, e3, Option.bind_some, e4, Option.bind_some]
  unfold unref?
  rw [o5.self hm]

/-- The record of a mobile whose final Uplink Ack/Nack is confirmed. -/
def Mob.finished (att : Option Bool) (m : Mob) : Mob := Mob.dlOpt att { m with ul := none, refs := m.refs + 1 }

theorem final_on {k : Clock} {s : St} {i : Nat} {m : Mob} (hm : get? s i = some m) (att : Option Bool) :
    ∃ s3, final k s i att = some (unref k s3 i) ∧ On i (·.finished att) s s3 := by
  have o1 := on_modify s i (fun m => { m with refs := m.refs + 1 })
  have g1 := o1.self hm
  obtain ⟨s2, e2, o2⟩ := on_dropUl (k := k) g1 (by simp)
  have o3 := o1.trans o2
  obtain ⟨s3, e3, o4⟩ := on_startDl (o3.self hm) att
  have o5 := o3.trans o4
  refine ⟨s3, ?_, o5⟩
  unfold final ref
  rw [hm]
  simp only [Option.bind_some]
  rw [e2, Option.bind_some, e3, Option.bind_some]
  unfold unref?
  rw [o5.self hm]

theorem view_serve {k : Clock} {s s' : St} {i : Nat} {ul dl : Bool} {att : Option Bool} (hid : Ids s)
    (hf : ∀ i m, get? s i = some m → Fine k.now m) (hm : ∃ m, get? s i = some m)
    (h : serve k s i ul dl att = some s') : View k s (.serve i ul dl att) s' := by
  obtain ⟨m0, hm0⟩ := hm
  obtain ⟨s4, e, o⟩ := serve_on (k := k) hm0 ul dl att
  rw [e] at h; cases h
  refine view_one i (by rw [next_unref, o.next]) (ids_unref (o.ids hid) _ _)
    (fun m => ({ m.served ul dl att with refs := (m.served ul dl att).refs - 1 } : Mob).rest k) (fun x => ?_) fun m hm => ?_
  · rw [get_unref, o.get]
    split
    · rw [Option.bind_map]; rfl
    · rfl
  · obtain ⟨hr, h0, h1⟩ := hf i m hm
    have hu1 : ∀ t, ({ m.served ul dl (some t) with refs := (m.served ul dl (some t)).refs - 1 } : Mob).users ≠ 0 := by
      intro t
      exact users_ul rfl
    have hu0 : ({ m.served ul dl none with refs := (m.served ul dl none).refs - 1 } : Mob).users ≤ m.users := by
      unfold Mob.users
      simp only [Mob.served, Mob.ulOpt]
      cases ul <;> cases dl <;> simp <;> omega
    have hu2 : ul = false → dl = false → ({ m.served ul dl none with refs := (m.served ul dl none).refs - 1 } : Mob).users = m.users := by
      rintro rfl rfl
      unfold Mob.users
      simp [Mob.served, Mob.ulOpt]
    refine chg_rest ?_ ?_ ?_ ?_
    · cases att with
      | some t => exact .inr (.inr (hu1 t))
      | none =>
        by_cases hd : ul = true ∨ dl = true
        · exact .inl ⟨rfl, hd⟩
        · rw [not_or, Bool.not_eq_true, Bool.not_eq_true] at hd
          by_cases hz : m.users = 0
          · exact .inr (.inl ⟨hz, rfl⟩)
          · exact .inr (.inr (by rw [hu2 hd.1 hd.2]; exact hz))
    · cases att <;> simp [Mob.served, Mob.ulOpt, Mob.attachUl, hr]
    · intro hz
      cases att with
      | some t => rfl
      | none => exact h1 fun e => hz (by omega)
    · intro hn
      cases att <;> exact hn

theorem view_final {k : Clock} {s s' : St} {i : Nat} {att : Option Bool} (hid : Ids s)
    (hf : ∀ i m, get? s i = some m → Fine k.now m) (hm : ∃ m, get? s i = some m)
    (h : final k s i att = some s') : View k s (.final i att) s' := by
  obtain ⟨m0, hm0⟩ := hm
  obtain ⟨s4, e, o⟩ := final_on (k := k) hm0 att
  rw [e] at h; cases h
  refine view_one i (by rw [next_unref, o.next]) (ids_unref (o.ids hid) _ _)
    (fun m => ({ m.finished att with refs := (m.finished att).refs - 1 } : Mob).rest k) (fun x => ?_) fun m hm => ?_
  · rw [get_unref, o.get]
    split
    · rw [Option.bind_map]; rfl
    · rfl
  · obtain ⟨hr, h0, h1⟩ := hf i m hm
    have hu0 : ({ m.finished none with refs := (m.finished none).refs - 1 } : Mob).users ≤ m.users := by
      unfold Mob.users
      simp only [Mob.finished, Mob.dlOpt]
      by_cases h : m.dl.isSome = true <;> simp [h] <;> omega
    refine chg_rest (.inl rfl) ?_ ?_ ?_
    · cases att <;> simp [Mob.finished, Mob.dlOpt, Mob.attachDl, hr]
    · intro hz
      cases att with
      | some t => rfl
      | none => exact h1 fun e => hz (by omega)
    · intro hn
      cases att <;> exact hn

/-- The users of a mobile are counted after a TBF has been given up. -/
theorem view_free {k : Clock} {s : St} {i : Nat} {a : Act} (f : Mob → Mob) (hid : Ids s)
    (hf : ∀ i m, get? s i = some m → Fine k.now m) (hfr : Frees i a) (hr : ∀ m, (f m).refs = m.refs)
    (hu : ∀ m, (f m).users ≤ m.users) (hl : ∀ m, (f m).releasing = m.releasing) (hn : ∀ m, m.named → (f m).named) :
    View k s a (checkIdle k (modify s i f) i) := by
  refine view_one i (next_checkIdle _ _ _) (ids_checkIdle (ids_modify' hid _ _) _ _) (fun m => (f m).rest k) (fun x => ?_) fun m hm => ?_
  · rw [get_checkIdle, get_modify]
    split
    · rw [Option.bind_map]; rfl
    · rfl
  · obtain ⟨h0, -, h1⟩ := hf i m hm
    refine chg_rest (.inl hfr) (by rw [hr, h0]) (fun hz => ?_) (hn m)
    rw [hl]
    have := hu m
    exact h1 (by omega)

theorem view_resource {k : Clock} {c t : Nat} {s : St} {att : Option Bool} (hid : Ids s)
    (hf : ∀ i m, get? s i = some m → Fine k.now m) : View k s (.op (.resource t att)) (resourceReq k c s t att) := by
  have hids : Ids (resourceReq k c s t att) := ids_unref (ids_attachOpt (ids_modify' (ids_reqMs hid _ _) _ _) _ _) _ _
  cases hb : byTlli s t with
  | some i =>
    have hq : reqMs c s t = (s, i) := by unfold reqMs; rw [hb]
    refine view_one i ?_ hids (fun m => ({ Mob.ulOpt att { m with refs := m.refs + 1 } with refs := (Mob.ulOpt att { m with refs := m.refs + 1 }).refs - 1 } : Mob).rest k) (fun x => ?_) fun m hm => ?_
    · unfold resourceReq; rw [next_unref, next_attachOpt, next_modify, hq]
    · unfold resourceReq
      rw [hq]
      dsimp only
      rw [get_unref, get_attachOpt, get_modify]
      split
      · rw [Option.map_map, Option.bind_map]; rfl
      · rfl
    · obtain ⟨hr, -, h1⟩ := hf i m hm
      cases att with
      | none =>
        have e : ({ Mob.ulOpt none { m with refs := m.refs + 1 } with refs := (Mob.ulOpt none { m with refs := m.refs + 1 }).refs - 1 } : Mob) = m := by
          cases m; rfl
        rw [e]
        refine chg_rest ?_ hr h1 id
        by_cases hz : m.users = 0
        · exact .inr (.inl ⟨hz, hb⟩)
        · exact .inr (.inr hz)
      | some u =>
        refine chg_rest (.inr (.inr ?_)) ?_ (fun _ => rfl) fun h => h
        · exact users_ul rfl
        · simp [Mob.ulOpt, Mob.attachUl, hr]
  | none =>
    have hq : reqMs c s t = (modify (alloc s c 0).1 s.next (·.setTlli t), s.next) := by unfold reqMs; rw [hb]; rfl
    have hg0 : get? (modify (alloc s c 0).1 s.next (·.setTlli t)) s.next = some ((newMob c 0).setTlli t) := by
      rw [get_modify, if_pos rfl, get_alloc, if_pos rfl]; rfl
    have hset : ((newMob c 0).setTlli t).refs = 0 ∧ ((newMob c 0).setTlli t).releasing = none := by
      unfold Mob.setTlli Mob.applyTlli
      split
      · exact ⟨rfl, rfl⟩
      · split <;> exact ⟨rfl, rfl⟩
    refine view_new hid ?_ hids (fun i hi => ?_) fun m' hm' => ?_
    · unfold resourceReq; rw [next_unref, next_attachOpt, next_modify, hq]; rfl
    · unfold resourceReq
      rw [hq]
      dsimp only
      rw [get_unref, if_neg hi, get_attachOpt, if_neg hi, get_modify, if_neg hi, get_modify, if_neg hi, get_alloc, if_neg hi]
    · unfold resourceReq at hm'
      rw [hq] at hm'
      dsimp only at hm'
      rw [get_unref, if_pos rfl, get_attachOpt, if_pos rfl, get_modify, if_pos rfl, hg0] at hm'
      simp only [Option.map_some, Option.bind_some] at hm'
      refine new_rest ?_ (fun _ => ?_) hm'
      · cases att <;> simp [Mob.attachUl, hset.1]
      · cases att with
        | none => exact hset.2
        | some t => rfl

theorem users_erase (m : Mob) (n : Nat) : ({ m with old := m.old.eraseIdx n } : Mob).users ≤ m.users := by
  have : (m.old.eraseIdx n).length ≤ m.old.length := by rw [List.length_eraseIdx]; split <;> omega
  unfold Mob.users
  dsimp only
  omega

theorem act_view {c : Nat} {s s' : Sys} {a : Act} (hi : Inv s) (hr : Real s a) (h : act c s a = some s')
    (ht : ∀ d, a ≠ .time d) (hv : ∀ v, a ≠ .conf v) : s'.k = s.k ∧ View s.k s.st a s'.st := by
  obtain ⟨hid, hf⟩ := hi
  cases a with
  | time d => exact absurd rfl (ht d)
  | conf v => exact absurd rfl (hv v)
  | serve i ul dl att =>
    simp only [act, Option.map_eq_some_iff] at h
    obtain ⟨t, h1, rfl⟩ := h
    exact ⟨rfl, view_serve hid hf hr h1⟩
  | final i att =>
    simp only [act, Option.map_eq_some_iff] at h
    obtain ⟨t, h1, rfl⟩ := h
    obtain ⟨m, hm, -⟩ := hr
    exact ⟨rfl, view_final hid hf ⟨m, hm⟩ h1⟩
  | reject =>
    cases h
    refine ⟨rfl, view_new hid ?_ (ids_unref (ids_alloc hid _ _) _ _) (fun i hne => ?_) fun m' hm' => ?_⟩
    · show (unref s.k (alloc s.st c 1).1 s.st.next).next = _
      rw [next_unref]; rfl
    · show get? (unref s.k (alloc s.st c 1).1 s.st.next) i = _
      rw [get_unref, if_neg hne, get_alloc, if_neg hne]
    · have hm' : get? (unref s.k (alloc s.st c 1).1 s.st.next) s.st.next = some m' := hm'
      rw [get_unref, if_pos rfl, get_alloc, if_pos rfl] at hm'
      exact new_rest rfl (fun _ => rfl) hm'
  | op o =>
    simp only [act, Option.map_eq_some_iff] at h
    obtain ⟨t, h1, rfl⟩ := h
    refine ⟨rfl, ?_⟩
    have hids := ids_step hid h1
    cases o with
    | pdu p => exact view_pdu hid hf h1
    | announce i t => exact view_announce hid h1
    | resource t att => cases h1; exact view_resource hid hf
    | meas t =>
      cases h1
      show View s.k s.st _ (measReport s.k c s.st t)
      have hids : Ids (measReport s.k c s.st t) := hids
      unfold measReport at hids ⊢
      split
      · exact view_ph (j := 0) hid .rfl
      · rename_i hb
        rw [hb] at hids
        have hset : ((newMob c 1).setTlli t).refs = 1 ∧ ((newMob c 1).setTlli t).releasing = none := by
          unfold Mob.setTlli Mob.applyTlli
          split
          · exact ⟨rfl, rfl⟩
          · split <;> exact ⟨rfl, rfl⟩
        refine view_new hid ?_ hids (fun i hne => ?_) fun m' hm' => ?_
        · show (unref s.k (modify (alloc s.st c 1).1 s.st.next (·.setTlli t)) s.st.next).next = _
          rw [next_unref]; rfl
        · show get? (unref s.k (modify (alloc s.st c 1).1 s.st.next (·.setTlli t)) s.st.next) i = _
          rw [get_unref, if_neg hne, get_modify, if_neg hne, get_alloc, if_neg hne]
        · have hm' : get? (unref s.k (modify (alloc s.st c 1).1 s.st.next (·.setTlli t)) s.st.next) s.st.next = some m' := hm'
          rw [get_unref, if_pos rfl, get_modify, if_pos rfl, get_alloc, if_pos rfl] at hm'
          simp only [Option.map_some, Option.bind_some] at hm'
          have hr0 : ({ (newMob c 1).setTlli t with refs := ((newMob c 1).setTlli t).refs - 1 } : Mob).refs = 0 := by
            show ((newMob c 1).setTlli t).refs - 1 = 0
            rw [hset.1]
          exact new_rest hr0 (fun _ => hset.2) hm'
    | access =>
      cases h1
      refine view_new hid rfl hids (fun i hne => ?_) fun m' hm' => ?_
      · show get? (modify (alloc s.st c 0).1 s.st.next (·.attachUl true)) i = _
        rw [get_modify, if_neg hne, get_alloc, if_neg hne]
      · have hm' : get? (modify (alloc s.st c 0).1 s.st.next (·.attachUl true)) s.st.next = some m' := hm'
        rw [get_modify, if_pos rfl, get_alloc, if_pos rfl] at hm'
        cases hm'
        exact ⟨rfl, .inl ⟨users_attachUl _ _, rfl⟩⟩
    | attachDl i b =>
      cases h1
      refine view_one i rfl hids (fun m => some (m.attachDl b)) (fun x => ?_) fun m hm => ?_
      · rw [get_modify]; split
        · cases get? s.st x <;> rfl
        · rfl
      · exact .busy _ (hf i m hm).1 (users_attachDl _ _) rfl fun h => .inl h
    | attachUl i b =>
      cases h1
      refine view_one i rfl hids (fun m => some (m.attachUl b)) (fun x => ?_) fun m hm => ?_
      · rw [get_modify]; split
        · cases get? s.st x <;> rfl
        · rfl
      · exact .busy _ (hf i m hm).1 (users_attachUl _ _) rfl fun h => .inl h
    | freeUl i =>
      cases h1
      refine view_free _ hid hf rfl (fun m => rfl) (fun m => ?_) (fun m => rfl) fun m h => h
      unfold Mob.users; simp <;> omega
    | freeDl i =>
      cases h1
      refine view_free _ hid hf rfl (fun m => rfl) (fun m => ?_) (fun m => rfl) fun m h => h
      unfold Mob.users; simp <;> omega
    | freeOld i n =>
      cases h1
      exact view_free _ hid hf rfl (fun m => rfl) (fun m => users_erase m n) (fun m => rfl) fun m h => h
    | llc i q t =>
      cases h1
      refine view_one i rfl hids (fun m => some { m with q := q, dl := m.dl.map fun _ => t }) (fun x => ?_) fun m hm => ?_
      · rw [get_modify]; split
        · cases get? s.st x <;> rfl
        · rfl
      · refine .same _ ⟨rfl, users_congr rfl ?_ rfl rfl, rfl⟩ fun h => .inl h
        show (m.dl.map fun _ => t).isSome = _
        cases m.dl <;> rfl
    | release i => exact hr.elim

end Verif.Store
