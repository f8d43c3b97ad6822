import Verif.Spec.Sched
import Verif.Lemmas.Ulc
/-!
# Lemmas about the scheduler
-/

namespace Verif.Sched

open Verif.Cs Verif.Fn

/-! ### Round robin -/

/-- Steps from `a` to `b` on a circle of 32. -/
def dist (a b : Nat) : Nat := (b + 32 - a) % 32

theorem dist_lt (a b : Nat) : dist a b < 32 := Nat.mod_lt _ (by decide)

theorem dist_self (a : Nat) : dist a a = 0 := by
  unfold dist; omega

theorem dist_succ {a b : Nat} (_ : a < 32) (hb : b < 32) (h : 0 < dist a b) :
    dist ((a + 1) % 32) b = dist a b - 1 := by
  unfold dist at *; omega

theorem dist_zero {a b : Nat} (ha : a < 32) (hb : b < 32) (h : dist a b = 0) : a = b := by
  unfold dist at *; omega

/-- Distance from the chosen one onwards. -/
theorem dist_sub {n k f : Nat} (hn : n < 32) (hk : k < 32) (hf : f < 32) (h : dist n k < dist n f) :
    dist k f = dist n f - dist n k ∧ dist ((k + 1) % 32) f = dist k f - 1 ∧ 0 < dist k f := by
  unfold dist at *; omega

/-- Choices of a round robin: each is nearer to the pointer than `f`, and the pointer is moved
behind it. -/
inductive Round (f : Nat) : Nat → List Nat → Prop
  | nil (n : Nat) : Round f n []
  | cons {n k : Nat} {l : List Nat} : n < 32 → k < 32 → dist n k < dist n f → Round f ((k + 1) % 32) l →
      Round f n (k :: l)

theorem Round.near {f n : Nat} {l : List Nat} (hf : f < 32) (h : Round f n l) :
    ∀ k ∈ l, k < 32 ∧ 0 < dist k f ∧ dist k f ≤ dist n f := by
  induction h with
  | nil => intro k hk; cases hk
  | cons hn hk hd _ ih =>
    have h3 := dist_sub hn hk hf hd
    intro x hx
    rcases List.mem_cons.1 hx with rfl | hx
    · exact ⟨hk, h3.2.2, by omega⟩
    · have := ih x hx
      exact ⟨this.1, this.2.1, by omega⟩

theorem Round.nodup {f n : Nat} {l : List Nat} (hf : f < 32) (h : Round f n l) : l.Nodup ∧ f ∉ l := by
  induction h with
  | nil => simp
  | cons hn hk hd hr ih =>
    have h3 := dist_sub hn hk hf hd
    refine ⟨List.nodup_cons.2 ⟨fun hm => ?_, ih.1⟩, fun hm => ?_⟩
    · have := hr.near hf _ hm
      omega
    · rcases List.mem_cons.1 hm with rfl | hm
      · have := h3.2.2
        rw [dist_self] at this
        exact absurd this (by decide)
      · exact ih.2 hm

/-! ### Uplink -/

theorem selUlLoop_some (ul : Nat → Option UlT) (g : Bool) : ∀ (n a k : Nat) (t : UlT), a < 32 →
    selUlLoop ul g n a = some (k, t) →
    k < 32 ∧ ul k = some t ∧ ulEligible g t = true ∧
    ∀ j < 32, dist a j < n → ∀ u, ul j = some u → ulEligible g u = true → dist a k ≤ dist a j := by
  intro n
  induction n with
  | zero => intro a k t _ h; cases h
  | succ n ih =>
    intro a k t ha h
    have key : selUlLoop ul g n ((a + 1) % 32) = some (k, t) →
        (∀ u, ul a = some u → ulEligible g u = false) →
        k < 32 ∧ ul k = some t ∧ ulEligible g t = true ∧
        ∀ j < 32, dist a j < n + 1 → ∀ u, ul j = some u → ulEligible g u = true → dist a k ≤ dist a j := by
      intro h' hno
      have := ih _ _ _ (Nat.mod_lt _ (by decide)) h'
      refine ⟨this.1, this.2.1, this.2.2.1, fun j hj hd u hu he => ?_⟩
      rcases Nat.eq_zero_or_pos (dist a j) with hz | hp
      · have := dist_zero ha hj hz
        subst this
        rw [hno u hu] at he
        cases he
      · have hk0 : 0 < dist a k := by
          rcases Nat.eq_zero_or_pos (dist a k) with hz | hp
          · have e := dist_zero ha this.1 hz
            subst e
            rw [hno t this.2.1] at this
            cases this.2.2.1
          · exact hp
        have h1 := dist_succ ha hj hp
        have h2 := dist_succ ha this.1 hk0
        have h3 := this.2.2.2 j hj (by omega) u hu he
        omega
    rw [selUlLoop] at h
    cases hu : ul a with
    | none => rw [hu] at h; exact key h (by intro u hu'; rw [hu] at hu'; cases hu')
    | some u =>
      rw [hu] at h
      simp only at h
      by_cases he : ulEligible g u = true
      · rw [if_pos he] at h
        cases h
        exact ⟨ha, hu, he, fun j _ _ _ _ _ => by rw [dist_self]; omega⟩
      · rw [if_neg he] at h
        exact key h (by intro v hv; rw [hu] at hv; cases hv; simpa using he)

theorem selUlLoop_none (ul : Nat → Option UlT) (g : Bool) : ∀ (n a : Nat), a < 32 →
    selUlLoop ul g n a = none →
    ∀ j < 32, dist a j < n → ∀ u, ul j = some u → ulEligible g u = false := by
  intro n
  induction n with
  | zero => intro a _ _ j _ h; omega
  | succ n ih =>
    intro a ha h j hj hd u hu
    have hno : selUlLoop ul g n ((a + 1) % 32) = none ∧ ∀ u, ul a = some u → ulEligible g u = false := by
      rw [selUlLoop] at h
      cases hu : ul a with
      | none => rw [hu] at h; exact ⟨h, by intro u hu'; cases hu'⟩
      | some u =>
        rw [hu] at h
        simp only at h
        by_cases he : ulEligible g u = true
        · rw [if_pos he] at h; cases h
        · rw [if_neg he] at h; exact ⟨h, by intro v hv; cases hv; simpa using he⟩
    rcases Nat.eq_zero_or_pos (dist a j) with hz | hp
    · have := dist_zero ha hj hz
      subst this
      exact hno.2 u hu
    · exact ih _ (Nat.mod_lt _ (by decide)) hno.1 j hj (by have := dist_succ ha hj hp; omega) u hu

/-! ### Downlink -/

/-- Rank of a TFI for the data block. -/
def dlRank (c : Cfg) (fn : Nat) (req : Kind) (dl : Nat → Option DlT) (i : Nat) : Nat :=
  match dl i with
  | none => 0
  | some t => match dlPrio c fn req t with
    | none => 0
    | some p => p.code

theorem dlPrio_pos {c : Cfg} {fn : Nat} {req : Kind} {t : DlT} {p : Prio} (h : dlPrio c fn req t = some p) :
    0 < p.code := by
  unfold dlPrio at h
  split at h
  · cases h
  · split at h
    · cases h
    · split at h
      · cases h
      · split at h
        · cases h
        · rename_i h3 _
          cases h
          generalize t.prio c fn = q at *
          cases q <;> first | exact absurd rfl h3 | decide

/-- What the loop keeps: the first of greatest rank among those seen. -/
def BestOf (c : Cfg) (fn : Nat) (req : Kind) (dl : Nat → Option DlT) (start seen : Nat) :
    Option (Nat × DlT × Prio) → Prop
  | none => ∀ j < 32, dist start j < seen → dlRank c fn req dl j = 0
  | some (k, t, p) => k < 32 ∧ dl k = some t ∧ dlPrio c fn req t = some p ∧ dist start k < seen ∧
      ∀ j < 32, dist start j < seen → dlRank c fn req dl j ≤ p.code ∧
        (dist start j < dist start k → dlRank c fn req dl j < p.code)

theorem selDlLoop_spec (c : Cfg) (fn : Nat) (req : Kind) (dl : Nat → Option DlT) (start : Nat)
    (hs : start < 32) : ∀ (n seen : Nat) (best : Option (Nat × DlT × Prio)), seen + n = 32 →
    BestOf c fn req dl start seen best →
    BestOf c fn req dl start 32 (selDlLoop c fn req dl n ((start + seen) % 32) best) := by
  intro n
  induction n with
  | zero =>
    intro seen best h hb
    have : seen = 32 := by omega
    subst this
    exact hb
  | succ n ih =>
    intro seen best h hb
    rw [selDlLoop]
    have e : ((start + seen) % 32 + 1) % 32 = (start + (seen + 1)) % 32 := by omega
    rw [e]
    apply ih (seen + 1) _ (by omega)
    generalize ha : (start + seen) % 32 = a
    have ha32 : a < 32 := by omega
    have hda : dist start a = seen := by unfold dist; omega
    have only : ∀ j < 32, dist start j < seen + 1 → dist start j < seen ∨ j = a := by
      intro j hj hd
      rcases Nat.lt_or_eq_of_le (Nat.lt_succ_iff.1 hd) with h1 | h1
      · exact .inl h1
      · right; unfold dist at *; omega
    -- the entry is not taken
    have keep : (match best with | some (_, _, q) => dlRank c fn req dl a ≤ q.code | none => dlRank c fn req dl a = 0) →
        BestOf c fn req dl start (seen + 1) best := by
      intro hk
      cases best with
      | none =>
        intro j hj hd
        rcases only j hj hd with h1 | rfl
        · exact hb j hj h1
        · exact hk
      | some b =>
        obtain ⟨k, t, p⟩ := b
        refine ⟨hb.1, hb.2.1, hb.2.2.1, by have := hb.2.2.2.1; omega, fun j hj hd => ?_⟩
        rcases only j hj hd with h1 | rfl
        · exact hb.2.2.2.2 j hj h1
        · exact ⟨hk, fun h2 => by have := hb.2.2.2.1; omega⟩
    cases hdl : dl a with
    | none =>
      show BestOf c fn req dl start (seen + 1) best
      apply keep
      have : dlRank c fn req dl a = 0 := by unfold dlRank; rw [hdl]
      cases best with
      | none => exact this
      | some b => obtain ⟨k, t, p⟩ := b; show _ ≤ _; omega
    | some t =>
      cases hp : dlPrio c fn req t with
      | none =>
        simp only [better, hp]
        apply keep
        have : dlRank c fn req dl a = 0 := by unfold dlRank; rw [hdl]; simp only [hp]
        cases best with
        | none => exact this
        | some b => obtain ⟨k, t, p⟩ := b; show _ ≤ _; omega
      | some p =>
        have hr : dlRank c fn req dl a = p.code := by unfold dlRank; rw [hdl]; simp only [hp]
        have hp0 := dlPrio_pos hp
        simp only [better, hp]
        cases best with
        | none =>
          rw [if_pos (show p.code > bestCode none from hp0)]
          refine ⟨ha32, hdl, hp, by omega, fun j hj hd => ?_⟩
          rcases only j hj hd with h1 | rfl
          · have := hb j hj h1
            exact ⟨by omega, fun _ => by omega⟩
          · exact ⟨by omega, fun h2 => by omega⟩
        | some b =>
          obtain ⟨k, t', q⟩ := b
          by_cases hq : p.code > q.code
          · rw [if_pos (show p.code > bestCode (some (k, t', q)) from hq)]
            refine ⟨ha32, hdl, hp, by omega, fun j hj hd => ?_⟩
            rcases only j hj hd with h1 | rfl
            · have := (hb.2.2.2.2 j hj h1).1
              exact ⟨by omega, fun _ => by omega⟩
            · exact ⟨by omega, fun h2 => by omega⟩
          · rw [if_neg (show ¬ p.code > bestCode (some (k, t', q)) from hq)]
            exact keep (by show _ ≤ _; omega)

/-- The choice of the downlink TBF. -/
theorem selDl_some {c : Cfg} {fn : Nat} {req : Kind} {dl : Nat → Option DlT} {next n k : Nat} {t : DlT}
    (hn : next < 32) (h : selDl c fn req dl next = (n, some (k, t))) :
    k < 32 ∧ n = (k + 1) % 32 ∧ dl k = some t ∧ 0 < dlRank c fn req dl k ∧
    ∀ j < 32, dlRank c fn req dl j ≤ dlRank c fn req dl k ∧
      (dist next j < dist next k → dlRank c fn req dl j < dlRank c fn req dl k) := by
  have hs := selDlLoop_spec c fn req dl next hn 32 0 none rfl (fun j _ h => by omega)
  rw [Nat.add_zero, Nat.mod_eq_of_lt hn] at hs
  unfold selDl at h
  generalize selDlLoop c fn req dl 32 next none = r at *
  cases r with
  | none => cases h
  | some b =>
    obtain ⟨k', t', p⟩ := b
    cases h
    have hr : dlRank c fn req dl k = p.code := by unfold dlRank; rw [hs.2.1]; simp only [hs.2.2.1]
    rw [hr]
    exact ⟨hs.1, rfl, hs.2.1, dlPrio_pos hs.2.2.1, fun j hj => hs.2.2.2.2 j hj (dist_lt _ _)⟩

theorem selDl_none {c : Cfg} {fn : Nat} {req : Kind} {dl : Nat → Option DlT} {next n : Nat}
    (hn : next < 32) (h : selDl c fn req dl next = (n, none)) :
    n = next ∧ ∀ j < 32, dlRank c fn req dl j = 0 := by
  have hs := selDlLoop_spec c fn req dl next hn 32 0 none rfl (fun j _ h => by omega)
  rw [Nat.add_zero, Nat.mod_eq_of_lt hn] at hs
  unfold selDl at h
  generalize selDlLoop c fn req dl 32 next none = r at *
  cases r with
  | none => cases h; exact ⟨rfl, fun j hj => hs j hj (dist_lt _ _)⟩
  | some b => obtain ⟨k', t', p⟩ := b; cases h

/-! ### Anatomy of a request -/

/-- The outcome of a request, taken apart. -/
theorem rts_some {c : Cfg} {e : Env} {s s1 : St} {o : Out} (h : rts c e s = some (s1, o)) :
    ∃ b, selBlock c e s (reqKind s.gprsOnly (selUsf e s s.gprsOnly).usf) = some b ∧
      s1 = ⟨(selUsf e s s.gprsOnly).next, b.nextDl, b.nextCtrl,
        if b.isEgprs && gprsAttached e then s.noCs14 + 1 else 0, (selUsf e s s.gprsOnly).ulc, b.app⟩ ∧
      o = ⟨b.blk, usfOf (selUsf e s s.gprsOnly).usf, (selUsf e s s.gprsOnly).usf, (selUsf e s s.gprsOnly).grant⟩ := by
  unfold rts at h
  cases hb : selBlock c e s (reqKind s.gprsOnly (selUsf e s s.gprsOnly).usf) with
  | none => simp only [hb, Option.map_none] at h; cases h
  | some b =>
    simp only [hb, Option.map_some, Option.some.injEq, Prod.mk.injEq] at h
    exact ⟨b, rfl, h.1.symm, h.2.symm⟩

/-- The three ways to fill a block. -/
theorem selBlock_some {c : Cfg} {e : Env} {s : St} {req : Kind} {b : BlkSel}
    (h : selBlock c e s req = some b) :
    (∃ m, (selCtrl e s.nextCtrl s.app).1 = some m ∧ b.blk = .ctrl m ∧ b.isEgprs = false ∧ b.nextDl = s.nextDl) ∨
    (∃ tfi t x, (selCtrl e s.nextCtrl s.app).1 = none ∧
      selDl c e.fn req e.dl s.nextDl = (b.nextDl, some (tfi, t)) ∧ dataCs c req t = some x ∧
      b.blk = .data tfi t.egprs (radioCs x.ini x.cs e.single) ∧ b.isEgprs = t.egprs) ∨
    ((selCtrl e s.nextCtrl s.app).1 = none ∧ selDl c e.fn req e.dl s.nextDl = (b.nextDl, none) ∧
      b.blk = idleBlock c e ∧ b.isEgprs = false) := by
  unfold selBlock at h
  generalize selCtrl e s.nextCtrl s.app = r at *
  obtain ⟨m, nc, a⟩ := r
  cases m with
  | some m => cases h; exact .inl ⟨m, rfl, rfl, rfl, rfl⟩
  | none =>
    simp only at h
    generalize hd : selDl c e.fn req e.dl s.nextDl = d at *
    obtain ⟨nd, x⟩ := d
    cases x with
    | none => cases h; exact .inr (.inr ⟨rfl, rfl, rfl, rfl⟩)
    | some y =>
      obtain ⟨tfi, t⟩ := y
      simp only at h
      cases hx : dataCs c req t with
      | none => rw [hx] at h; cases h
      | some x =>
        rw [hx] at h
        cases h
        exact .inr (.inl ⟨tfi, t, x, rfl, rfl, hx, rfl, rfl⟩)

/-- The counters taken over from selCtrl. -/
theorem selBlock_ctrl {c : Cfg} {e : Env} {s : St} {req : Kind} {b : BlkSel}
    (h : selBlock c e s req = some b) :
    b.nextCtrl = (selCtrl e s.nextCtrl s.app).2.1 ∧ b.app = (selCtrl e s.nextCtrl s.app).2.2 := by
  unfold selBlock at h
  generalize selCtrl e s.nextCtrl s.app = r at *
  obtain ⟨m, nc, a⟩ := r
  cases m with
  | some m => cases h; exact ⟨rfl, rfl⟩
  | none =>
    simp only at h
    generalize hd : selDl c e.fn req e.dl s.nextDl = d at *
    obtain ⟨nd, x⟩ := d
    cases x with
    | none => cases h; exact ⟨rfl, rfl⟩
    | some y =>
      obtain ⟨tfi, t⟩ := y
      simp only at h
      cases hx : dataCs c req t with
      | none => rw [hx] at h; cases h
      | some x => rw [hx] at h; cases h; exact ⟨rfl, rfl⟩

/-- Only TBFs that may be coded as requested are chosen. -/
theorem dlPrio_gprs {c : Cfg} {fn : Nat} {t : DlT} {p : Prio} (h : dlPrio c fn .gprs t = some p) :
    t.egprs = false := by
  unfold dlPrio at h
  split at h
  · cases h
  · split at h
    · cases h
    · rename_i h2
      simpa using h2

theorem dlRank_pos {c : Cfg} {fn : Nat} {req : Kind} {dl : Nat → Option DlT} {k : Nat} {t : DlT}
    (hk : dl k = some t) (h : 0 < dlRank c fn req dl k) :
    ∃ p, dlPrio c fn req t = some p ∧ dlRank c fn req dl k = p.code := by
  unfold dlRank at *
  rw [hk] at h ⊢
  simp only at *
  cases hp : dlPrio c fn req t with
  | none => rw [hp] at h; simp at h
  | some p => exact ⟨p, rfl, rfl⟩

/-! ### Pointers stay in range -/

theorem selUl_next (ul : Nat → Option UlT) (next : Nat) (g : Bool) (h : next < 32) : (selUl ul next g).1 < 32 := by
  unfold selUl
  split
  · exact Nat.mod_lt _ (by decide)
  · exact h

theorem selUsf_next (e : Env) (s : St) (g : Bool) (h : s.nextUl < 32) : (selUsf e s g).next < 32 := by
  unfold selUsf
  dsimp only
  split
  · exact h
  · exact h
  · have := selUl_next e.ul s.nextUl g h
    unfold grantUl
    split
    · rename_i n tfi t heq; rw [heq] at this; exact this
    · rename_i n heq; rw [heq] at this; exact this

theorem selDl_next (c : Cfg) (fn : Nat) (req : Kind) (dl : Nat → Option DlT) (next : Nat) (h : next < 32) :
    (selDl c fn req dl next).1 < 32 := by
  unfold selDl
  split
  · exact Nat.mod_lt _ (by decide)
  · exact h

theorem selCtrl_next (e : Env) (next : Nat) (a : App) (h : next < 4) : (selCtrl e next a).2.1 < 4 := by
  unfold selCtrl
  simp only
  generalize schedApp a (cand e.trxUl e.trxDl .dlAss) = x
  obtain ⟨m, a'⟩ := x
  cases m with
  | some m => exact h
  | none =>
    simp only
    split
    · exact Nat.mod_lt _ (by decide)
    · split
      · exact h
      · exact h

/-- Pointers in range. -/
structure St.Ok (s : St) : Prop where
  ul : s.nextUl < 32
  dl : s.nextDl < 32
  ctrl : s.nextCtrl < 4
  cs : s.noCs14 ≤ 17

theorem rts_ok {c : Cfg} {e : Env} {s s1 : St} {o : Out} (h : rts c e s = some (s1, o)) (hs : s.Ok) : s1.Ok := by
  obtain ⟨b, hb, rfl, rfl⟩ := rts_some h
  refine ⟨selUsf_next e s _ hs.ul, ?_, ?_, ?_⟩
  · rcases selBlock_some hb with ⟨m, _, _, _, h4⟩ | ⟨tfi, t, x, _, h2, _⟩ | ⟨_, h2, _⟩
    · exact h4 ▸ hs.dl
    · have := selDl_next c e.fn (reqKind s.gprsOnly (selUsf e s s.gprsOnly).usf) e.dl s.nextDl hs.dl
      rw [h2] at this; exact this
    · have := selDl_next c e.fn (reqKind s.gprsOnly (selUsf e s s.gprsOnly).usf) e.dl s.nextDl hs.dl
      rw [h2] at this; exact this
  · exact (selBlock_ctrl hb).1 ▸ selCtrl_next e s.nextCtrl s.app hs.ctrl
  · show (if b.isEgprs && gprsAttached e then s.noCs14 + 1 else 0) ≤ 17
    split
    · rename_i hc
      simp only [Bool.and_eq_true] at hc
      rcases Nat.lt_or_eq_of_le hs.cs with h17 | h17
      · omega
      · exfalso
        have hg : s.gprsOnly = true := by unfold St.gprsOnly resync; rw [h17]; rfl
        rcases selBlock_some hb with ⟨m, _, _, h3, _⟩ | ⟨tfi, t, x, _, h2, _, _, h5⟩ | ⟨_, _, _, h4⟩
        · rw [h3] at hc; exact absurd hc.1 (by decide)
        · have hk := selDl_some hs.dl h2
          obtain ⟨p, hp, _⟩ := dlRank_pos hk.2.2.1 hk.2.2.2.1
          have hreq : reqKind s.gprsOnly (selUsf e s s.gprsOnly).usf = .gprs := by
            unfold reqKind; rw [hg]; rfl
          rw [hreq] at hp
          rw [h5, dlPrio_gprs hp] at hc
          exact absurd hc.1 (by decide)
        · rw [h4] at hc; exact absurd hc.1 (by decide)
    · omega

theorem St.Ok.any {s : St} (h : s.Ok) (u : List Ulc.Node) (a : App) : St.Ok { s with ulc := u, app := a } :=
  ⟨h.ul, h.dl, h.ctrl, h.cs⟩

theorem Trace.ok {c : Cfg} {s s' : St} {tr : List (St × Env × Out)} (h : Trace c s tr s') (hs : s.Ok) : s'.Ok := by
  induction h with
  | nil => exact hs
  | cons e o u a hr _ ih => exact ih (rts_ok hr (hs.any u a))

theorem init_ok : St.Ok {} := ⟨by decide, by decide, by decide, by decide⟩

theorem Trace.split {c : Cfg} : ∀ {s s' : St} (p : List (St × Env × Out)) {q : List (St × Env × Out)},
    Trace c s (p ++ q) s' → ∃ s1, Trace c s p s1 ∧ Trace c s1 q s' := by
  intro s s' p
  induction p generalizing s with
  | nil => intro q h; exact ⟨s, .nil s, h⟩
  | cons x p ih =>
    intro q h
    cases h with
    | cons e o u a hr ht =>
      obtain ⟨s1, h1, h2⟩ := ih ht
      exact ⟨s1, .cons e o u a hr h1, h2⟩

/-! ### Coding schemes -/

theorem findGprs_cs14 (b : Ms.Cell) : ∀ (n : Nat) (x : CS), n ≤ 3 → Ms.findGprs b n = some x → isCs14 x := by
  intro n
  induction n with
  | zero =>
    intro x _ h
    unfold Ms.findGprs at h
    split at h
    · cases h; exact .inl rfl
    · cases h
  | succ n ih =>
    intro x hn h
    unfold Ms.findGprs at h
    have : n = 0 ∨ n = 1 ∨ n = 2 := by omega
    rcases this with rfl | rfl | rfl <;>
      · simp only [CS.ofCode, CS.all, List.getElem?_cons_succ, List.getElem?_cons_zero] at h
        split at h
        · cases h
        · cases h; simp [isCs14]
        · exact ih x (by omega) h

theorem decKind_gprs {c : CS} (k : Kind) (h : isCs14 c) : isCs14 (c.decKind k) := by
  rcases h with rfl | rfl | rfl | rfl <;> cases k <;> simp [isCs14] <;> decide

theorem decKind_gmsk {c : CS} (k : Kind) (h : isCs14 c ∨ isMcs14 c) : isCs14 (c.decKind k) ∨ isMcs14 (c.decKind k) := by
  rcases h with h | h
  · exact .inl (decKind_gprs k h)
  · right
    rcases h with rfl | rfl | rfl | rfl <;> cases k <;> simp [isMcs14] <;> decide

theorem currentCsDl_gprs {b : Ms.Cell} {m : Ms.Ms} {few : Bool} {x : CS} (hm : m.curDl ≠ .unknown)
    (h : Ms.currentCsDl b m .gprs few = some x) : isCs14 x := by
  unfold Ms.currentCsDl at h
  cases hr : Ms.restrictCs b m.curDl .gprs with
  | none => rw [hr] at h; cases h
  | some y =>
    rw [hr] at h
    simp only [Option.map_some, Option.some.injEq] at h
    have hy : isCs14 y := by
      unfold Ms.restrictCs at hr
      simp only [reduceCtorEq, false_and, if_false, true_and] at hr
      by_cases hE : m.curDl.isEdge = true
      · rw [if_pos hE] at hr
        refine findGprs_cs14 b _ y ?_ hr
        generalize m.curDl = c at *
        cases c <;> decide
      · rw [if_neg hE] at hr
        cases hr
        generalize m.curDl = c at *
        cases c <;> first | exact absurd rfl hm | exact absurd rfl hE | simp [isCs14]
    subst h
    split
    · exact hy
    · split
      · exact decKind_gprs _ (decKind_gprs _ hy)
      · exact decKind_gprs _ hy

theorem currentCsDl_gmsk {b : Ms.Cell} {m : Ms.Ms} {few : Bool} {x : CS} (hm : m.curDl ≠ .unknown)
    (h : Ms.currentCsDl b m .egprsGmsk few = some x) : isCs14 x ∨ isMcs14 x := by
  unfold Ms.currentCsDl at h
  cases hr : Ms.restrictCs b m.curDl .egprsGmsk with
  | none => rw [hr] at h; cases h
  | some y =>
    rw [hr] at h
    simp only [Option.map_some, Option.some.injEq] at h
    have hy : isCs14 y ∨ isMcs14 y := by
      unfold Ms.restrictCs at hr
      simp only [reduceCtorEq, false_and, if_false, true_and] at hr
      split at hr
      · cases hr
        right
        split
        · simp [isMcs14]
        · split
          · simp [isMcs14]
          · split <;> simp [isMcs14]
      · rename_i hE
        cases hr
        generalize m.curDl = c at *
        cases c <;> first | exact absurd rfl hm | exact absurd (by decide) hE | simp [isCs14, isMcs14]
    subst h
    split
    · exact hy
    · split
      · exact decKind_gmsk _ (decKind_gmsk _ hy)
      · exact decKind_gmsk _ hy

theorem radioCs_gprs {ini cs : CS} (s : Bool) (h : isCs14 cs) : isCs14 (radioCs ini cs s) := by
  rcases h with rfl | rfl | rfl | rfl <;> unfold radioCs <;> cases s <;> simp [isCs14, CS.decToSingle]

theorem radioCs_gmsk {ini cs : CS} (s : Bool) (h : isCs14 cs ∨ isMcs14 cs) :
    isCs14 (radioCs ini cs s) ∨ isMcs14 (radioCs ini cs s) := by
  rcases h with h | h
  · exact .inl (radioCs_gprs s h)
  · right
    rcases h with rfl | rfl | rfl | rfl <;> unfold radioCs <;> cases s <;> simp [isMcs14, CS.decToSingle] <;>
      split <;> simp

/-- Data of a TBF without EGPRS is coded with CS-1..4. -/
theorem dataCs_gprs {c : Cfg} {e : Env} {req : Kind} {i : Nat} {t : DlT} {x : Chosen} (hg : GprsSane e) (hi : i < 32)
    (ht : e.dl i = some t) (he : t.egprs = false) (h : dataCs c req t = some x) : isCs14 x.cs := by
  have hs := hg i hi t ht
  unfold dataCs at h
  rw [he] at h
  cases hc : Ms.currentCsDl c.cell t.ms .gprs t.few with
  | none => simp only [Bool.false_eq_true, if_false, hc, Option.bind_none] at h; cases h
  | some tx =>
    simp only [Bool.false_eq_true, if_false, hc, Option.bind_some] at h
    have htx := currentCsDl_gprs hs.2 hc
    split at h
    · unfold retxCs at h
      simp only [Bool.false_eq_true, if_false, Option.map_some, Option.some.injEq] at h
      subst h
      exact (hs.1 he _).2.1
    · cases h; exact htx
    · cases h; exact htx
    · cases h; exact (hs.1 he _).2.2
    · cases h

end Verif.Sched
