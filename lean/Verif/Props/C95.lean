import Verif.Spec.E1
/-!
# C95: An E1 time slot is open as long as a channel coding unit uses it

An E1 time slot is configured exactly as long as at least one unit is connected on it; disconnecting one unit leaves the others
connected, and a unit that is connected has its subchannel on the time slot that its parameters name.
-/

namespace Verif.E1

theorem upd_same {α} (f : Nat → Nat → α) (l s : Nat) (v : α) : upd f l s v l s = v := by simp [upd]
theorem upd_other {α} (f : Nat → Nat → α) (l s l' s' : Nat) (v : α) (h : ¬ (l' = l ∧ s' = s)) : upd f l s v l' s' = f l' s' := by
  unfold upd; rw [if_neg h]

/-- Counting after one element was replaced. -/
theorem countP_set {α} (f : α → Bool) : ∀ (xs : List α) (k : Nat) (c d : α), xs[k]? = some c →
    (xs.set k d).countP f + (if f c then 1 else 0) = xs.countP f + (if f d then 1 else 0)
  | [], k, c, d, h => by simp at h
  | x :: xs, 0, c, d, h => by
    simp only [List.getElem?_cons_zero, Option.some.injEq] at h
    subst h
    simp only [List.set_cons_zero, List.countP_cons]
    omega
  | x :: xs, k + 1, c, d, h => by
    simp only [List.getElem?_cons_succ] at h
    have := countP_set f xs k c d h
    simp only [List.set_cons_succ, List.countP_cons]
    omega

theorem descr_legal {p : Pars} (h : Legal p) : descr p = some true := by
  obtain ⟨h1, h2, h3, _⟩ := h
  unfold descr
  rw [if_neg (by omega), if_neg (by omega), if_neg (by omega)]

structure UnitOk (c : Unit) : Prop where
  legal : ∀ p, c.tab = some p → Legal p
  on : c.connected = true → c.known = true ∧ c.chan = c.tab ∧ c.tab ≠ none
  off : c.connected = false → c.chan = none
  known : c.known = true → c.tab ≠ none

structure Inv (n : Nat) (s : St) : Prop where
  len : s.units.length = n
  unit : ∀ c ∈ s.units, UnitOk c
  use : ∀ l t, s.use l t = users s l t
  opened : ∀ l t, s.opened l t = true ↔ 0 < users s l t

theorem users_set {s : St} {k : Nat} {c d : Unit} (h : s.units[k]? = some c) (l t : Nat) (u o) :
    users { units := s.units.set k d, use := u, opened := o } l t + (if On l t c then 1 else 0) = users s l t + (if On l t d then 1 else 0) :=
  countP_set _ _ _ _ _ h

theorem mem_set {xs : List Unit} {k : Nat} {d x : Unit} (h : x ∈ xs.set k d) : x ∈ xs ∨ x = d := List.mem_or_eq_of_mem_set h

theorem users_le (s : St) (l t : Nat) : users s l t ≤ s.units.length := List.countP_le_length

theorem inv_start (n : Nat) : Inv n { units := List.replicate n {} } := by
  have hu : ∀ l t, users { units := List.replicate n {} } l t = 0 := by
    intro l t
    unfold users
    rw [List.countP_eq_zero]
    intro c hc
    rw [List.eq_of_mem_replicate hc]
    simp [On]
  refine ⟨List.length_replicate, ?_, fun l t => (hu l t).symm, fun l t => ?_⟩
  · intro c hc
    rw [List.eq_of_mem_replicate hc]
    exact ⟨fun p h => by simp at h, fun h => by simp at h, fun _ => rfl, fun h => by simp at h⟩
  · rw [hu l t]
    simp

theorem on_off {c : Unit} (h : c.connected = false) (l t : Nat) : On l t c = false := by unfold On; rw [h]; rfl

theorem inv_ind {n : Nat} {s : St} (i : Inv n s) {k : Nat} {p : Pars} (hp : Legal p) (hc : ∀ c, s.units[k]? = some c → c.connected = false) :
    Inv n (ind s k p) := by
  unfold ind
  cases h : s.units[k]? with
  | none => exact i
  | some c =>
    have h0 := hc c h
    have ok := i.unit c (List.mem_of_getElem? h)
    have hu : ∀ l t, users { s with units := s.units.set k { c with tab := some p } } l t = users s l t := by
      intro l t
      have := users_set (d := { c with tab := some p }) h l t s.use s.opened
      rw [on_off h0, on_off (c := { c with tab := some p }) h0] at this
      simpa using this
    refine ⟨by simp [i.len], ?_, fun l t => by rw [hu]; exact i.use l t, fun l t => by rw [hu]; exact i.opened l t⟩
    intro x hx
    rcases mem_set hx with hx | hx
    · exact i.unit x hx
    · subst hx
      refine ⟨fun q hq => ?_, fun hx => ?_, fun _ => ok.off h0, fun _ => by simp⟩
      · simp only [Option.some.injEq] at hq; subst hq; exact hp
      · simp only [h0] at hx; cases hx

theorem openTs_cases {l : Lib} {s : St} {p : Pars} (lp : Legal p) (hu : l.update = true) :
    (0 < s.use p.line p.slot ∧ openTs l s p = some ({ s with use := upd s.use p.line p.slot ((s.use p.line p.slot + 1) % 256) }, true)) ∨
    openTs l s p = some (s, false) ∨
    (s.use p.line p.slot = 0 ∧
      openTs l s p = some ({ s with use := upd s.use p.line p.slot 1, opened := upd s.opened p.line p.slot true }, true)) := by
  unfold openTs
  rw [descr_legal lp]
  simp only
  by_cases h0 : s.use p.line p.slot > 0
  · rw [if_pos h0]; exact .inl ⟨h0, rfl⟩
  · rw [if_neg h0]
    cases l.line with
    | false => exact .inr (.inl rfl)
    | true =>
      cases l.config with
      | false => exact .inr (.inl rfl)
      | true => rw [hu]; exact .inr (.inr ⟨by omega, rfl⟩)

theorem connect_eq {l : Lib} {s : St} {k : Nat} {c : Unit} {p : Pars} (hk : s.units[k]? = some c) (hp : c.tab = some p) :
    connect l s k = if c.connected = true then some { s with units := s.units.set k { c with known := true } }
      else match openTs l { s with units := s.units.set k { c with known := true } } p with
      | none => none
      | some (s, false) => some s
      | some (s, true) => match addSub l s { c with known := true } p with
        | none => none
        | some (d, ok) => some { s with units := s.units.set k (if ok then { d with connected := true } else d) } := by
  unfold connect
  rw [hk]
  obtain ⟨tab, a, b, d, e⟩ := c
  simp only at hp
  subst hp
  rfl

theorem inv_connect {n : Nat} (hn : n < 256) {s t : St} (i : Inv n s) {l : Lib} {k : Nat} (ht : ∀ c, s.units[k]? = some c → c.tab ≠ none)
    (hl : l.chan = true) (hy : l.syn = true) (hu : l.update = true) (h : connect l s k = some t) : Inv n t := by
  cases hk : s.units[k]? with
  | none => unfold connect at h; rw [hk] at h; cases h; exact i
  | some c =>
    cases hp : c.tab with
    | none => exact absurd hp (ht c hk)
    | some p =>
      rw [connect_eq hk hp] at h
      have ok := i.unit c (List.mem_of_getElem? hk)
      have lp := ok.legal p hp
      have hmem : ∀ d, UnitOk d → ∀ x ∈ s.units.set k d, UnitOk x := by
        intro d hd x hx
        rcases mem_set hx with hx | hx
        · exact i.unit x hx
        · rw [hx]; exact hd
      have okc : UnitOk { c with known := true } :=
        ⟨ok.legal, fun hx => ⟨rfl, (ok.on hx).2⟩, ok.off, fun _ => by simp [hp]⟩
      have hon : ∀ a b, On a b { c with known := true } = On a b c := fun _ _ => rfl
      have hus : ∀ a b u o, users { units := s.units.set k { c with known := true }, use := u, opened := o } a b = users s a b := by
        intro a b u o
        have := users_set (d := { c with known := true }) hk a b u o
        rw [hon] at this
        omega
      have keep : Inv n { s with units := s.units.set k { c with known := true } } :=
        ⟨by simp [i.len], hmem _ okc, fun a b => by rw [hus]; exact i.use a b, fun a b => by rw [hus]; exact i.opened a b⟩
      cases hcon : c.connected with
      | true =>
        rw [if_pos hcon] at h
        simp only [Option.some.injEq] at h
        subst h
        exact keep
      | false =>
        rw [if_neg (by simp [hcon])] at h
        have hch := ok.off hcon
        -- the subchannel is added
        have hadd : ∀ s' : St, s'.use p.line p.slot ≠ 0 → addSub l s' { c with known := true } p = some ({ c with known := true, chan := some p, syn := true }, true) := by
          intro s' hs'
          unfold addSub
          rw [if_neg (by simp [hch]), descr_legal lp]
          simp only
          rw [if_neg hs', if_neg (by have := lp.2.2.2; omega)]
          simp [hl, hy]
        have hnew : UnitOk { c with known := true, chan := some p, syn := true, connected := true } :=
          ⟨ok.legal, fun _ => ⟨rfl, hp.symm, by simp [hp]⟩, fun hx => (by cases hx), fun _ => by simp [hp]⟩
        have hcount : ∀ a b u o, users { units := s.units.set k { c with known := true, chan := some p, syn := true, connected := true }, use := u, opened := o } a b
            = users s a b + (if p.line = a ∧ p.slot = b then 1 else 0) := by
          intro a b u o
          have := users_set (d := { c with known := true, chan := some p, syn := true, connected := true }) hk a b u o
          rw [on_off hcon] at this
          have e : On a b { c with known := true, chan := some p, syn := true, connected := true } = decide (p.line = a ∧ p.slot = b) := by
            simp [On, Bool.beq_eq_decide_eq]
          rw [e] at this
          simpa using this
        have hle := users_le { s with units := s.units.set k { c with known := true, chan := some p, syn := true, connected := true } } p.line p.slot
        rw [hcount, if_pos ⟨rfl, rfl⟩] at hle
        simp only [List.length_set, i.len] at hle
        have e0 : ({ s with units := s.units.set k { c with known := true } } : St).use = s.use := rfl
        rcases openTs_cases (l := l) (s := { s with units := s.units.set k { c with known := true } }) lp hu with ⟨hpos, he⟩ | he | ⟨hz, he⟩
        · rw [e0, i.use] at hpos
          rw [he] at h
          simp only at h
          rw [hadd _ (by simp only [upd_same]; rw [i.use]; omega)] at h
          simp only [if_true, Option.some.injEq, List.set_set] at h
          subst h
          refine ⟨by simp [i.len], hmem _ hnew, fun a b => ?_, fun a b => ?_⟩
          · rw [hcount]
            simp only
            by_cases e : p.line = a ∧ p.slot = b
            · obtain ⟨rfl, rfl⟩ := e
              rw [upd_same, i.use, if_pos ⟨rfl, rfl⟩]
              omega
            · rw [upd_other _ _ _ _ _ _ (fun x => e ⟨x.1.symm, x.2.symm⟩), i.use, if_neg e]
              omega
          · rw [hcount]
            simp only [i.opened]
            by_cases e : p.line = a ∧ p.slot = b
            · obtain ⟨rfl, rfl⟩ := e
              omega
            · rw [if_neg e]; omega
        · rw [he] at h
          simp only [Option.some.injEq] at h
          subst h
          exact keep
        · rw [e0, i.use] at hz
          rw [he] at h
          simp only at h
          rw [hadd _ (by simp only [upd_same]; omega)] at h
          simp only [if_true, Option.some.injEq, List.set_set] at h
          subst h
          refine ⟨by simp [i.len], hmem _ hnew, fun a b => ?_, fun a b => ?_⟩
          · rw [hcount]
            simp only
            by_cases e : p.line = a ∧ p.slot = b
            · obtain ⟨rfl, rfl⟩ := e
              rw [upd_same, if_pos ⟨rfl, rfl⟩]
              omega
            · rw [upd_other _ _ _ _ _ _ (fun x => e ⟨x.1.symm, x.2.symm⟩), i.use, if_neg e]
              omega
          · rw [hcount]
            simp only
            by_cases e : p.line = a ∧ p.slot = b
            · obtain ⟨rfl, rfl⟩ := e
              rw [upd_same, if_pos ⟨rfl, rfl⟩]
              simp
            · rw [upd_other _ _ _ _ _ _ (fun x => e ⟨x.1.symm, x.2.symm⟩), i.opened, if_neg e]
              omega

theorem closeTs_cases {s : St} {p : Pars} (lp : Legal p) (h0 : 0 < s.use p.line p.slot) :
    (1 < s.use p.line p.slot ∧ closeTs {} s p = some { s with use := upd s.use p.line p.slot (s.use p.line p.slot - 1) }) ∨
    (s.use p.line p.slot = 1 ∧
      closeTs {} s p = some { s with use := upd s.use p.line p.slot 0, opened := upd s.opened p.line p.slot false }) := by
  unfold closeTs
  rw [descr_legal lp]
  simp only
  by_cases h1 : s.use p.line p.slot > 1
  · rw [if_pos h1]; exact .inl ⟨h1, rfl⟩
  · rw [if_neg h1, if_neg (by omega)]
    exact .inr ⟨by omega, rfl⟩

theorem inv_disconnect {n : Nat} {s t : St} (i : Inv n s) {l : Lib} {k : Nat} (hl : Works l) (h : disconnect l s k = some t) : Inv n t := by
  unfold Works at hl
  subst hl
  unfold disconnect at h
  cases hk : s.units[k]? with
  | none => rw [hk] at h; cases h; exact i
  | some c =>
    rw [hk] at h
    simp only at h
    have ok := i.unit c (List.mem_of_getElem? hk)
    split at h
    · rename_i p hkn hp
      have lp := ok.legal p hp
      cases hcon : c.connected with
      | false =>
        rw [hcon] at h
        simp only [Bool.not_false, if_true, Option.some.injEq] at h
        subst h; exact i
      | true =>
        rw [hcon] at h
        simp only [Bool.not_true, Bool.false_eq_true, if_false] at h
        have hch := (ok.on hcon).2.1
        rw [hp] at hch
        have hmem : ∀ x ∈ s.units.set k { c with chan := none, syn := false, connected := false }, UnitOk x := by
          intro x hx
          rcases mem_set hx with hx | hx
          · exact i.unit x hx
          · rw [hx]
            exact ⟨ok.legal, fun hx => (by cases hx), fun _ => rfl, ok.known⟩
        have hcount : ∀ a b u o, users { units := s.units.set k { c with chan := none, syn := false, connected := false }, use := u, opened := o } a b
            + (if p.line = a ∧ p.slot = b then 1 else 0) = users s a b := by
          intro a b u o
          have := users_set (d := { c with chan := none, syn := false, connected := false }) hk a b u o
          rw [on_off (c := { c with chan := none, syn := false, connected := false }) rfl] at this
          have e : On a b c = decide (p.line = a ∧ p.slot = b) := by
            simp [On, hcon, hch, Bool.beq_eq_decide_eq]
          rw [e] at this
          simpa using this
        have hone := hcount p.line p.slot s.use s.opened
        rw [if_pos ⟨rfl, rfl⟩] at hone
        rcases closeTs_cases (s := s) lp (by rw [i.use]; omega) with ⟨hgt, he⟩ | ⟨hle, he⟩
        · rw [i.use] at hgt
          rw [he] at h
          simp only [Option.some.injEq] at h
          subst h
          refine ⟨by simp [i.len], hmem, fun a b => ?_, fun a b => ?_⟩
          · have := hcount a b (upd s.use p.line p.slot (s.use p.line p.slot - 1)) s.opened
            simp only
            by_cases e : p.line = a ∧ p.slot = b
            · obtain ⟨rfl, rfl⟩ := e
              rw [if_pos ⟨rfl, rfl⟩] at this
              have e1 := i.use p.line p.slot
              rw [upd_same]
              omega
            · rw [if_neg e] at this
              rw [upd_other _ _ _ _ _ _ (fun x => e ⟨x.1.symm, x.2.symm⟩), i.use]
              omega
          · have := hcount a b (upd s.use p.line p.slot (s.use p.line p.slot - 1)) s.opened
            simp only
            rw [i.opened]
            by_cases e : p.line = a ∧ p.slot = b
            · obtain ⟨rfl, rfl⟩ := e
              rw [if_pos ⟨rfl, rfl⟩] at this
              omega
            · rw [if_neg e] at this
              omega
        · rw [i.use] at hle
          rw [he] at h
          simp only [Option.some.injEq] at h
          subst h
          refine ⟨by simp [i.len], hmem, fun a b => ?_, fun a b => ?_⟩
          · have := hcount a b (upd s.use p.line p.slot 0) (upd s.opened p.line p.slot false)
            simp only
            by_cases e : p.line = a ∧ p.slot = b
            · obtain ⟨rfl, rfl⟩ := e
              rw [if_pos ⟨rfl, rfl⟩] at this
              rw [upd_same]
              omega
            · rw [if_neg e] at this
              rw [upd_other _ _ _ _ _ _ (fun x => e ⟨x.1.symm, x.2.symm⟩), i.use]
              omega
          · have := hcount a b (upd s.use p.line p.slot 0) (upd s.opened p.line p.slot false)
            simp only
            by_cases e : p.line = a ∧ p.slot = b
            · obtain ⟨rfl, rfl⟩ := e
              rw [if_pos ⟨rfl, rfl⟩] at this
              rw [upd_same]
              simp
              omega
            · rw [if_neg e] at this
              rw [upd_other _ _ _ _ _ _ (fun x => e ⟨x.1.symm, x.2.symm⟩), i.opened]
              omega
    · cases h

theorem inv_orderly {n : Nat} (hn : n < 256) {s : St} (h : Orderly n s) : Inv n s := by
  induction h with
  | start => exact inv_start n
  | ind k p _ hp hc ih => exact inv_ind ih hp hc
  | connect l k _ ht h1 h2 h3 h ih => exact inv_connect hn ih ht h1 h2 h3 h
  | disconnect l k _ hl h ih => exact inv_disconnect ih hl h

/-- **C95** (orderly histories, fewer than 256 units): an E1 time slot is configured if and only if a unit is connected on it, and a
unit that is connected is on the time slot and subslot that were announced for it. -/
theorem C95_open_partial {n : Nat} (hn : n < 256) {s : St} (h : Orderly n s) :
    (∀ line slot, s.opened line slot = true ↔ ∃ c ∈ s.units, On line slot c = true) ∧
    (∀ c ∈ s.units, c.connected = true → c.chan ≠ none ∧ c.chan = c.tab) := by
  have i := inv_orderly hn h
  refine ⟨fun a b => ?_, fun c hc h => ?_⟩
  · rw [i.opened]
    unfold users
    exact List.countP_pos_iff
  · obtain ⟨_, h2, h3⟩ := (i.unit c hc).on h
    exact ⟨by rw [h2]; exact h3, h2⟩

/-- **C95**: disconnecting a unit disconnects it and no other, and leaves the slots of the others open; it never crashes for a unit that
was connected. -/
theorem C95_disconnect_partial {n : Nat} (hn : n < 256) {s : St} (h : Orderly n s) (k : Nat) {c : Unit} (hk : s.units[k]? = some c) (hc : c.connected = true) :
    ∃ t, disconnect {} s k = some t ∧ (∀ d, t.units[k]? = some d → d.connected = false) ∧
      (∀ m, m ≠ k → t.units[m]? = s.units[m]?) ∧ ∀ m d line slot, m ≠ k → s.units[m]? = some d → On line slot d = true → t.opened line slot = true := by
  have i := inv_orderly hn h
  have ok := i.unit c (List.mem_of_getElem? hk)
  obtain ⟨h1, h2, h3⟩ := ok.on hc
  cases hp : c.tab with
  | none => exact absurd hp h3
  | some p =>
    have lp := ok.legal p hp
    obtain ⟨s', hs', hun⟩ : ∃ s', closeTs {} s p = some s' ∧ s'.units = s.units := by
      unfold closeTs
      rw [descr_legal lp]
      simp only
      split
      · exact ⟨_, rfl, rfl⟩
      · split
        · exact ⟨_, rfl, rfl⟩
        · exact ⟨_, rfl, rfl⟩
    have hd : disconnect {} s k = some { s' with units := s'.units.set k { c with chan := none, syn := false, connected := false } } := by
      unfold disconnect
      rw [hk]
      simp only [h1, hp, hc, Bool.not_true, Bool.false_eq_true, if_false, hs']
    refine ⟨_, hd, ?_, ?_, ?_⟩
    · intro d hx
      simp only [hun] at hx
      rw [List.getElem?_set_self (by have := List.getElem?_eq_some_iff.1 hk; exact this.1)] at hx
      cases hx
      rfl
    · intro m hm
      simp only [hun]
      exact List.getElem?_set_ne (fun e => hm e.symm)
    · intro m d line slot hm hx hon
      have ho := Orderly.disconnect {} k h rfl hd
      refine ((C95_open_partial hn ho).1 line slot).2 ⟨d, ?_, hon⟩
      simp only [hun]
      apply List.mem_of_getElem? (i := m)
      rw [List.getElem?_set_ne (fun e => hm e.symm)]
      exact hx

/-- **C95**: when the parameters of a unit are known and the libraries do their part, it is connected, on the time slot and the subslot
that were announced, and that time slot is open; the other units are not touched. -/
theorem C95_connect_partial {n : Nat} (hn : n < 256) {s : St} (h : Orderly n s) (k : Nat) {c : Unit} (hk : s.units[k]? = some c) {p : Pars} (hp : c.tab = some p) :
    ∃ t, connect {} s k = some t ∧ (∃ d, t.units[k]? = some d ∧ d.connected = true ∧ d.chan = some p) ∧
      (∀ m, m ≠ k → t.units[m]? = s.units[m]?) ∧ t.opened p.line p.slot = true := by
  have i := inv_orderly hn h
  have ok := i.unit c (List.mem_of_getElem? hk)
  have lp := ok.legal p hp
  have hlt : k < s.units.length := (List.getElem?_eq_some_iff.1 hk).1
  -- whatever was done, the unit at `k` is one that is connected at `p`
  obtain ⟨t, d, ht, hun, hcd, hch⟩ : ∃ t d, connect {} s k = some t ∧ t.units = s.units.set k d ∧ d.connected = true ∧ d.chan = some p := by
    rw [connect_eq hk hp]
    by_cases hcon : c.connected = true
    · rw [if_pos hcon]
      refine ⟨_, _, rfl, rfl, ?_, ?_⟩
      · simp [hcon]
      · simp [(ok.on hcon).2.1, hp]
    · rw [if_neg hcon]
      have hcon : c.connected = false := by simpa using hcon
      have hch := ok.off hcon
      have hadd : ∀ s' : St, s'.use p.line p.slot ≠ 0 → addSub {} s' { c with known := true } p = some ({ c with known := true, chan := some p, syn := true }, true) := by
        intro s' hs'
        unfold addSub
        rw [if_neg (by simp [hch]), descr_legal lp]
        simp only
        rw [if_neg hs', if_neg (by have := lp.2.2.2; omega)]
        simp
      have hmax : s.use p.line p.slot + 1 < 256 ∨ s.use p.line p.slot = 255 := by
        rw [i.use]
        have := users_le s p.line p.slot
        have := i.len
        omega
      have hne : s.use p.line p.slot ≠ 255 := by
        intro e
        rw [i.use] at e
        have h1 := users_set (d := { c with known := true, chan := some p, syn := true, connected := true }) hk p.line p.slot s.use s.opened
        have h2 := users_le { s with units := s.units.set k { c with known := true, chan := some p, syn := true, connected := true } } p.line p.slot
        rw [on_off hcon] at h1
        have e2 : On p.line p.slot { c with known := true, chan := some p, syn := true, connected := true } = true := by simp [On]
        rw [e2] at h1
        simp only [if_true, Bool.false_eq_true, if_false] at h1
        have h3 := i.len
        simp only [List.length_set] at h2
        omega
      have e0 : ({ s with units := s.units.set k { c with known := true } } : St).use = s.use := rfl
      have hopen : ∃ u o, u p.line p.slot ≠ 0 ∧ openTs {} { s with units := s.units.set k { c with known := true } } p =
          some ({ units := s.units.set k { c with known := true }, use := u, opened := o }, true) := by
        unfold openTs
        rw [descr_legal lp]
        simp only
        split
        · refine ⟨_, _, ?_, rfl⟩
          rw [upd_same]
          omega
        · refine ⟨_, _, ?_, rfl⟩
          rw [upd_same]
          omega
      obtain ⟨u, o, hu, he⟩ := hopen
      rw [he]
      simp only
      rw [hadd _ hu]
      simp only [if_true, List.set_set]
      exact ⟨_, _, rfl, rfl, rfl, rfl⟩
  have hd : t.units[k]? = some d := by rw [hun, List.getElem?_set_self hlt]
  refine ⟨t, ht, ⟨d, hd, hcd, hch⟩, ?_, ?_⟩
  · intro m hm
    rw [hun, List.getElem?_set_ne (fun e => hm e.symm)]
  · have ho := Orderly.connect {} k h (fun c' hc' => by rw [hk] at hc'; cases hc'; simp [hp]) rfl rfl rfl ht
    exact ((C95_open_partial hn ho).1 _ _).2 ⟨d, List.mem_of_getElem? hd, by simp [On, hcd, hch]⟩

/-- **C95**: a unit that is connected after parameters were announced for it is connected with these, not with earlier ones. -/
theorem C95_announced_partial {n : Nat} (hn : n < 256) {s : St} (h : Orderly n s) (k : Nat) {c : Unit} (hk : s.units[k]? = some c)
    (hc : c.connected = false) {p : Pars} (hp : Legal p) :
    ∃ t, connect {} (ind s k p) k = some t ∧ (∃ d, t.units[k]? = some d ∧ d.connected = true ∧ d.chan = some p) ∧
      (∀ m, m ≠ k → t.units[m]? = s.units[m]?) ∧ t.opened p.line p.slot = true := by
  have ho := Orderly.ind k p h hp (fun c' hc' => by rw [hk] at hc'; cases hc'; exact hc)
  have e : (ind s k p).units = s.units.set k { c with tab := some p } := by unfold ind; rw [hk]
  have hk' : (ind s k p).units[k]? = some { c with tab := some p } := by
    rw [e, List.getElem?_set_self (List.getElem?_eq_some_iff.1 hk).1]
  obtain ⟨t, h1, h2, h3, h4⟩ := C95_connect_partial hn ho k hk' rfl
  refine ⟨t, h1, h2, fun m hm => ?_, h4⟩
  rw [h3 m hm, e, List.getElem?_set_ne (fun x => hm x.symm)]

/-- **C95**: in every state, a unit with a line or time slot number that does not exist is not connected, and no time slot changes. -/
theorem C95_refused (l : Lib) (s : St) (k : Nat) {c : Unit} (hk : s.units[k]? = some c) (hc : c.connected = false) {p : Pars}
    (hp : c.tab = some p) (hbad : p.line ≥ 32 ∨ p.slot = 0 ∨ p.slot > 31) :
    ∃ t, connect l s k = some t ∧ (∃ d, t.units[k]? = some d ∧ d.connected = false) ∧ (∀ m, m ≠ k → t.units[m]? = s.units[m]?) ∧
      t.opened = s.opened ∧ t.use = s.use := by
  have hd : descr p = some false := by
    unfold descr
    split
    · rfl
    · rw [if_pos (by omega)]
  have ho : ∀ s', openTs l s' p = some (s', false) := by
    intro s'
    unfold openTs
    rw [hd]
  rw [connect_eq hk hp, if_neg (by simp [hc]), ho]
  refine ⟨_, rfl, ⟨{ c with known := true }, ?_, hc⟩, fun m hm => ?_, rfl, rfl⟩
  · exact List.getElem?_set_self (List.getElem?_eq_some_iff.1 hk).1
  · exact List.getElem?_set_ne (fun e => hm e.symm)

/-! ### What the code does not do -/

/-- Runs of events; `none`: crash. -/
def runs (s : St) : List Ev → Option St
  | [] => some s
  | e :: es => match step s e with
    | none => none
    | some t => runs t es

/-- **C95** fails when the parameters of a unit change while it is connected: the entry that changes is the one from which the time
slot to close is read. Unit 0 moves from slot 1 to slot 2 and is disconnected: slot 2 is closed under unit 1, slot 1 stays open for
ever. -/
theorem C95_moved_fails : ∃ s, runs { units := List.replicate 2 {} }
    [.ind 0 ⟨0, 1, 0⟩, .ind 1 ⟨0, 2, 0⟩, .connect {} 0, .connect {} 1, .ind 0 ⟨0, 2, 1⟩, .disconnect {} 0] = some s ∧
    s.opened 0 2 = false ∧ users s 0 2 = 1 ∧ s.opened 0 1 = true ∧ users s 0 1 = 0 := by
  refine ⟨_, rfl, ?_⟩
  decide

/-- **C95** fails when the subchannel cannot be added: the time slot stays open without a unit, and further attempts, which succeed, do
not help: it stays open after the unit is disconnected. -/
theorem C95_leak_fails : ∃ s, runs { units := List.replicate 1 {} }
    [.ind 0 ⟨0, 1, 0⟩, .connect { chan := false } 0, .connect {} 0, .disconnect {} 0] = some s ∧
    s.opened 0 1 = true ∧ users s 0 1 = 0 ∧ s.use 0 1 = 1 := by
  refine ⟨_, rfl, ?_⟩
  decide

/-- A subslot number that is announced from 4 to 254 does the same. -/
theorem C95_subslot_fails : ∃ s, runs { units := List.replicate 1 {} } [.ind 0 ⟨0, 1, 4⟩, .connect {} 0] = some s ∧
    s.opened 0 1 = true ∧ users s 0 1 = 0 := by
  refine ⟨_, rfl, ?_⟩
  decide

/-- A unit that has a subchannel and is not connected. -/
def Stuck (s : St) (k : Nat) : Prop := ∃ c, s.units[k]? = some c ∧ c.connected = false ∧ c.chan.isSome = true

theorem openTs_units {l : Lib} {s t : St} {p : Pars} {b : Bool} (h : openTs l s p = some (t, b)) : t.units = s.units := by
  unfold openTs at h
  split at h
  · cases h
  · cases h; rfl
  · simp only at h
    split at h
    · cases h; rfl
    · split at h
      · cases h; rfl
      · split at h
        · cases h; rfl
        · split at h
          · cases h; rfl
          · cases h; rfl

theorem closeTs_units {l : Lib} {s t : St} {p : Pars} (h : closeTs l s p = some t) : t.units = s.units := by
  unfold closeTs at h
  split at h
  · cases h
  · cases h; rfl
  · simp only at h
    split at h
    · cases h; rfl
    · split at h
      · cases h; rfl
      · split at h
        · cases h; rfl
        · split at h
          · cases h; rfl
          · split at h
            · cases h; rfl
            · cases h; rfl

theorem stuck_set {s t : St} {k m : Nat} {c d : Unit} (hs : Stuck s k) (hm : s.units[m]? = some c)
    (hd : c.connected = false → c.chan.isSome = true → d.connected = false ∧ d.chan.isSome = true) (ht : t.units = s.units.set m d) : Stuck t k := by
  obtain ⟨x, hx, h1, h2⟩ := hs
  by_cases e : m = k
  · subst e
    rw [hm] at hx
    cases hx
    exact ⟨d, by rw [ht, List.getElem?_set_self (List.getElem?_eq_some_iff.1 hm).1], hd h1 h2⟩
  · exact ⟨x, by rw [ht, List.getElem?_set_ne e]; exact hx, h1, h2⟩

theorem stuck_step {s t : St} {k : Nat} (hs : Stuck s k) (e : Ev) (h : step s e = some t) : Stuck t k := by
  cases e with
  | ind m p =>
    simp only [step, Option.some.injEq] at h
    subst h
    unfold ind
    cases hm : s.units[m]? with
    | none => exact hs
    | some c => exact stuck_set (d := { c with tab := some p }) hs hm (fun a b => ⟨a, b⟩) rfl
  | connect l m =>
    have h : connect l s m = some t := h
    cases hm : s.units[m]? with
    | none => unfold connect at h; rw [hm] at h; cases h; exact hs
    | some c =>
      cases hp : c.tab with
      | none =>
        unfold connect at h
        rw [hm] at h
        simp only [hp] at h
        split at h
        · cases h; exact hs
        · cases h
      | some p =>
        rw [connect_eq hm hp] at h
        split at h
        · cases h
          exact stuck_set (d := { c with known := true }) hs hm (fun a b => ⟨a, b⟩) rfl
        · split at h
          · cases h
          · rename_i s' ho
            cases h
            exact stuck_set (d := { c with known := true }) hs hm (fun a b => ⟨a, b⟩) (openTs_units ho)
          · rename_i s' ho
            split at h
            · cases h
            · rename_i d ok ha
              cases h
              have hu := openTs_units ho
              refine stuck_set (d := if ok then { d with connected := true } else d) hs hm (fun a b => ?_) ?_
              · have : addSub l s' { c with known := true } p = some ({ c with known := true }, false) := by
                  unfold addSub
                  rw [if_pos b]
                rw [this] at ha
                cases ha
                exact ⟨a, b⟩
              · simp only [hu, List.set_set]
  | disconnect l m =>
    have h : disconnect l s m = some t := h
    unfold disconnect at h
    cases hm : s.units[m]? with
    | none => rw [hm] at h; cases h; exact hs
    | some c =>
      rw [hm] at h
      simp only at h
      split at h
      · split at h
        · cases h; exact hs
        · rename_i hcon
          split at h
          · cases h
          · rename_i s' hc
            cases h
            have hu := closeTs_units hc
            exact stuck_set (d := { c with chan := none, syn := false, connected := false }) hs hm (fun a b => by simp [a] at hcon) (by simp only [hu])
      · cases h

/-- **C95** fails for good when a subchannel is added but its synchroniser cannot be allocated: whatever happens afterwards, and
however the libraries answer, the unit is never connected again. -/
theorem C95_stuck_fails : ∃ s, runs { units := List.replicate 1 {} } [.ind 0 ⟨0, 1, 0⟩, .connect { syn := false } 0] = some s ∧
    ∀ (es : List Ev) (t : St), runs s es = some t → ∃ c, t.units[0]? = some c ∧ c.connected = false := by
  refine ⟨_, rfl, ?_⟩
  suffices H : ∀ (es : List Ev) (s t : St), Stuck s 0 → runs s es = some t → Stuck t 0 by
    intro es t ht
    obtain ⟨c, h1, h2, _⟩ := H es _ t ⟨_, rfl, rfl, rfl⟩ ht
    exact ⟨c, h1, h2⟩
  intro es
  induction es with
  | nil => intro s t hs h; cases h; exact hs
  | cons e es ih =>
    intro s t hs h
    unfold runs at h
    split at h
    · cases h
    · rename_i s' he
      exact ih _ _ (stuck_step hs e he) h

/-- A time slot of the radio interface that is switched on before its parameters are announced ends the PCU. -/
theorem C95_crash : runs { units := List.replicate 1 {} } [.connect {} 0] = none := rfl

/-- The last E1 time slot, 31, is accepted but is outside of the array. -/
theorem C95_slot31 : runs { units := List.replicate 1 {} } [.ind 0 ⟨0, 31, 0⟩, .connect {} 0] = none := rfl

/-! ### Non-vacuity -/

/-- Two units on the subslots of one time slot; one is disconnected, the time slot stays; the other too, it is closed. -/
example : ∃ s t u, runs { units := List.replicate 2 {} } [.ind 0 ⟨0, 1, 0⟩, .ind 1 ⟨0, 1, 1⟩, .connect {} 0, .connect {} 1] = some s ∧
    users s 0 1 = 2 ∧ runs s [.disconnect {} 0] = some t ∧ t.opened 0 1 = true ∧ runs t [.disconnect {} 1] = some u ∧ u.opened 0 1 = false :=
  ⟨_, _, _, rfl, by decide, rfl, by decide, rfl, by decide⟩

/-- An orderly history. -/
example : ∃ s, Orderly 2 s ∧ users s 0 1 = 1 := by
  refine ⟨_, .connect {} 0 (.ind 0 ⟨0, 1, 0⟩ .start ⟨by decide, by decide, by decide, by decide⟩ ?_) ?_ rfl rfl rfl rfl, by decide⟩
  · intro c hc; simp at hc; rw [← hc]
  · intro c hc
    simp only [ind, List.replicate] at hc
    simp at hc
    rw [← hc]
    simp

end Verif.E1
