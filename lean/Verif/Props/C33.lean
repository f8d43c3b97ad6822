import Verif.Lemmas.MsStore
/-!
# C33: TLLI change is completed only when both sides confirmed it
-/

namespace Verif.Store

/-! ### One mobile -/

/-- Where the TLLIs of a mobile come from. -/
def From (t0 : Nat) (evs : List Ev) (m : Mob) : Prop :=
  (m.newUl = noTlli ∨ .ul m.newUl ∈ evs) ∧ (m.newDl = noTlli ∨ .dl m.newDl ∈ evs) ∧
  (m.tlli = t0 ∨ (.ul m.tlli ∈ evs ∧ .dl m.tlli ∈ evs))

theorem From.on {t0 : Nat} {evs : List Ev} {m : Mob} (h : From t0 evs m) (e : Ev) (he : e.tlli ≠ noTlli) :
    From t0 (evs ++ [e]) (m.on e) := by
  obtain ⟨h1, h2, h3⟩ := h
  unfold From
  simp only [List.mem_append, List.mem_singleton]
  cases e with
  | ul t =>
    simp only [Ev.tlli] at he
    simp only [Mob.on]
    unfold Mob.setTlli Mob.applyTlli
    repeat' split
    all_goals grind
  | dl t =>
    simp only [Ev.tlli] at he
    simp only [Mob.on]
    unfold Mob.confirmTlli Mob.applyTlli
    repeat' split
    all_goals grind

theorem From.run {t0 : Nat} : ∀ (evs pre : List Ev) (m : Mob), From t0 pre m → Proper evs → From t0 (pre ++ evs) (m.run evs)
  | [], pre, m, h, _ => by rw [List.append_nil]; exact h
  | e :: evs, pre, m, h, hp => by
    have := From.run evs (pre ++ [e]) (m.on e) (h.on e (hp e (List.mem_cons_self ..))) fun x hx => hp x (List.mem_cons_of_mem _ hx)
    rwa [List.append_assoc] at this

theorem from_settled {m : Mob} (hm : m.Settled) (evs : List Ev) (hp : Proper evs) : From m.tlli evs (m.run evs) := by
  have := From.run evs [] m ⟨.inl hm.1, .inl hm.2, .inl rfl⟩ hp
  rwa [List.nil_append] at this

/-- C33, kept: a mobile stays valid under its TLLI as long as no other TLLI has been announced by
both sides. -/
theorem C33_kept (m : Mob) (hm : m.Settled) (ht : m.tlli ≠ noTlli) (evs : List Ev) (hp : Proper evs)
    (hn : ∀ x, .ul x ∈ evs → .dl x ∈ evs → x = m.tlli) : (m.run evs).check m.tlli = true := by
  obtain ⟨-, -, h⟩ := from_settled hm evs hp
  rw [check_iff]
  refine ⟨ht, .inl ?_⟩
  rcases h with h | h
  · exact h.symm
  · exact (hn _ h.1 h.2).symm

/-- C33, announced: a TLLI is valid as soon as one side has announced it. -/
theorem C33_announced (m : Mob) (e : Ev) (he : e.tlli ≠ noTlli) : (m.on e).check e.tlli = true := by
  cases e with
  | ul t => exact check_set_self m t he
  | dl t => exact check_confirm_self m t he

theorem run_append (m : Mob) (a b : List Ev) : m.run (a ++ b) = (m.run a).run b := List.foldl_append ..

/-- C33, change: if an announcement changes the TLLI of a mobile, the other side had announced the
same one, and from then on exactly this one is valid. -/
theorem C33_change (m : Mob) (hm : m.Settled) (evs : List Ev) (e : Ev) (hp : Proper (evs ++ [e]))
    (hc : (m.run (evs ++ [e])).tlli ≠ (m.run evs).tlli) :
    e.other ∈ evs ∧ (m.run (evs ++ [e])).Settled ∧ ∀ y, (m.run (evs ++ [e])).check y = true ↔ y = e.tlli := by
  have hf := from_settled hm evs fun x hx => hp x (List.mem_append_left _ hx)
  have he : e.tlli ≠ noTlli := hp e (by simp)
  rw [run_append] at hc ⊢
  generalize m.run evs = n at *
  simp only [Mob.run, List.foldl_cons, List.foldl_nil] at hc ⊢
  obtain ⟨h1, h2, -⟩ := hf
  simp only [check_iff]
  cases e with
  | ul t =>
    simp only [Ev.tlli] at he
    simp only [Mob.on, Mob.setTlli, Mob.applyTlli, Ev.tlli, Ev.other, Mob.Settled] at hc ⊢
    by_cases c1 : t = n.tlli ∨ t = n.newUl
    · rw [if_pos c1] at hc; exact absurd rfl hc
    · rw [if_neg c1] at hc ⊢
      by_cases c2 : t = n.newDl
      · rw [if_neg (not_not_intro c2)] at hc ⊢
        exact ⟨by grind, ⟨rfl, rfl⟩, fun y => by grind⟩
      · rw [if_pos c2] at hc; exact absurd rfl hc
  | dl t =>
    simp only [Ev.tlli] at he
    simp only [Mob.on, Mob.confirmTlli, Mob.applyTlli, Ev.tlli, Ev.other, Mob.Settled] at hc ⊢
    by_cases c1 : t = n.tlli ∨ t = n.newDl
    · rw [if_pos c1] at hc; exact absurd rfl hc
    · rw [if_neg c1] at hc ⊢
      by_cases c2 : t = n.newUl
      · rw [if_neg (not_not_intro c2)] at hc ⊢
        exact ⟨by grind, ⟨rfl, rfl⟩, fun y => by grind⟩
      · rw [if_pos c2] at hc; exact absurd rfl hc

/-- What holds between an uplink announcement of `x` and its confirmation. -/
theorem wait_ul (x : Nat) : ∀ (b : List Ev) (m : Mob), m.newUl = x → m.newDl ≠ x → m.tlli ≠ x → .dl x ∉ b →
    (∀ y, .ul y ∈ b → y = x) → (m.run b).newUl = x ∧ (m.run b).newDl ≠ x ∧ (m.run b).tlli ≠ x
  | [], _, h1, h2, h3, _, _ => ⟨h1, h2, h3⟩
  | e :: b, m, h1, h2, h3, h4, h5 => by
    have : (m.on e).newUl = x ∧ (m.on e).newDl ≠ x ∧ (m.on e).tlli ≠ x := by
      cases e with
      | ul y =>
        have := h5 y (List.mem_cons_self ..)
        subst this
        simp only [Mob.on, Mob.setTlli]
        rw [if_pos (.inr h1.symm)]
        exact ⟨h1, h2, h3⟩
      | dl y =>
        have : y ≠ x := fun h => h4 (h ▸ List.mem_cons_self ..)
        simp only [Mob.on, Mob.confirmTlli]
        split
        · exact ⟨h1, h2, h3⟩
        · rw [if_pos (by rw [h1]; exact this)]
          exact ⟨h1, this, h3⟩
    exact wait_ul x b (m.on e) this.1 this.2.1 this.2.2 (fun h => h4 (List.mem_cons_of_mem _ h))
      fun y hy => h5 y (List.mem_cons_of_mem _ hy)

theorem wait_dl (x : Nat) : ∀ (b : List Ev) (m : Mob), m.newDl = x → m.newUl ≠ x → m.tlli ≠ x → .ul x ∉ b →
    (∀ y, .dl y ∈ b → y = x) → (m.run b).newDl = x ∧ (m.run b).newUl ≠ x ∧ (m.run b).tlli ≠ x
  | [], _, h1, h2, h3, _, _ => ⟨h1, h2, h3⟩
  | e :: b, m, h1, h2, h3, h4, h5 => by
    have : (m.on e).newDl = x ∧ (m.on e).newUl ≠ x ∧ (m.on e).tlli ≠ x := by
      cases e with
      | dl y =>
        have := h5 y (List.mem_cons_self ..)
        subst this
        simp only [Mob.on, Mob.confirmTlli]
        rw [if_pos (.inr h1.symm)]
        exact ⟨h1, h2, h3⟩
      | ul y =>
        have : y ≠ x := fun h => h4 (h ▸ List.mem_cons_self ..)
        simp only [Mob.on, Mob.setTlli]
        split
        · exact ⟨h1, h2, h3⟩
        · rw [if_pos (by rw [h1]; exact this)]
          exact ⟨h1, this, h3⟩
    exact wait_dl x b (m.on e) this.1 this.2.1 this.2.2 (fun h => h4 (List.mem_cons_of_mem _ h))
      fun y hy => h5 y (List.mem_cons_of_mem _ hy)

/-- C33, confirmed: a TLLI announced by one side (and by this side no other one afterwards) and then
by the other side is the only valid one from then on. -/
theorem C33_confirmed (m : Mob) (hm : m.Settled) (a b : List Ev) (e : Ev) (ha : Proper a) (he : e.tlli ≠ noTlli)
    (ht : m.tlli ≠ e.tlli) (ho : e.other ∉ a ++ b) (hb : ∀ f ∈ b, f.isUl = e.isUl → f = e) :
    (m.run (a ++ [e] ++ b ++ [e.other])).Settled ∧
    ∀ y, (m.run (a ++ [e] ++ b ++ [e.other])).check y = true ↔ y = e.tlli := by
  have hf := from_settled hm a ha
  rw [run_append, run_append, run_append]
  generalize m.run a = n at *
  obtain ⟨h1, h2, h3⟩ := hf
  rw [List.mem_append, not_or] at ho
  cases e with
  | ul x =>
    simp only [Ev.tlli, Ev.other] at *
    have d1 : n.newDl ≠ x := fun h => by
      rcases h2 with h2 | h2
      · exact he (h ▸ h2)
      · exact ho.1 (h ▸ h2)
    have d2 : n.tlli ≠ x := fun h => by
      rcases h3 with h3 | h3
      · exact ht (h3 ▸ h)
      · exact ho.1 (h ▸ h3.2)
    have d3 : (n.run [.ul x]).newUl = x ∧ (n.run [.ul x]).newDl ≠ x ∧ (n.run [.ul x]).tlli ≠ x := by
      simp only [Mob.run, List.foldl_cons, List.foldl_nil, Mob.on, Mob.setTlli]
      split
      · rename_i h
        rcases h with h | h
        · exact absurd h.symm d2
        · exact ⟨h.symm, d1, d2⟩
      · rw [if_pos (Ne.symm d1)]; exact ⟨rfl, d1, d2⟩
    obtain ⟨w1, w2, w3⟩ := wait_ul x b _ d3.1 d3.2.1 d3.2.2 ho.2 fun y hy => by
      have := hb _ hy rfl
      injection this
    generalize (n.run [.ul x]).run b = k at *
    simp only [Mob.run, List.foldl_cons, List.foldl_nil, Mob.on, Mob.confirmTlli, Mob.applyTlli, check_iff, Mob.Settled]
    rw [if_neg (by rintro (h | h); exact w3 h.symm; exact w2 h.symm), if_neg (not_not_intro w1.symm)]
    exact ⟨⟨rfl, rfl⟩, fun y => by grind⟩
  | dl x =>
    simp only [Ev.tlli, Ev.other] at *
    have d1 : n.newUl ≠ x := fun h => by
      rcases h1 with h1 | h1
      · exact he (h ▸ h1)
      · exact ho.1 (h ▸ h1)
    have d2 : n.tlli ≠ x := fun h => by
      rcases h3 with h3 | h3
      · exact ht (h3 ▸ h)
      · exact ho.1 (h ▸ h3.1)
    have d3 : (n.run [.dl x]).newDl = x ∧ (n.run [.dl x]).newUl ≠ x ∧ (n.run [.dl x]).tlli ≠ x := by
      simp only [Mob.run, List.foldl_cons, List.foldl_nil, Mob.on, Mob.confirmTlli]
      split
      · rename_i h
        rcases h with h | h
        · exact absurd h.symm d2
        · exact ⟨h.symm, d1, d2⟩
      · rw [if_pos (Ne.symm d1)]; exact ⟨rfl, d1, d2⟩
    obtain ⟨w1, w2, w3⟩ := wait_dl x b _ d3.1 d3.2.1 d3.2.2 ho.2 fun y hy => by
      have := hb _ hy rfl
      injection this
    generalize (n.run [.dl x]).run b = k at *
    simp only [Mob.run, List.foldl_cons, List.foldl_nil, Mob.on, Mob.setTlli, Mob.applyTlli, check_iff, Mob.Settled]
    rw [if_neg (by rintro (h | h); exact w3 h.symm; exact w2 h.symm), if_neg (not_not_intro w1.symm)]
    exact ⟨⟨rfl, rfl⟩, fun y => by grind⟩

/-- C33, never lost: after any sequence of announcements there is a valid TLLI, and the one used
towards the mobile is valid. -/
theorem C33_never_lost (m : Mob) (evs : List Ev) (hp : Proper evs) (h : evs ≠ [] ∨ ∃ t, m.check t = true) :
    (m.run evs).check (m.run evs).anyTlli = true := by
  have : ∀ (evs : List Ev) (m : Mob), Proper evs → (evs ≠ [] ∨ ∃ t, m.check t = true) → ∃ t, (m.run evs).check t = true := by
    intro evs
    induction evs with
    | nil => rintro m - (h | h); exact absurd rfl h; exact h
    | cons e evs ih =>
      intro m hp _
      exact ih (m.on e) (fun x hx => hp x (List.mem_cons_of_mem _ hx))
        (.inr ⟨_, C33_announced m e (hp e (List.mem_cons_self ..))⟩)
  obtain ⟨t, ht⟩ := this evs m hp h
  exact anyTlli_check _ (anyTlli_of_check _ t ht)

/-! ### All mobiles -/

/-- C33, lookup. Partial: proved for histories in which the SGSN uses proper TLLIs and does not name
two different mobiles in one PDU (`Orderly`). In every such history the lookup by a TLLI gives the
one mobile for which it is valid. -/
theorem C33_lookup_partial (c : Nat) (s : St) (h : Hist c Orderly s) (t i : Nat) :
    byTlli s t = some i ↔ ∃ m, get? s i = some m ∧ m.check t = true := by
  rw [byTlli_iff h.ok.2]
  exact ⟨fun ⟨m, h1, h2⟩ => ⟨m, get_of_mem h.ok.1.1 h1, h2⟩, fun ⟨m, h1, h2⟩ => ⟨m, get_mem h1, h2⟩⟩

/-- C33, uplink: a mobile is found under the TLLI it has announced. -/
theorem C33_uplink_found_partial (b : Clock) (c : Nat) (s s' : St) (h : Hist c Orderly s) (i t : Nat) (ht : t ≠ noTlli)
    (hs : step b c s (.announce i t) = some s') : byTlli s' t = some i := (announce_ok h.ok.1 h.ok.2 hs).2.2 ht

theorem mem_merge_ne {b : Clock} {s s' : St} {i o j : Nat} {m : Mob} (h : merge b s i o = some s') (hi : j ≠ i) (ho : j ≠ o)
    (hm : (j, m) ∈ s.ms) : (j, m) ∈ s'.ms := by
  obtain ⟨hne, m1, om, om', h1, h2, h3, rfl⟩ := merge_eq h
  have : (j, m) ∈ (modify (modify s i fun x => { x.takeOver om with q := (Llc.moveAndMerge m1.q om.backlog).1 }) o
      fun _ => { om' with q := (Llc.moveAndMerge m1.q om.backlog).2 }).ms :=
    mem_modify.2 ⟨_, mem_modify.2 ⟨_, hm, by rw [if_neg hi]⟩, by rw [if_neg ho]⟩
  unfold checkIdle
  split
  · exact this
  · split
    · exact this
    · split
      · exact List.mem_filter.2 ⟨this, by simpa using ho⟩
      · exact mem_modify.2 ⟨_, this, by rw [if_neg ho]⟩

theorem byImsi_some {s : St} {im : List Nat} {i : Nat} (h : byImsi s im = some i) : ∃ m, (i, m) ∈ s.ms ∧ im ≠ [] ∧ m.imsi = im := by
  rcases @getMs_cases s noTlli noTlli im with ⟨j, m, -, -, h3⟩ | ⟨-, ⟨j, m, h1, h2, h3⟩ | ⟨h1, -⟩⟩
  · rw [check_none] at h3; rcases h3 with h3 | h3 <;> cases h3
  · unfold byImsi at h
    rw [h1] at h
    cases h
    exact ⟨m, h2, h3⟩
  · unfold byImsi at h
    rw [h1] at h
    cases h

theorem mem_unique {s : St} (hi : Ids s) {i : Nat} {m m' : Mob} (h : (i, m) ∈ s.ms) (h' : (i, m') ∈ s.ms) : m = m' := by
  have h1 := get_of_mem hi.1 h
  have h2 := get_of_mem hi.1 h'
  rw [h1] at h2
  exact Option.some.inj h2

theorem mem_setImsi_ne {b : Clock} {s s' : St} {i j : Nat} {im : List Nat} {m : Mob} (hid : Ids s) (h : setImsi b s i im = some s')
    (hj : j ≠ i) (him : m.imsi ≠ im) (hm : (j, m) ∈ s.ms) : (j, m) ∈ s'.ms := by
  unfold setImsi at h
  split at h
  · cases h; exact hm
  · split at h
    · cases h
    · split at h
      · cases h; exact hm
      · dsimp only at h
        split at h
        · cases h
          exact mem_modify.2 ⟨_, hm, by rw [if_neg hj]⟩
        · rename_i o hbo
          cases hmm : merge b s i o with
          | none => rw [hmm] at h; cases h
          | some s1 =>
            rw [hmm] at h
            cases h
            have ho : j ≠ o := by
              rintro rfl
              obtain ⟨m', h1, -, h3⟩ := byImsi_some hbo
              exact him (mem_unique hid hm h1 ▸ h3)
            exact mem_modify.2 ⟨_, mem_merge_ne hmm hj ho hm, by rw [if_neg hj]⟩

/-- The operation does not end the record of mobile `i` (`m`): it does not announce one of its TLLIs
for another mobile, nor its IMSI, and it is not the end of the release timer. -/
def Quiet (i : Nat) (m : Mob) : Op → Prop
  | .announce j t => j = i ∨ m.check t = false
  | .pdu p => ∀ im, p.imsi = some im → m.imsi ≠ im
  | .release j => j ≠ i
  | _ => True

/-- The announcement in an operation. -/
def Op.evs : Op → List Ev
  | .announce _ t => [.ul t]
  | .pdu p => [.dl p.tlli]
  | _ => []

theorem has_checkIdle {b : Clock} (hx : b.x2030 ≠ 0) {s : St} {i j : Nat} {n : Mob} (hid : Ids s) (h : Has s i n.key) (hv : ∃ t, n.check t = true) :
    Has (checkIdle b s j) i n.key := by
  by_cases hij : i = j
  · subst hij
    obtain ⟨m, hm, hc⟩ := h
    unfold checkIdle
    rw [get_of_mem hid.1 hm]
    dsimp only
    split
    · exact ⟨m, hm, hc⟩
    · split
      · rename_i hf
        obtain ⟨t, ht⟩ := hv
        rcases hf with hf | hf
        · exact absurd hf hx
        · exact absurd hf (anyTlli_of_check m t (by rw [check_key hc]; exact ht))
      · exact has_modify ⟨m, hm, hc⟩ fun _ => rfl
  · exact has_checkIdle_ne h hij

theorem has_unref {b : Clock} (hx : b.x2030 ≠ 0) {s : St} {i j : Nat} {n : Mob} (hid : Ids s) (h : Has s i n.key) (hv : ∃ t, n.check t = true) :
    Has (unref b s j) i n.key :=
  has_checkIdle hx (ids_modify' hid _ _) (has_modify h fun _ => rfl) hv

theorem has_alloc {s : St} {i : Nat} {v} (h : Has s i v) (c r : Nat) : Has (alloc s c r).1 i v := by
  obtain ⟨m, hm, hv⟩ := h
  exact ⟨m, List.mem_cons_of_mem _ hm, hv⟩

/-- C33, all mobiles: with a release timer (X2030 not 0), a mobile with a valid TLLI stays through
every operation that does not end its record, and its valid TLLIs change by the announcement in the
operation or not at all. Partial as `C33_lookup_partial`. -/
theorem C33_store_kept_partial (b : Clock) (hx : b.x2030 ≠ 0) (c : Nat) (s s' : St) (h : Hist c Orderly s) (op : Op) (i : Nat) (m : Mob)
    (hg : get? s i = some m) (hv : ∃ t, m.check t = true) (ho : Orderly s op) (hq : Quiet i m op) (hs : step b c s op = some s') :
    ∃ m', get? s' i = some m' ∧ ((∀ t, m'.check t = m.check t) ∨ ∀ t, m'.check t = (m.run op.evs).check t) := by
  have hid := h.ok.1
  have hm := get_mem hg
  have hid' := (step_ok hid h.ok.2 ho hs).1
  have hhas : Has s i m.key := ⟨m, hm, rfl⟩
  suffices Has s' i m.key ∨ Has s' i (m.run op.evs).key by
    rcases this with ⟨m', h1, h2⟩ | ⟨m', h1, h2⟩
    · exact ⟨m', get_of_mem hid'.1 h1, .inl (check_key h2)⟩
    · exact ⟨m', get_of_mem hid'.1 h1, .inr (check_key h2)⟩
  have hlt : i ≠ s.next := by have := hid.2 _ hm; simp only at this; omega
  cases op with
  | pdu p =>
    have hs : dlHandle b c s p = some s' := hs
    obtain ⟨s1, k, new, s2, hf, hs2, rfl⟩ := dlHandle_eq hs
    by_cases hik : i = k
    · subst hik
      rcases findMs_ok hf with ⟨-, -, -, rfl⟩ | ⟨rfl, hget, -, hfwd⟩
      · exact absurd rfl hlt
      · refine .inr ?_
        have : Has s2 i m.key := by
          cases him : p.imsi with
          | none => rw [him] at hs2; cases hs2; exact hfwd _ hhas
          | some im => rw [him] at hs2; exact has_setImsi hs2 (hfwd _ hhas)
        obtain ⟨m2, hm2, hv2⟩ := this
        rw [if_neg (by decide)]
        refine ⟨_, mem_modify.2 ⟨_, hm2, by rw [if_pos rfl]⟩, ?_⟩
        rw [accept_key, confirm_key hv2]
        rfl
    · left
      have hm1 : (i, m) ∈ s1.ms ∧ Ids s1 := by
        rcases findMs_ok hf with ⟨-, -, rfl, -⟩ | ⟨rfl, hget, hsub, -⟩
        · exact ⟨List.mem_cons_of_mem _ hm, (alloc_ok hid h.ok.2 c 1).1⟩
        · refine ⟨?_, hsub.ids hid⟩
          unfold findMs at hf
          rw [hget] at hf
          dsimp only at hf
          split at hf
          · rename_i im _ him
            split at hf
            · split at hf
              · rename_i o hbo
                split at hf
                · cases hmm : merge b s k o with
                  | none => rw [hmm] at hf; cases hf
                  | some s3 =>
                    rw [hmm] at hf
                    cases hf
                    refine mem_merge_ne hmm hik ?_ hm
                    rintro rfl
                    obtain ⟨m', h1, -, h3⟩ := byImsi_some hbo
                    exact hq im him (mem_unique hid hm h1 ▸ h3)
                · cases hf; exact hm
              · cases hf; exact hm
            · cases hf; exact hm
          · cases hf; exact hm
      have hm2 : (i, m) ∈ s2.ms ∧ Ids s2 := by
        cases him : p.imsi with
        | none => rw [him] at hs2; cases hs2; exact hm1
        | some im => rw [him] at hs2; exact ⟨mem_setImsi_ne hm1.2 hs2 hik (hq im him) hm1.1, (sub_setImsi hs2).ids hm1.2⟩
      have h3 : Has (modify s2 k (·.accept p)) i m.key := has_modify_ne ⟨m, hm2.1, rfl⟩ hik
      split
      · exact has_unref hx (ids_modify' hm2.2 _ _) h3 hv
      · exact h3
  | announce j t =>
    have hs : announce b s j t = some s' := hs
    unfold announce at hs
    split at hs
    · cases hs; exact .inl hhas
    · split at hs
      · cases hs
      · rename_i mj hgj
        by_cases hij : i = j
        · subst hij
          right
          rw [hg] at hgj
          cases hgj
          have has1 : Has (modify s i (·.setTlli t)) i (m.setTlli t).key :=
            ⟨_, mem_modify.2 ⟨_, hm, by rw [if_pos rfl]⟩, rfl⟩
          dsimp only at hs
          split at hs
          · cases hs; exact has1
          · exact has_merge hs has1
        · left
          have hc : m.check t = false := by
            rcases hq with hq | hq
            · exact absurd hq.symm hij
            · exact hq
          have has1 : Has (modify s j (·.setTlli t)) i m.key := has_modify_ne hhas hij
          dsimp only at hs
          split at hs
          · cases hs; exact has1
          · rename_i o hbo
            split at hbo
            · cases hbo
            · refine has_merge_ne hs ?_ has1
              rintro rfl
              obtain ⟨m', h1, h2⟩ := byTlli_some hbo
              rw [mem_unique hid h1 hm, hc] at h2
              cases h2
  | resource t att =>
    simp only [step, Option.some.injEq] at hs
    subst hs
    left
    have h1 : Has (reqMs c s t).1 i m.key ∧ Ids (reqMs c s t).1 := by
      unfold reqMs
      split
      · exact ⟨hhas, hid⟩
      · exact ⟨has_modify_ne (has_alloc hhas c 0) hlt, ids_modify' (alloc_ok hid h.ok.2 c 0).1 _ _⟩
    unfold resourceReq
    refine has_unref hx ?_ ?_ hv
    · cases att with
      | none => exact ids_modify' h1.2 _ _
      | some x => exact ids_modify' (ids_modify' h1.2 _ _) _ _
    · cases att with
      | none => exact has_modify h1.1 fun _ => rfl
      | some x => exact has_modify (has_modify h1.1 fun _ => rfl) fun _ => rfl
  | meas t =>
    simp only [step, Option.some.injEq] at hs
    subst hs
    left
    unfold measReport
    split
    · exact hhas
    · exact has_unref hx (ids_modify' (alloc_ok hid h.ok.2 c 1).1 _ _) (has_modify_ne (has_alloc hhas c 1) hlt) hv
  | access =>
    simp only [step, Option.some.injEq] at hs
    subst hs
    exact .inl (has_modify_ne (has_alloc hhas c 0) hlt)
  | attachDl j t => cases hs; exact .inl (has_modify hhas fun _ => rfl)
  | attachUl j t => cases hs; exact .inl (has_modify hhas fun _ => rfl)
  | freeUl j => cases hs; exact .inl (has_checkIdle hx (ids_modify' hid _ _) (has_modify hhas fun _ => rfl) hv)
  | freeDl j => cases hs; exact .inl (has_checkIdle hx (ids_modify' hid _ _) (has_modify hhas fun _ => rfl) hv)
  | freeOld j k => cases hs; exact .inl (has_checkIdle hx (ids_modify' hid _ _) (has_modify hhas fun _ => rfl) hv)
  | llc j q t => cases hs; exact .inl (has_modify hhas fun _ => rfl)
  | release j =>
    simp only [step, Option.some.injEq] at hs
    subst hs
    left
    split
    · split
      · split
        · exact has_free_ne hhas (Ne.symm hq)
        · exact hhas
      · exact hhas
    · exact hhas

/-! ### Where the code differs -/

/-- Run operations one after the other. -/
def runOps (b : Clock) (c : Nat) (s : St) : List Op → Option St
  | [] => some s
  | op :: ops => (step b c s op).bind fun s' => runOps b c s' ops

theorem runOps_hist {b : Clock} {c : Nat} {ok : St → Op → Prop} (hok : ∀ s op, ok s op) :
    ∀ (ops : List Op) {s s' : St}, Hist c ok s → runOps b c s ops = some s' → Hist c ok s'
  | [], _, _, h, hr => by cases hr; exact h
  | op :: ops, s, s', h, hr => by
    unfold runOps at hr
    cases hs : step b c s op with
    | none => rw [hs] at hr; cases hr
    | some s1 => rw [hs] at hr; exact runOps_hist hok ops (.step b op h (hok _ _) hs) hr

/-- The old TLLI is forgotten before the SGSN has confirmed the new one: a mobile known as 1 by both
sides announces 2; a new access follows, and the first block on the new TBF again has 2. The SGSN
still uses 1, but the mobile is not found any more. -/
theorem C33_merge_forgets_old : ∃ s1 s2 : St, runOps ⟨0, 60⟩ 0 ⟨[], 0⟩ [.meas 1, .pdu { tlli := 1, att := some true }, .announce 0 2] = some s1 ∧
    runOps ⟨0, 60⟩ 0 s1 [.access, .announce 1 2] = some s2 ∧
    byTlli s1 1 = some 0 ∧ byTlli s1 2 = some 0 ∧ byTlli s2 1 = none ∧ byTlli s2 2 = some 1 := by
  refine ⟨_, _, rfl, rfl, ?_, ?_, ?_, ?_⟩ <;> decide +kernel

theorem lost {s : St} (h : s.ms.all (fun p => decide (p.2.key = (noTlli, noTlli, noTlli))) = true) (t : Nat) : byTlli s t = none := by
  cases hb : byTlli s t with
  | none => rfl
  | some i =>
    obtain ⟨m, hm, hc⟩ := byTlli_some hb
    have := List.all_eq_true.1 h _ hm
    simp only [Mob.key, Prod.mk.injEq, decide_eq_true_eq] at this
    rw [check_iff, this.1, this.2.1, this.2.2] at hc
    rcases hc.2 with h | h | h <;> exact absurd h hc.1

/-- A PDU with the TLLI 0xffffffff and the IMSI of a mobile for which the SGSN has announced a new
TLLI makes this mobile lose all its TLLIs. -/
theorem C33_reserved_loses : ∃ s1 s2 : St,
    runOps ⟨0, 60⟩ 0 ⟨[], 0⟩ [.meas 1, .pdu { tlli := 1, imsi := some [2, 6, 2], att := some true }, .pdu { tlli := 2, imsi := some [2, 6, 2] }] = some s1 ∧
    runOps ⟨0, 60⟩ 0 s1 [.pdu { tlli := noTlli, imsi := some [2, 6, 2] }] = some s2 ∧
    byTlli s1 1 = some 0 ∧ byTlli s1 2 = some 0 ∧ (get? s2 0).isSome = true ∧ ∀ t, byTlli s2 t = none := by
  exact ⟨_, _, rfl, rfl, by decide +kernel, by decide +kernel, by decide +kernel, lost (by decide +kernel)⟩

/-- Two mobiles become valid under the same TLLI if the SGSN names both in one PDU; only one of them
is found. -/
theorem C33_two_mobiles : ∃ s : St,
    runOps ⟨0, 60⟩ 0 ⟨[], 0⟩ [.meas 2, .meas 1, .pdu { tlli := 2, old := 1 }] = some s ∧
    (∃ m, get? s 0 = some m ∧ m.check 2 = true) ∧ byTlli s 2 = some 1 := by
  refine ⟨_, rfl, ⟨_, rfl, ?_⟩, ?_⟩ <;> decide +kernel

/-! Instances: a complete change of TLLI of one mobile, and on the list of mobiles. -/

def demoMob : Mob := { newMob 0 0 with tlli := 1 }
example : demoMob.Settled ∧ ((demoMob.run [.ul 2]).check 1 = true ∧ (demoMob.run [.ul 2]).check 2 = true) ∧
    ((demoMob.run [.ul 2, .dl 2]).check 1 = false ∧ (demoMob.run [.ul 2, .dl 2]).check 2 = true) := ⟨⟨rfl, rfl⟩, by decide +kernel⟩
example : Orderly ⟨[], 0⟩ (.pdu { tlli := 1, att := some true }) ∧ ∃ s, step ⟨0, 60⟩ 0 ⟨[], 0⟩ (.pdu { tlli := 1, att := some true }) = some s ∧
    byTlli s 1 = some 0 := ⟨⟨by decide, nofun⟩, _, rfl, by decide +kernel⟩
example : ∃ s, runOps ⟨0, 60⟩ 0 ⟨[], 0⟩ [.meas 1, .pdu { tlli := 1, att := some true }, .announce 0 2, .pdu { tlli := 2 }] = some s ∧
    byTlli s 1 = none ∧ byTlli s 2 = some 0 := by
  refine ⟨_, rfl, ?_, ?_⟩ <;> decide +kernel

end Verif.Store
