import Verif.Lemmas.MsLife
import Verif.Spec.Known
import Verif.Props.C33
/-!
# C86: what is known of the capabilities of a mobile is kept and completed
-/

namespace Verif.Store

/-- Known values stay. -/
def Sticky (m m' : Mob) : Prop := ∀ c, m.cap c ≠ 0 → m'.cap c = m.cap c

theorem Sticky.of {m m' : Mob} (h : m'.msClass = m.msClass) (h2 : m'.egprsClass = m.egprsClass) : Sticky m m' := by
  intro c _
  cases c
  · exact h
  · exact h2

theorem Sticky.trans {a b c : Mob} (h : Sticky a b) (h2 : Sticky b c) : Sticky a c := by
  intro x hx
  rw [h2 x (by rw [h x hx]; exact hx), h x hx]

/-- No record has a number not given out yet. -/
def Below (s : St) : Prop := ∀ i m, get? s i = some m → i < s.next

/-- Records of `s'` are those of `s` with what was known of them, or new ones. -/
def Keeps (s s' : St) : Prop := s.next ≤ s'.next ∧ (Below s → Below s') ∧
  ∀ i m', get? s' i = some m' → i < s.next → ∃ m, get? s i = some m ∧ Sticky m m'

theorem Keeps.refl (s : St) : Keeps s s := ⟨Nat.le_refl _, id, fun _ m h _ => ⟨m, h, fun _ _ => rfl⟩⟩

theorem Keeps.trans {a b c : St} (h : Keeps a b) (h2 : Keeps b c) : Keeps a c := by
  refine ⟨Nat.le_trans h.1 h2.1, fun x => h2.2.1 (h.2.1 x), fun i m' h3 h4 => ?_⟩
  obtain ⟨m, h5, h6⟩ := h2.2.2 i m' h3 (Nat.lt_of_lt_of_le h4 h.1)
  obtain ⟨m0, h7, h8⟩ := h.2.2 i m h5 h4
  exact ⟨m0, h7, h8.trans h6⟩

theorem keeps_modify (s : St) (j : Nat) (f : Mob → Mob) (hf : ∀ m, get? s j = some m → Sticky m (f m)) : Keeps s (modify s j f) := by
  have key : ∀ i m', get? (modify s j f) i = some m' → ∃ m, get? s i = some m ∧ Sticky m m' := by
    intro i m' h
    rw [get_modify] at h
    split at h
    · rename_i hij
      subst hij
      cases hg : get? s i with
      | none => rw [hg] at h; cases h
      | some m => rw [hg] at h; cases h; exact ⟨m, rfl, hf m hg⟩
    · exact ⟨m', h, fun _ _ => rfl⟩
  refine ⟨Nat.le_refl _, fun hb i m' h => ?_, fun i m' h _ => key i m' h⟩
  obtain ⟨m, h1, -⟩ := key i m' h
  exact hb i m h1

theorem keeps_free (s : St) (j : Nat) : Keeps s (free s j) := by
  have key : ∀ i m', get? (free s j) i = some m' → get? s i = some m' := by
    intro i m' h
    rw [get_free] at h
    split at h
    · cases h
    · exact h
  exact ⟨Nat.le_refl _, fun hb i m' h => hb i m' (key i m' h), fun i m' h _ => ⟨m', key i m' h, fun _ _ => rfl⟩⟩

theorem keeps_alloc (s : St) (c r : Nat) : Keeps s (alloc s c r).1 := by
  refine ⟨Nat.le_succ _, fun hb i m' h => ?_, fun i m' h hlt => ?_⟩
  · rw [get_alloc] at h
    show i < s.next + 1
    split at h
    · omega
    · have := hb i m' h; omega
  · rw [get_alloc, if_neg (by omega)] at h
    exact ⟨m', h, fun _ _ => rfl⟩

theorem keeps_checkIdle (k : Clock) (s : St) (j : Nat) : Keeps s (checkIdle k s j) := by
  unfold checkIdle
  split
  · exact .refl _
  · split
    · exact .refl _
    · split
      · exact keeps_free _ _
      · exact keeps_modify _ _ _ fun _ _ => .of rfl rfl

theorem keeps_unref (k : Clock) (s : St) (j : Nat) : Keeps s (unref k s j) :=
  (keeps_modify s j (fun m => { m with refs := m.refs - 1 }) fun _ _ => .of rfl rfl).trans (keeps_checkIdle _ _ _)

theorem cap_takeOver (m o : Mob) (q) (c : Cap) :
    ({ m.takeOver o with q := q } : Mob).cap c = if m.cap c ≠ 0 then m.cap c else o.cap c := by
  cases c
  · show (if m.msClass = 0 ∧ o.msClass ≠ 0 then o.msClass else m.msClass) = if m.msClass ≠ 0 then m.msClass else o.msClass
    by_cases h : m.msClass = 0
    · by_cases h2 : o.msClass = 0 <;> simp [h, h2]
    · simp [h]
  · show (if m.egprsClass = 0 ∧ o.egprsClass ≠ 0 then o.egprsClass else m.egprsClass) =
      if m.egprsClass ≠ 0 then m.egprsClass else o.egprsClass
    by_cases h : m.egprsClass = 0
    · by_cases h2 : o.egprsClass = 0 <;> simp [h, h2]
    · simp [h]

theorem cap_accept (m : Mob) (p : Pdu) (c : Cap) :
    (m.accept p).cap c = if m.cap c ≠ 0 then m.cap c else p.cap c := by
  have e : ∀ t, (m.confirmTlli t).msClass = m.msClass ∧ (m.confirmTlli t).egprsClass = m.egprsClass := by
    intro t
    unfold Mob.confirmTlli Mob.applyTlli
    repeat' split
    all_goals exact ⟨rfl, rfl⟩
  have e2 : (m.accept p).msClass = (if m.msClass = 0 ∧ p.msClass ≠ 0 then p.msClass else m.msClass) ∧
      (m.accept p).egprsClass = (if m.egprsClass = 0 ∧ p.egprsClass ≠ 0 then p.egprsClass else m.egprsClass) := by
    unfold Mob.accept
    dsimp only
    rw [(e p.tlli).1, (e p.tlli).2]
    split <;> exact ⟨rfl, rfl⟩
  cases c
  · show (m.accept p).msClass = if m.msClass ≠ 0 then m.msClass else p.msClass
    rw [e2.1]
    by_cases h : m.msClass = 0
    · by_cases h2 : p.msClass = 0 <;> simp [h, h2]
    · simp [h]
  · show (m.accept p).egprsClass = if m.egprsClass ≠ 0 then m.egprsClass else p.egprsClass
    rw [e2.2]
    by_cases h : m.egprsClass = 0
    · by_cases h2 : p.egprsClass = 0 <;> simp [h, h2]
    · simp [h]

theorem setTlli_sticky (m : Mob) (t : Nat) : Sticky m (m.setTlli t) := by
  unfold Mob.setTlli Mob.applyTlli
  repeat' split
  all_goals exact .of rfl rfl

theorem reset_sticky {m m' : Mob} (h : m.drained.reset = some m') (q) : Sticky m { m' with q := q } := by
  unfold Mob.reset at h
  split at h
  · cases h
  · cases h; exact .of rfl rfl

theorem keeps_merge {k : Clock} {s s' : St} {i o : Nat} (h : merge k s i o = some s') : Keeps s s' := by
  obtain ⟨hne, m, om, om', h1, h2, h3, rfl⟩ := merge_eq h
  refine ((keeps_modify s i (fun x => { x.takeOver om with q := (Llc.moveAndMerge m.q om.backlog).1 }) ?_).trans
    (keeps_modify _ o (fun _ => { om' with q := (Llc.moveAndMerge m.q om.backlog).2 }) ?_)).trans (keeps_checkIdle _ _ _)
  · intro m _ c hc
    rw [cap_takeOver, if_pos hc]
  · intro x hx
    rw [get_modify, if_neg hne, h2] at hx
    cases hx
    exact reset_sticky h3 _

theorem keeps_setImsi {k : Clock} {s s' : St} {i : Nat} {im : List Nat} (h : setImsi k s i im = some s') : Keeps s s' := by
  unfold setImsi at h
  split at h
  · cases h; exact .refl _
  · split at h
    · cases h
    · split at h
      · cases h; exact .refl _
      · dsimp only at h
        split at h
        · cases h
          exact keeps_modify _ _ _ fun _ _ => .of rfl rfl
        · rename_i o _
          cases hm : merge k s i o with
          | none => rw [hm] at h; cases h
          | some s1 =>
            rw [hm] at h
            cases h
            exact (keeps_merge hm).trans (keeps_modify s1 i (fun m => { m with imsi := im }) fun _ _ => .of rfl rfl)

theorem keeps_findMs {k : Clock} {c : Nat} {s s1 : St} {p : Pdu} {i : Nat} {new : Bool}
    (h : findMs k c s p = some (s1, i, new)) : Keeps s s1 := by
  unfold findMs at h
  split at h
  · rename_i j hj
    split at h
    · split at h
      · split at h
        · rename_i o _
          split at h
          · cases hm : merge k s j o with
            | none => rw [hm] at h; cases h
            | some s2 =>
              rw [hm] at h
              cases h
              exact keeps_merge hm
          · cases h; exact .refl _
        · cases h; exact .refl _
      · cases h; exact .refl _
    · cases h; exact .refl _
  · cases h
    exact keeps_alloc _ _ _

theorem keeps_pdu {k : Clock} {c : Nat} {s s' : St} {p : Pdu} (h : dlHandle k c s p = some s') : Keeps s s' := by
  obtain ⟨s1, i, new, s2, h1, h2, rfl⟩ := dlHandle_eq h
  have a : Keeps s1 s2 := by
    cases him : p.imsi with
    | none => rw [him] at h2; cases h2; exact .refl _
    | some im => rw [him] at h2; exact keeps_setImsi h2
  have b : Keeps s2 (modify s2 i (·.accept p)) := keeps_modify _ _ _ fun m _ x hx => by rw [cap_accept, if_pos hx]
  have c := ((keeps_findMs h1).trans a).trans b
  split
  · exact c.trans (keeps_unref _ _ _)
  · exact c

theorem keeps_step {k : Clock} {c : Nat} {s s' : St} {op : Op} (h : step k c s op = some s') : Keeps s s' := by
  cases op with
  | pdu p => exact keeps_pdu h
  | announce i t =>
    simp only [step, announce] at h
    split at h
    · cases h; exact .refl _
    · split at h
      · cases h
      · split at h
        · cases h
          exact keeps_modify _ _ _ fun m _ => setTlli_sticky m t
        · exact (keeps_modify s i (·.setTlli t) fun m _ => setTlli_sticky m t).trans (keeps_merge h)
  | resource t att =>
    simp only [step, Option.some.injEq] at h
    subst h
    unfold resourceReq
    have a : Keeps s (reqMs c s t).1 := by
      unfold reqMs
      split
      · exact .refl _
      · exact (keeps_alloc s c 0).trans (keeps_modify _ _ (·.setTlli t) fun m _ => setTlli_sticky m t)
    refine Keeps.trans (a.trans ?_) (keeps_unref _ _ _)
    refine (keeps_modify _ (reqMs c s t).2 (fun m => { m with refs := m.refs + 1 }) fun _ _ => .of rfl rfl).trans ?_
    cases att with
    | none => exact .refl _
    | some x => exact keeps_modify _ _ _ fun _ _ => .of rfl rfl
  | meas t =>
    simp only [step, Option.some.injEq] at h
    subst h
    unfold measReport
    split
    · exact .refl _
    · exact ((keeps_alloc s c 1).trans (keeps_modify _ _ (·.setTlli t) fun m _ => setTlli_sticky m t)).trans
        (keeps_unref _ _ _)
  | access =>
    simp only [step, Option.some.injEq] at h
    subst h
    exact (keeps_alloc s c 0).trans (keeps_modify _ _ (·.attachUl true) fun _ _ => .of rfl rfl)
  | attachDl i t => cases h; exact keeps_modify _ _ _ fun _ _ => .of rfl rfl
  | attachUl i t => cases h; exact keeps_modify _ _ _ fun _ _ => .of rfl rfl
  | freeUl i =>
    cases h
    exact (keeps_modify s i (fun m => { m with ul := none }) fun _ _ => .of rfl rfl).trans (keeps_checkIdle _ _ _)
  | freeDl i =>
    cases h
    exact (keeps_modify s i (fun m => { m with dl := none }) fun _ _ => .of rfl rfl).trans (keeps_checkIdle _ _ _)
  | freeOld i n =>
    cases h
    exact (keeps_modify s i (fun m => { m with old := m.old.eraseIdx n }) fun _ _ => .of rfl rfl).trans (keeps_checkIdle _ _ _)
  | llc i q t => cases h; exact keeps_modify _ _ _ fun _ _ => .of rfl rfl
  | release i =>
    simp only [step, Option.some.injEq] at h
    subst h
    split
    · split
      · split
        · exact keeps_free _ _
        · exact .refl _
      · exact .refl _
    · exact .refl _

theorem below_hist {c : Nat} {ok : St → Op → Prop} {s : St} (h : Hist c ok s) : Below s := by
  induction h with
  | init => intro i m h; cases h
  | step k op _ _ hs ih => exact (keeps_step hs).2.1 ih

/-- C86, kept: whatever happens to any mobile at any time, and in whatever order, a multislot class that is known
stays the same as long as the record of the mobile exists. -/
theorem C86_kept (codel : Nat) (ok : St → Op → Prop) (s : St) (h : Hist codel ok s) (k : Clock) (op : Op) (s' : St)
    (hs : step k codel s op = some s') (i : Nat) (m m' : Mob) (h1 : get? s i = some m) (h2 : get? s' i = some m')
    (c : Cap) (hc : m.cap c ≠ 0) : m'.cap c = m.cap c := by
  obtain ⟨m0, h3, h4⟩ := (keeps_step hs).2.2 i m' h2 (below_hist h i m h1)
  rw [h1] at h3
  cases h3
  exact h4 c hc

/-- C86, merged: if two records turn out to be of one mobile, the remaining one knows what either of them knew:
the classes and the IMSI, its own if both knew one. -/
theorem C86_merged (k : Clock) (s s' : St) (i o : Nat) (m om : Mob)
    (h1 : get? s i = some m) (h2 : get? s o = some om) (h : merge k s i o = some s') :
    ∃ m', get? s' i = some m' ∧ (∀ c, m'.cap c = if m.cap c ≠ 0 then m.cap c else om.cap c) ∧
      m'.imsi = if m.imsi ≠ [] then m.imsi else om.imsi := by
  obtain ⟨hne, m0, om0, om', h3, h4, h5, rfl⟩ := merge_eq h
  rw [h1] at h3
  cases h3
  rw [h2] at h4
  cases h4
  rw [get_checkIdle, if_neg (Ne.symm hne), get_modify, if_neg (Ne.symm hne), get_modify, if_pos rfl, h1]
  refine ⟨_, rfl, fun c => cap_takeOver _ _ _ c, ?_⟩
  show (if m.imsi = [] ∧ om.imsi ≠ [] then om.imsi else m.imsi) = _
  by_cases h : m.imsi = []
  · by_cases h2 : om.imsi = [] <;> simp [h, h2]
  · simp [h]

/-- The value comes from the record, or from another record with the IMSI of the PDU. -/
def Src (s : St) (p : Pdu) (c : Cap) (a b : Nat) : Prop :=
  if a ≠ 0 then b = a
  else b = 0 ∨ ∃ o om, get? s o = some om ∧ p.imsi = some om.imsi ∧ om.cap c ≠ 0 ∧ b = om.cap c

theorem Src.refl (s : St) (p : Pdu) (c : Cap) (a : Nat) : Src s p c a a := by
  unfold Src
  split
  · rfl
  · left; omega

theorem Src.trans {s : St} {p : Pdu} {c : Cap} {x y z : Nat} (h : Src s p c x y) (h2 : Src s p c y z) : Src s p c x z := by
  unfold Src at *
  by_cases hx : x ≠ 0
  · rw [if_pos hx] at h ⊢
    subst h
    rwa [if_pos hx] at h2
  · rw [if_neg hx] at h ⊢
    rcases h with rfl | h
    · simpa using h2
    · obtain ⟨o, om, h3, h4, h5, rfl⟩ := h
      rw [if_pos h5] at h2
      exact Or.inr ⟨o, om, h3, h4, h5, h2⟩

/-- What a merge with a record that has the IMSI of the PDU does. -/
theorem merge_src {k : Clock} {s s' : St} {i o : Nat} {m om : Mob} {p : Pdu} (h : merge k s i o = some s')
    (h1 : get? s i = some m) (h2 : get? s o = some om) (hp : p.imsi = some om.imsi) :
    ∃ m', get? s' i = some m' ∧ ∀ c, Src s p c (m.cap c) (m'.cap c) := by
  obtain ⟨m', h3, h4, -⟩ := C86_merged k s s' i o m om h1 h2 h
  refine ⟨m', h3, fun c => ?_⟩
  rw [h4 c]
  unfold Src
  by_cases hm : m.cap c ≠ 0
  · rw [if_pos hm, if_pos hm]
  · rw [if_neg hm, if_neg hm]
    by_cases ho : om.cap c = 0
    · exact Or.inl ho
    · exact Or.inr ⟨o, om, h2, hp, ho, rfl⟩

/-- What a merge does to the other records. -/
theorem merge_other {k : Clock} {s s' : St} {i o x : Nat} {m' : Mob} (h : merge k s i o = some s') (hx : x ≠ i)
    (hg : get? s' x = some m') (hi : m'.imsi ≠ []) : get? s x = some m' := by
  obtain ⟨hne, m0, om0, om', h3, h4, h5, rfl⟩ := merge_eq h
  rw [get_checkIdle, get_modify, get_modify, if_neg hx] at hg
  by_cases ho : x = o
  · subst ho
    rw [if_pos rfl, if_pos rfl, h4] at hg
    simp only [Option.map_some, Option.bind_some] at hg
    exfalso
    apply hi
    have e : om'.imsi = [] := by
      unfold Mob.reset at h5
      split at h5
      · cases h5
      · cases h5; rfl
    unfold Mob.rest at hg
    split at hg
    · cases hg; exact e
    · split at hg
      · cases hg
      · cases hg; exact e
  · rw [if_neg ho, if_neg ho] at hg
    exact hg

theorem byImsi_rec {s : St} (hi : Ids s) {im : List Nat} {o : Nat} (h : byImsi s im = some o) :
    ∃ om, get? s o = some om ∧ im ≠ [] ∧ om.imsi = im := by
  obtain ⟨om, h1, h2, h3⟩ := byImsi_some h
  exact ⟨om, get_of_mem hi.1 h1, h2, h3⟩

theorem findMs_src {k : Clock} {codel : Nat} {s s1 : St} {p : Pdu} {i : Nat} {m : Mob} {new : Bool} (hid : Ids s)
    (h : findMs k codel s p = some (s1, i, new)) (hg : getMs s p.tlli p.old (p.imsi.getD []) = some i)
    (h1 : get? s i = some m) :
    new = false ∧ (∃ m1, get? s1 i = some m1 ∧ ∀ c, Src s p c (m.cap c) (m1.cap c)) ∧
      ∀ x m', x ≠ i → get? s1 x = some m' → m'.imsi ≠ [] → get? s x = some m' := by
  have same : (some (s, i, false) : Option (St × Nat × Bool)) = some (s1, i, new) → new = false ∧
      (∃ m1, get? s1 i = some m1 ∧ ∀ c, Src s p c (m.cap c) (m1.cap c)) ∧
      ∀ x m', x ≠ i → get? s1 x = some m' → m'.imsi ≠ [] → get? s x = some m' := by
    intro h
    cases h
    exact ⟨rfl, ⟨m, h1, fun c => .refl _ _ _ _⟩, fun _ _ _ h _ => h⟩
  unfold findMs at h
  rw [hg] at h
  dsimp only at h
  rw [h1] at h
  cases him : p.imsi with
  | none => rw [him] at h; exact same h
  | some im =>
    rw [him] at h
    dsimp only at h
    split at h
    · split at h
      · rename_i o ho
        split at h
        · cases hm : merge k s i o with
          | none => rw [hm] at h; cases h
          | some s2 =>
            rw [hm] at h
            cases h
            obtain ⟨om, h2, h3, h4⟩ := byImsi_rec hid ho
            exact ⟨rfl, merge_src hm h1 h2 (by rw [him, h4]), fun x m' hx h5 h6 => merge_other hm hx h5 h6⟩
        · exact same h
      · exact same h
    · exact same h

theorem setImsi_src {k : Clock} {s s1 s2 : St} {p : Pdu} {i : Nat} {m1 : Mob} {im : List Nat} (hid : Ids s1)
    (h : setImsi k s1 i im = some s2) (hp : p.imsi = some im) (h1 : get? s1 i = some m1)
    (hx : ∀ x m', x ≠ i → get? s1 x = some m' → m'.imsi ≠ [] → get? s x = some m') :
    ∃ m2, get? s2 i = some m2 ∧ ∀ c, Src s p c (m1.cap c) (m2.cap c) := by
  have same : ∀ m2 : Mob, m2.msClass = m1.msClass → m2.egprsClass = m1.egprsClass →
      ∀ c, Src s p c (m1.cap c) (m2.cap c) := by
    intro m2 e1 e2 c
    have : m2.cap c = m1.cap c := by cases c; exact e1; exact e2
    rw [this]
    exact .refl _ _ _ _
  unfold setImsi at h
  rw [h1] at h
  dsimp only at h
  split at h
  · cases h; exact ⟨m1, h1, same _ rfl rfl⟩
  · split at h
    · cases h; exact ⟨m1, h1, same _ rfl rfl⟩
    · rename_i hne
      split at h
      · cases h
        exact ⟨{ m1 with imsi := im }, by rw [get_modify, if_pos rfl, h1]; rfl, same _ rfl rfl⟩
      · rename_i o ho
        cases hm : merge k s1 i o with
        | none => rw [hm] at h; cases h
        | some s3 =>
          rw [hm] at h
          cases h
          obtain ⟨om, h2, h3, h4⟩ := byImsi_rec hid ho
          have hoi : o ≠ i := (merge_eq hm).1
          obtain ⟨m3, h5, h6, -⟩ := C86_merged k s1 s3 i o m1 om h1 h2 hm
          refine ⟨_, by rw [get_modify, if_pos rfl, h5]; rfl, fun c => ?_⟩
          have e : ({ m3 with imsi := im } : Mob).cap c = m3.cap c := by cases c <;> rfl
          rw [e, h6 c]
          unfold Src
          by_cases hm1 : m1.cap c ≠ 0
          · rw [if_pos hm1, if_pos hm1]
          · rw [if_neg hm1, if_neg hm1]
            by_cases ho : om.cap c = 0
            · exact Or.inl ho
            · exact Or.inr ⟨o, om, hx o om hoi h2 (by rw [h4]; exact h3), by rw [hp, h4], ho, rfl⟩

/-- C86, learned: a frame for a mobile completes what is known of it. Each class is afterwards the one known
before or, if there was none, the one of another record with the IMSI of the frame, or the one that came with the
frame; so it is known if one came with the frame.

Partial: for the histories of `C33_lookup_partial`, in which no frame has TLLIs of two different mobiles. -/
theorem C86_learned_partial (codel : Nat) (s : St) (h : Hist codel Orderly s) (k : Clock) (p : Pdu) (s' : St)
    (ho : Orderly s (.pdu p)) (hs : step k codel s (.pdu p) = some s') (i : Nat) (m : Mob) (h1 : get? s i = some m)
    (ht : m.check p.tlli = true) :
    ∃ m', get? s' i = some m' ∧ ∀ c,
      (m.cap c ≠ 0 → m'.cap c = m.cap c) ∧
      (m.cap c = 0 → m'.cap c = p.cap c ∨
        ∃ o om, get? s o = some om ∧ p.imsi = some om.imsi ∧ om.cap c ≠ 0 ∧ m'.cap c = om.cap c) ∧
      (p.cap c ≠ 0 → m'.cap c ≠ 0) := by
  have hid := h.ok.1
  have hg : getMs s p.tlli p.old (p.imsi.getD []) = some i := by
    rcases @getMs_cases s p.tlli p.old (p.imsi.getD []) with ⟨j, mj, h2, h3, h4⟩ | ⟨h2, -⟩
    · rw [h2]
      rcases h4 with h4 | h4
      · exact congrArg some (h.ok.2 _ h3 _ (get_mem h1) _ h4 ht)
      · exact congrArg some (ho.2 _ (get_mem h1) _ h3 ht h4).symm
    · have := (h2 _ (get_mem h1)).1
      rw [ht] at this
      cases this
  obtain ⟨s1, j, new, s2, h2, h3, rfl⟩ := dlHandle_eq hs
  have hij : j = i := by
    rcases findMs_ok h2 with ⟨-, e, -⟩ | ⟨-, e, -⟩
    · rw [hg] at e; cases e
    · rw [hg] at e; exact (Option.some.inj e).symm
  subst hij
  have hid1 : Ids s1 := by
    rcases findMs_ok h2 with ⟨-, e, -⟩ | ⟨-, -, e, -⟩
    · rw [hg] at e; cases e
    · exact e.ids hid
  obtain ⟨rfl, ⟨m1, h4, h5⟩, h6⟩ := findMs_src hid h2 hg h1
  have : ∃ m2, get? s2 j = some m2 ∧ ∀ c, Src s p c (m1.cap c) (m2.cap c) := by
    cases him : p.imsi with
    | none => rw [him] at h3; cases h3; exact ⟨m1, h4, fun c => .refl _ _ _ _⟩
    | some im => rw [him] at h3; exact setImsi_src hid1 h3 him h4 h6
  obtain ⟨m2, h7, h8⟩ := this
  refine ⟨m2.accept p, by rw [if_neg (by decide), get_modify, if_pos rfl, h7]; rfl, fun c => ?_⟩
  have h9 := (h5 c).trans (h8 c)
  unfold Src at h9
  rw [cap_accept]
  refine ⟨fun hc => ?_, fun hc => ?_, fun hc => ?_⟩
  · rw [if_pos hc] at h9
    rw [h9, if_pos hc]
  · rw [if_neg (by omega)] at h9
    rcases h9 with h9 | ⟨o, om, a, b, c', d⟩
    · rw [h9]; left; simp
    · right
      rw [d, if_pos c']
      exact ⟨o, om, a, b, c', rfl⟩
  · split
    · assumption
    · exact hc

/-- C86, new: the record made for a mobile that was not known has the classes that came with the frame. -/
theorem C86_new (codel : Nat) (s : St) (k : Clock) (p : Pdu) (s' : St)
    (hn : ∀ q ∈ s.ms, q.2.check p.tlli = false ∧ q.2.check p.old = false ∧ ∀ im, p.imsi = some im → q.2.imsi ≠ im)
    (hs : step k codel s (.pdu p) = some s') (m' : Mob) (h1 : get? s' s.next = some m') (c : Cap) :
    m'.cap c = p.cap c := by
  have hg : getMs s p.tlli p.old (p.imsi.getD []) = none := by
    rcases @getMs_cases s p.tlli p.old (p.imsi.getD []) with ⟨j, mj, -, h3, h4⟩ | ⟨-, ⟨j, mj, -, h3, h4, h5⟩ | ⟨h2, -⟩⟩
    · have := hn _ h3
      rcases h4 with h4 | h4
      · rw [this.1] at h4; cases h4
      · rw [this.2.1] at h4; cases h4
    · cases him : p.imsi with
      | none => rw [him] at h4; exact absurd rfl h4
      | some im => rw [him] at h5; exact absurd h5 ((hn _ h3).2.2 im him)
    · exact h2
  obtain ⟨s1, j, new, s2, h2, h3, rfl⟩ := dlHandle_eq hs
  have : new = true ∧ s1 = (alloc s codel 1).1 ∧ j = s.next := by
    rcases findMs_ok h2 with ⟨a, -, b, d⟩ | ⟨-, e, -⟩
    · exact ⟨a, b, d⟩
    · rw [hg] at e; cases e
  obtain ⟨rfl, rfl, rfl⟩ := this
  have h4 : get? (alloc s codel 1).1 s.next = some (newMob codel 1) := by rw [get_alloc, if_pos rfl]
  have h5 : ∃ m2, get? s2 s.next = some m2 ∧ m2.cap c = 0 := by
    cases him : p.imsi with
    | none => rw [him] at h3; cases h3; exact ⟨_, h4, by cases c <;> rfl⟩
    | some im =>
      rw [him] at h3
      dsimp only at h3
      have hb : byImsi (alloc s codel 1).1 im = none := by
        cases hb : byImsi (alloc s codel 1).1 im with
        | none => rfl
        | some o =>
          obtain ⟨om, a, b, d⟩ := byImsi_some hb
          simp only [alloc, List.mem_cons] at a
          rcases a with a | a
          · cases a; exact absurd d.symm b
          · exact absurd d ((hn _ a).2.2 im him)
      unfold setImsi at h3
      rw [h4, hb] at h3
      dsimp only at h3
      split at h3
      · cases h3; exact ⟨_, h4, by cases c <;> rfl⟩
      · split at h3
        · cases h3; exact ⟨_, h4, by cases c <;> rfl⟩
        · cases h3
          exact ⟨_, by rw [get_modify, if_pos rfl, h4]; rfl, by cases c <;> rfl⟩
  obtain ⟨m2, h6, h7⟩ := h5
  rw [if_pos rfl, get_unref, if_pos rfl, get_modify, if_pos rfl, h6] at h1
  simp only [Option.map_some, Option.bind_some] at h1
  have e : m'.cap c = (m2.accept p).cap c := by
    unfold Mob.rest at h1
    split at h1
    · cases h1; cases c <;> rfl
    · split at h1
      · cases h1
      · cases h1; cases c <;> rfl
  rw [e, cap_accept, h7]
  simp

/-! ### Examples -/

/-- A mobile known by a measurement report; a frame tells its IMSI and its class, a later one another class. -/
example : (runOps ⟨0, 60⟩ 0 ⟨[], 0⟩ [.meas 1, .pdu { tlli := 1, imsi := some [1, 2, 3], msClass := 12 },
    .pdu { tlli := 1, msClass := 10, egprsClass := 11 }]).map (fun s => s.ms.map fun q => (q.1, q.2.msClass, q.2.egprsClass)) =
      some [(0, 12, 11)] := by decide +kernel

/-- A second record for the same mobile takes over the class of the first. -/
example : (runOps ⟨0, 60⟩ 0 ⟨[], 0⟩ [.meas 1, .pdu { tlli := 1, imsi := some [1, 2, 3], msClass := 12 },
    .meas 2, .pdu { tlli := 2, imsi := some [1, 2, 3], egprsClass := 11 }]).map
      (fun s => s.ms.map fun q => (q.1, q.2.msClass, q.2.egprsClass)) = some [(1, 12, 11)] := by decide +kernel

end Verif.Store
