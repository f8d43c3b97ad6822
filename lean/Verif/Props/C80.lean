import Verif.Lemmas.MsLife
import Verif.Props.C43
/-!
# C80: the record of a mobile is kept while it is used and for the configured time after

The record of a mobile (identities, classes, waiting frames) exists as long as the mobile has a TBF,
and for the time of timer X2030 after; then it is discarded. It is not used after that.
-/

namespace Verif.Store

theorem get_expire {s : St} (hid : Ids s) (now i : Nat) : get? (expire now s) i =
    (get? s i).filter fun m => match m.releasing with | some d => decide (now < d) | none => true := by
  have hsub : ((expire now s).ms.map (·.1)).Sublist (s.ms.map (·.1)) := List.Sublist.map _ List.filter_sublist
  have hnd : ((expire now s).ms.map (·.1)).Nodup := hsub.nodup hid.1
  cases hg : get? s i with
  | none =>
    cases he : get? (expire now s) i with
    | none => rfl
    | some m =>
      have := get_mem he
      unfold expire at this
      rw [get_of_mem hid.1 (List.mem_filter.1 this).1] at hg
      cases hg
  | some m =>
    have hm := get_mem hg
    cases hf : (match m.releasing with | some d => decide (now < d) | none => true) with
    | true =>
      have : (i, m) ∈ (expire now s).ms := List.mem_filter.2 ⟨hm, hf⟩
      rw [get_of_mem hnd this]
      simp only [Option.filter]
      rw [if_pos hf]
    | false =>
      have e0 : (some m).filter (fun m => match m.releasing with | some d => decide (now < d) | none => true) = none := by
        simp only [Option.filter]
        rw [if_neg (by rw [hf]; decide)]
      rw [e0]
      cases he : get? (expire now s) i with
      | none => rfl
      | some m' =>
        have h1 := List.mem_filter.1 (get_mem he)
        have h2 := get_of_mem hid.1 h1.1
        rw [hg] at h2; cases h2
        rw [show (match m.releasing with | some d => decide (now < d) | none => true) = true from h1.2] at hf
        cases hf

theorem ids_expire {s : St} (hid : Ids s) (now : Nat) : Ids (expire now s) :=
  ⟨(List.Sublist.map _ List.filter_sublist : ((expire now s).ms.map (·.1)).Sublist (s.ms.map (·.1))).nodup hid.1,
    fun p hp => hid.2 p (List.mem_filter.1 hp).1⟩

/-- Between the acts every record is in use or about to be released. -/
theorem inv_act {c : Nat} {s s' : Sys} {a : Act} (hi : Inv s) (hr : Real s a) (h : act c s a = some s') : Inv s' := by
  by_cases ht : ∃ d, a = .time d
  · obtain ⟨d, rfl⟩ := ht
    cases h
    refine ⟨ids_expire hi.ids _, fun i m hm => ?_⟩
    rw [get_expire hi.ids, Option.filter_eq_some_iff] at hm
    obtain ⟨h1, h2, h3⟩ := hi.fine i m hm.1
    refine ⟨h1, fun hz => ?_, h3⟩
    obtain ⟨e, he, -⟩ := h2 hz
    have := hm.2
    rw [he] at this
    exact ⟨e, he, by simpa using this⟩
  by_cases hv : ∃ v, a = .conf v
  · obtain ⟨v, rfl⟩ := hv
    cases h
    exact ⟨hi.ids, hi.fine⟩
  obtain ⟨hk, v⟩ := act_view hi hr h (fun d e => ht ⟨d, e⟩) fun x e => hv ⟨x, e⟩
  refine ⟨v.ids, fun i m' hm' => ?_⟩
  rw [hk]
  cases hg : get? s.st i with
  | none =>
    obtain ⟨-, -, h1, h2⟩ := v.new i m' hg hm'
    rcases h2 with ⟨h2, h3⟩ | ⟨h2, h3, h4⟩
    · exact ⟨h1, fun e => absurd e h2, fun _ => h3⟩
    · exact ⟨h1, fun _ => ⟨_, h4, by omega⟩, fun e => absurd h2 e⟩
  | some m =>
    obtain ⟨f1, f2, f3⟩ := hi.fine i m hg
    have ch := v.old i m hg
    rw [hm'] at ch
    cases ch with
    | same _ h1 h2 => exact ⟨h1.refs.trans f1, by rw [h1.users, h1.rel]; exact f2, by rw [h1.users, h1.rel]; exact f3⟩
    | busy _ h1 h2 h3 h4 => exact ⟨h1, fun e => absurd e h2, fun _ => h3⟩
    | idle _ h1 h2 h3 h4 h5 h6 => exact ⟨h2, fun _ => ⟨_, h5, by omega⟩, fun e => absurd h3 e⟩
    | lost _ h1 h2 =>
      obtain ⟨g1, g2, g3, g4⟩ := h2 m' rfl
      exact ⟨g1.trans f1, fun e => absurd e g2, fun _ => g4.trans (f3 (by omega))⟩

theorem inv_runs {c : Nat} {s s' : Sys} {as : List Act} (h : Runs c s as s') (hi : Inv s) : Inv s' := by
  induction h with
  | nil => exact hi
  | cons hr ha _ ih => exact ih (inv_act hi hr ha)

theorem inv_start (now x : Nat) : Inv (start now x) := ⟨⟨List.nodup_nil, nofun⟩, nofun⟩

theorem Reach.inv {c : Nat} {s : Sys} (h : Reach c s) : Inv s := by
  obtain ⟨now, x, as, h⟩ := h
  exact inv_runs h (inv_start now x)

/-- Time does not go back, and timer X2030 is changed only by configuration. -/
theorem clock_act {c : Nat} {s s' : Sys} {a : Act} (hi : Inv s) (hr : Real s a) (h : act c s a = some s') :
    s.k.now ≤ s'.k.now ∧ ((∀ v, a ≠ .conf v) → s'.k.x2030 = s.k.x2030) := by
  have other (h1 : ∀ d, a ≠ .time d) (h2 : ∀ v, a ≠ .conf v) : s.k.now ≤ s'.k.now ∧ ((∀ v, a ≠ .conf v) → s'.k.x2030 = s.k.x2030) := by
    rw [(act_view hi hr h h1 h2).1]; exact ⟨Nat.le_refl _, fun _ => rfl⟩
  cases a with
  | time d => cases h; exact ⟨Nat.le_add_right _ _, fun _ => rfl⟩
  | conf v => cases h; exact ⟨Nat.le_refl _, fun h => absurd rfl (h v)⟩
  | op o => exact other nofun nofun
  | serve i ul dl att => exact other nofun nofun
  | final i att => exact other nofun nofun
  | reject => exact other nofun nofun

theorem clock_runs {c : Nat} {s s' : Sys} {as : List Act} (h : Runs c s as s') : Inv s → s.k.now ≤ s'.k.now := by
  induction h with
  | nil => exact fun _ => Nat.le_refl _
  | cons hr ha _ ih => exact fun hi => Nat.le_trans (clock_act hi hr ha).1 (ih (inv_act hi hr ha))

/-! ### In use -/

/-- C80, in use: a mobile with a TBF keeps its record whatever happens - requests, PDUs, reports, time
- unless one of its TBFs is given up or another mobile claims its identity; and it still has a TBF. -/
theorem C80_used (c : Nat) (s s' : Sys) (h : Reach c s) (a : Act) (hr : Real s a) (ha : act c s a = some s')
    (i : Nat) (m : Mob) (hg : get? s.st i = some m) (hb : m.busy) (hf : ¬ Frees i a) (hc : ¬ Claimed s.st i m a) :
    ∃ m', get? s'.st i = some m' ∧ m'.busy := by
  have hi := h.inv
  obtain ⟨f1, f2, f3⟩ := hi.fine i m hg
  have hu := (busy_iff m f1).1 hb
  by_cases ht : ∃ d, a = .time d
  · obtain ⟨d, rfl⟩ := ht
    cases ha
    refine ⟨m, ?_, hb⟩
    show get? (expire _ _) i = _
    rw [get_expire hi.ids, hg, Option.filter_some_pos]
    rw [f3 hu]
  by_cases hv : ∃ v, a = .conf v
  · obtain ⟨v, rfl⟩ := hv
    cases ha
    exact ⟨m, hg, hb⟩
  obtain ⟨-, v⟩ := act_view hi hr ha (fun d e => ht ⟨d, e⟩) fun x e => hv ⟨x, e⟩
  have ch := v.old i m hg
  generalize get? s'.st i = r at ch
  cases ch with
  | same m' h1 h2 => exact ⟨m', rfl, (busy_iff m' (h1.refs.trans f1)).2 (by rw [h1.users]; exact hu)⟩
  | busy m' h1 h2 h3 h4 => exact ⟨m', rfl, (busy_iff m' h1).2 h2⟩
  | idle m' h1 => rcases h1 with h1 | ⟨h1, -⟩ <;> contradiction
  | gone h1 => rcases h1 with h1 | ⟨h1, -⟩ <;> contradiction
  | lost _ h1 => exact absurd h1 hc

/-! ### Kept -/

/-- A record that is kept at least until `e`. -/
def KeptTo (e : Nat) (m : Mob) : Prop := m.named ∧ (m.users = 0 → ∃ d, m.releasing = some d ∧ e ≤ d)

theorem kept_runs {c : Nat} {s s' : Sys} {as : List Act} (h : Runs c s as s') : ∀ {T X i : Nat} {m : Mob}, Inv s → get? s.st i = some m →
    KeptTo (T + X) m → T ≤ s.k.now → X ≤ s.k.x2030 → X ≠ 0 → (∀ v, .conf v ∈ as → X ≤ v) → Undisputed c i s as →
    s'.k.now < T + X → ∃ m', get? s'.st i = some m' := by
  induction h with
  | nil => intro T X i m _ hg _ _ _ _ _ _ _; exact ⟨m, hg⟩
  | @cons s s1 s' a as hr ha hrs ih =>
    intro T X i m hi hg hk hT hX h0 hv hu hend
    have hi1 := inv_act hi hr ha
    have hnow := clock_act hi hr ha
    have hlt1 : s1.k.now < T + X := Nat.lt_of_le_of_lt (clock_runs hrs hi1) hend
    have hX1 : X ≤ s1.k.x2030 := by
      by_cases hc : ∃ v, a = .conf v
      · obtain ⟨v, rfl⟩ := hc
        cases ha
        exact hv v (List.mem_cons_self ..)
      · rw [hnow.2 fun v e => hc ⟨v, e⟩]; exact hX
    have hu1 : Undisputed c i s1 as := by
      intro pre b post s2 m2 e h1 h2
      exact hu (a :: pre) b post s2 m2 (by rw [e]; rfl) (.cons hr ha h1) h2
    have hnc : ¬ Claimed s.st i m a := hu [] a as s m rfl (.nil s) hg
    have next : ∀ m1, get? s1.st i = some m1 → KeptTo (T + X) m1 → ∃ m', get? s'.st i = some m' := fun m1 hg1 hk1 =>
      ih hi1 hg1 hk1 (Nat.le_trans hT hnow.1) hX1 h0 (fun v hm => hv v (List.mem_cons_of_mem _ hm)) hu1 hend
    obtain ⟨f1, f2, f3⟩ := hi.fine i m hg
    by_cases ht : ∃ d, a = .time d
    · obtain ⟨d, rfl⟩ := ht
      cases ha
      refine next m ?_ hk
      show get? (expire _ _) i = _
      rw [get_expire hi.ids, hg, Option.filter_some_pos]
      by_cases hz : m.users = 0
      · obtain ⟨e, he, hle⟩ := hk.2 hz
        rw [he]
        have : s.k.now + d < T + X := hlt1
        exact decide_eq_true (by omega)
      · rw [f3 hz]
    by_cases hc : ∃ v, a = .conf v
    · obtain ⟨v, rfl⟩ := hc
      cases ha
      exact next m hg hk
    obtain ⟨hkk, v⟩ := act_view hi hr ha (fun d e => ht ⟨d, e⟩) fun x e => hc ⟨x, e⟩
    have ch := v.old i m hg
    cases hr1 : get? s1.st i with
    | none =>
      exfalso
      rw [hr1] at ch
      cases ch with
      | gone h1 h2 =>
        rcases h2 with h2 | h2
        · omega
        · exact h2 hk.1
      | lost _ h1 => exact hnc h1
    | some m1 =>
      rw [hr1] at ch
      refine next m1 hr1 ?_
      cases ch with
      | same _ h1 h2 => exact ⟨(h2 hk.1).resolve_right hnc, by rw [h1.users, h1.rel]; exact hk.2⟩
      | busy _ h1 h2 h3 h4 => exact ⟨(h4 hk.1).resolve_right hnc, fun e => absurd e h2⟩
      | idle _ h1 h2 h3 h4 h5 h6 => exact ⟨h6 hk.1, fun _ => ⟨_, h5, by omega⟩⟩
      | lost _ h1 => exact absurd h1 hnc

/-- C80, kept: a mobile that has a TBF and a TLLI at some time keeps its record for the time of timer
X2030 at least, whatever happens in the meantime, if the timer is not set to less and nobody claims
its identity. -/
theorem C80_kept (c : Nat) (s s' : Sys) (h : Reach c s) (i : Nat) (m : Mob) (hg : get? s.st i = some m) (hb : m.busy) (hn : m.named)
    (as : List Act) (hr : Runs c s as s') (hv : ∀ v, .conf v ∈ as → s.k.x2030 ≤ v) (hu : Undisputed c i s as)
    (ht : s'.k.now < s.k.now + s.k.x2030) : ∃ m', get? s'.st i = some m' := by
  by_cases h0 : s.k.x2030 = 0
  · exfalso
    have := clock_runs hr h.inv
    omega
  · have hu0 := (busy_iff m (h.inv.fine i m hg).1).1 hb
    exact kept_runs hr h.inv hg ⟨hn, fun e => absurd e hu0⟩ (Nat.le_refl _) (Nat.le_refl _) h0 hv hu ht

/-! ### Discarded -/

/-- All timers that run end within `X`. -/
def Within (X : Nat) (s : Sys) : Prop :=
  s.k.x2030 ≤ X ∧ ∀ i m d, get? s.st i = some m → m.releasing = some d → d ≤ s.k.now + X

theorem within_act {c X : Nat} {s s' : Sys} {a : Act} (hi : Inv s) (hw : Within X s) (hr : Real s a) (h : act c s a = some s')
    (hv : ∀ v, a = .conf v → v ≤ X) : Within X s' := by
  have hc := clock_act hi hr h
  by_cases ht : ∃ d, a = .time d
  · obtain ⟨d, rfl⟩ := ht
    cases h
    refine ⟨hw.1, fun i m e hm he => ?_⟩
    rw [get_expire hi.ids, Option.filter_eq_some_iff] at hm
    have := hw.2 i m e hm.1 he
    show e ≤ s.k.now + d + X
    omega
  by_cases hcv : ∃ v, a = .conf v
  · obtain ⟨v, rfl⟩ := hcv
    cases h
    exact ⟨hv v rfl, hw.2⟩
  obtain ⟨hk, v⟩ := act_view hi hr h (fun d e => ht ⟨d, e⟩) fun x e => hcv ⟨x, e⟩
  refine ⟨by rw [hk]; exact hw.1, fun i m' e hm' he => ?_⟩
  rw [hk]
  have hx := hw.1
  cases hg : get? s.st i with
  | none =>
    obtain ⟨-, -, h1, h2⟩ := v.new i m' hg hm'
    rcases h2 with ⟨h2, h3⟩ | ⟨h2, h3, h4⟩
    · rw [h3] at he; cases he
    · rw [h4] at he; cases he; omega
  | some m =>
    have ch := v.old i m hg
    rw [hm'] at ch
    cases ch with
    | same _ h1 h2 => exact hw.2 i m e hg (h1.rel ▸ he)
    | busy _ h1 h2 h3 h4 => rw [h3] at he; cases he
    | idle _ h1 h2 h3 h4 h5 h6 => rw [h5] at he; cases he; omega
    | lost _ h1 h2 => exact hw.2 i m e hg ((h2 m' rfl).2.2.2 ▸ he)

theorem within_runs {c X : Nat} {s s' : Sys} {as : List Act} (h : Runs c s as s') : Inv s → Within X s → (∀ v, .conf v ∈ as → v ≤ X) → Within X s' := by
  induction h with
  | nil => exact fun _ h _ => h
  | cons hr ha _ ih =>
    intro hi hw hv
    refine ih (inv_act hi hr ha) (within_act hi hw hr ha fun v e => hv v (by rw [e]; exact List.mem_cons_self ..)) fun v hm => hv v (List.mem_cons_of_mem _ hm)

/-- A record with number below the next one that is gone does not come back. -/
theorem stays_gone {c : Nat} {s s' : Sys} {as : List Act} (h : Runs c s as s') : ∀ {i : Nat}, Inv s → i < s.st.next → get? s.st i = none → get? s'.st i = none := by
  induction h with
  | nil => exact fun _ _ h => h
  | @cons s s1 s' a as hr ha hrs ih =>
    intro i hi hlt hg
    have h1 : i < s1.st.next ∧ get? s1.st i = none := by
      by_cases ht : ∃ d, a = .time d
      · obtain ⟨d, rfl⟩ := ht
        cases ha
        refine ⟨hlt, ?_⟩
        show get? (expire _ _) i = none
        rw [get_expire hi.ids, hg]; rfl
      by_cases hcv : ∃ v, a = .conf v
      · obtain ⟨v, rfl⟩ := hcv
        cases ha
        exact ⟨hlt, hg⟩
      obtain ⟨hk, v⟩ := act_view hi hr ha (fun d e => ht ⟨d, e⟩) fun x e => hcv ⟨x, e⟩
      refine ⟨Nat.lt_of_lt_of_le hlt v.next, ?_⟩
      cases hg1 : get? s1.st i with
      | none => rfl
      | some m' => have := (v.new i m' hg hg1).1; omega
    exact ih (inv_act hi hr ha) h1.1 h1.2

theorem gone_runs {c : Nat} {s s' : Sys} {as : List Act} (h : Runs c s as s') : ∀ {i e : Nat} {m : Mob}, Inv s → get? s.st i = some m →
    (∀ d, m.releasing = some d → d ≤ e) → Unused c i s as → e ≤ s'.k.now → ∀ m', get? s'.st i = some m' → m'.busy := by
  induction h with
  | nil s =>
    intro i e m hi hg hd _ he m' hm'
    rw [hg] at hm'; cases hm'
    obtain ⟨f1, f2, -⟩ := hi.fine i m hg
    refine (busy_iff m f1).2 fun hz => ?_
    obtain ⟨d, h1, h2⟩ := f2 hz
    have := hd d h1
    omega
  | @cons s s1 s' a as hr ha hrs ih =>
    intro i e m hi hg hd hu he m' hm'
    have hi1 := inv_act hi hr ha
    obtain ⟨hnb, hna⟩ := hu [] a as s m rfl (.nil s) hg
    have hu1 : Unused c i s1 as := by
      intro pre b post s2 m2 e h1 h2
      exact hu (a :: pre) b post s2 m2 (by rw [e]; rfl) (.cons hr ha h1) h2
    have hlt := get_lt hi.ids hg
    obtain ⟨f1, f2, f3⟩ := hi.fine i m hg
    have hz : m.users = 0 := Decidable.byContradiction fun h => hnb ((busy_iff m f1).2 h)
    cases hg1 : get? s1.st i with
    | none =>
      have : i < s1.st.next := by
        by_cases ht : ∃ d, a = .time d
        · obtain ⟨d, rfl⟩ := ht; cases ha; exact hlt
        by_cases hcv : ∃ v, a = .conf v
        · obtain ⟨v, rfl⟩ := hcv; cases ha; exact hlt
        exact Nat.lt_of_lt_of_le hlt (act_view hi hr ha (fun d e => ht ⟨d, e⟩) fun x e => hcv ⟨x, e⟩).2.next
      rw [stays_gone hrs hi1 this hg1] at hm'; cases hm'
    | some m1 =>
      -- the record is as before, or it has got a TBF
      have key : m1.busy ∨ m1.releasing = m.releasing := by
        by_cases ht : ∃ d, a = .time d
        · obtain ⟨d, rfl⟩ := ht
          cases ha
          have hg1 : get? (expire (s.k.now + d) s.st) i = some m1 := hg1
          rw [get_expire hi.ids, Option.filter_eq_some_iff, hg] at hg1
          cases hg1.1
          exact .inr rfl
        by_cases hcv : ∃ v, a = .conf v
        · obtain ⟨v, rfl⟩ := hcv
          cases ha
          rw [show get? s.st i = some m1 from hg1] at hg
          cases hg
          exact .inr rfl
        have ch := (act_view hi hr ha (fun d e => ht ⟨d, e⟩) fun x e => hcv ⟨x, e⟩).2.old i m hg
        rw [hg1] at ch
        cases ch with
        | same _ h1 h2 => exact .inr h1.rel
        | busy _ h1 h2 h3 h4 => exact .inl ((busy_iff m1 h1).2 h2)
        | idle _ h1 =>
          exfalso
          rcases h1 with h1 | ⟨-, h1⟩
          · -- nothing can be freed
            apply hnb
            cases a with
            | op o =>
              cases o <;> simp only [Frees] at h1
              case freeUl j => subst h1; obtain ⟨m0, h2, h3⟩ := hr; rw [hg] at h2; cases h2; exact .inl h3
              case freeDl j => subst h1; obtain ⟨m0, h2, h3⟩ := hr; rw [hg] at h2; cases h2; exact .inr (.inl h3)
              case freeOld j n =>
                subst h1; obtain ⟨m0, h2, h3⟩ := hr; rw [hg] at h2; cases h2
                exact .inr (.inr fun e => by rw [e] at h3; cases h3)
            | serve j ul dl att => exact absurd h1.1 hna
            | final j att =>
              have h1 : j = i := h1
              subst h1; obtain ⟨m0, h2, h3⟩ := hr; rw [hg] at h2; cases h2; exact .inl h3
            | reject => exact h1.elim
            | time d => exact h1.elim
            | conf v => exact h1.elim
          · exact hna h1
        | lost _ h1 h2 => exact absurd (h2 m1 rfl).2.1 (by have := (h2 m1 rfl).2.2.1; omega)
      rcases key with hb | hrel
      · cases as with
        | nil =>
          cases hrs
          rw [hg1] at hm'; cases hm'
          exact hb
        | cons b as => exact absurd hb (hu1 [] b as s1 m1 rfl (.nil s1) hg1).1
      · exact ih hi1 hg1 (by rw [hrel]; exact hd) hu1 he m' hm'

/-- C80, discarded: if timer X2030 has never been set to more than `X`, the record of a mobile that has
no TBF and requests none is gone after `X` seconds at the latest, for all that is sent to it or
reported by it in the meantime. -/
theorem C80_gone (c t0 x0 X : Nat) (s s' : Sys) (as0 as : List Act) (h0 : Runs c (start t0 x0) as0 s) (hx : x0 ≤ X)
    (hv : ∀ v, .conf v ∈ as0 → v ≤ X) (hr : Runs c s as s') (i : Nat) (m : Mob) (hg : get? s.st i = some m)
    (hu : Unused c i s as) (ht : s.k.now + X ≤ s'.k.now) : ∀ m', get? s'.st i = some m' → m'.busy := by
  have hw : Within X s := within_runs h0 (inv_start _ _) ⟨hx, nofun⟩ hv
  have hi : Inv s := inv_runs h0 (inv_start _ _)
  exact gone_runs hr hi hg (fun d hd => hw.2 i m d hg hd) hu ht

/-! ### No use of a discarded record -/

theorem merge_none {k : Clock} {s : St} {i o : Nat} {m om : Mob} (hne : o ≠ i) (h1 : get? s i = some m) (h2 : get? s o = some om)
    (h : merge k s i o = none) : true ∈ om.old := by
  have := C43_terminates_partial k s i o m om hne h1 h2
  rw [h] at this
  simp only [Option.isSome_none, Bool.false_eq_true, false_iff] at this
  refine Decidable.byContradiction fun hn => this fun x hx => ?_
  cases x with
  | false => rfl
  | true => exact absurd hx hn

theorem dlHandle_none {k : Clock} {c : Nat} {s : St} {p : Pdu} (hid : Ids s) (h : dlHandle k c s p = none) :
    ∃ i m, get? s i = some m ∧ true ∈ m.old := by
  have getOf : ∀ j, getMs s p.tlli p.old (p.imsi.getD []) = some j → ∃ m, get? s j = some m := by
    intro j hj
    rcases @getMs_cases s p.tlli p.old (p.imsi.getD []) with ⟨i, m, h1, h2, -⟩ | ⟨-, ⟨i, m, h1, h2, -⟩ | ⟨h1, -⟩⟩
    · rw [hj] at h1; cases h1; exact ⟨m, get_of_mem hid.1 h2⟩
    · rw [hj] at h1; cases h1; exact ⟨m, get_of_mem hid.1 h2⟩
    · rw [hj] at h1; cases h1
  unfold dlHandle at h
  split at h
  · -- the first merge
    rename_i hf
    unfold findMs at hf
    split at hf
    · rename_i j hj
      obtain ⟨mj, hmj⟩ := getOf j hj
      rw [hmj] at hf
      split at hf
      · rename_i m imsi e1 e2
        cases e1
        split at hf
        · split at hf
          · rename_i o ho
            split at hf
            · rename_i hoj
              obtain ⟨-, mo, hmo, -⟩ := byImsi_get hid ho
              refine ⟨o, mo, hmo, merge_none (k := k) hoj hmj hmo ?_⟩
              cases hm : merge k s j o with
              | none => rfl
              | some _ => rw [hm] at hf; cases hf
            · cases hf
          · cases hf
        · cases hf
      · cases hf
    · cases hf
  · rename_i s1 j new hf
    split at h
    · rename_i hs
      cases him : p.imsi with
      | none => rw [him] at hs; cases hs
      | some im =>
        rw [him] at hs
        dsimp only at hs
        -- the mobile is there, and if others are to be merged, the list is as it was
        have key : ∃ m1, get? s1 j = some m1 ∧ (m1.imsi = im ∨
            ((∀ i, i ≠ j → get? s1 i = get? s i) ∧ Ids s1)) := by
          unfold findMs at hf
          split at hf
          · rename_i j' hj
            obtain ⟨mj, hmj⟩ := getOf j' hj
            rw [hmj, him] at hf
            dsimp only at hf
            have plain : some (s, j', false) = some (s1, j, new) → ∃ m1, get? s1 j = some m1 ∧ (m1.imsi = im ∨
                ((∀ i, i ≠ j → get? s1 i = get? s i) ∧ Ids s1)) := by
              intro e; cases e
              exact ⟨mj, hmj, .inr ⟨fun _ _ => rfl, hid⟩⟩
            split at hf
            · rename_i hnil
              split at hf
              · rename_i o ho
                split at hf
                · cases hm : merge k s j' o with
                  | none => rw [hm] at hf; cases hf
                  | some s2 =>
                    rw [hm] at hf
                    cases hf
                    obtain ⟨hine, mo, hmo, hmi⟩ := byImsi_get hid ho
                    obtain ⟨hne, m, om, om', e1, e2, e3, rfl⟩ := merge_eq hm
                    rw [hmo] at e2; cases e2
                    rw [hmj] at e1; cases e1
                    refine ⟨_, by rw [get_checkIdle, if_neg (Ne.symm hne), get_modify, if_neg (Ne.symm hne), get_modify, if_pos rfl, hmj]; rfl, .inl ?_⟩
                    show (if mj.imsi = [] ∧ mo.imsi ≠ [] then mo.imsi else mj.imsi) = im
                    rw [if_pos ⟨hnil, by rw [hmi]; exact hine⟩, hmi]
                · exact plain hf
              · exact plain hf
            · exact plain hf
          · cases hf
            refine ⟨_, (get_alloc s c 1 s.next).trans (if_pos rfl), .inr ⟨fun i hi => ?_, ids_alloc hid c 1⟩⟩
            rw [get_alloc]
            exact if_neg hi
        obtain ⟨m1, hm1, hk⟩ := key
        unfold setImsi at hs
        split at hs
        · cases hs
        · rw [hm1] at hs
          dsimp only at hs
          split at hs
          · cases hs
          · rename_i hne
            rcases hk with hk | ⟨hk, hid1⟩
            · exact absurd hk.symm hne
            · split at hs
              · cases hs
              · rename_i o ho
                obtain ⟨-, mo, hmo, hmi⟩ := byImsi_get hid1 ho
                have hoj : o ≠ j := by
                  rintro rfl
                  rw [hm1] at hmo; cases hmo
                  exact hne hmi.symm
                refine ⟨o, mo, by rw [← hk o hoj, hmo], merge_none (k := k) hoj hm1 hmo ?_⟩
                cases hm : merge k s1 j o with
                | none => rfl
                | some _ => rw [hm] at hs; cases hs
    · cases h

/-- C80, safe: no act uses a record that has been discarded. What can go wrong is only the endless loop
of C43, for which a mobile must have a replaced TBF with a timer pending. -/
theorem C80_safe (c : Nat) (s : Sys) (h : Reach c s) (a : Act) (hr : Real s a) (hn : act c s a = none) :
    ∃ i m, get? s.st i = some m ∧ true ∈ m.old := by
  have hid := h.inv.ids
  cases a with
  | time d => cases hn
  | conf v => cases hn
  | reject => cases hn
  | serve i ul dl att =>
    obtain ⟨m, hm⟩ := hr
    obtain ⟨s4, e, -⟩ := serve_on (k := s.k) hm ul dl att
    simp only [act, e, Option.map_some] at hn
    cases hn
  | final i att =>
    obtain ⟨m, hm, -⟩ := hr
    obtain ⟨s4, e, -⟩ := final_on (k := s.k) hm att
    simp only [act, e, Option.map_some] at hn
    cases hn
  | op o =>
    simp only [act, Option.map_eq_none_iff] at hn
    cases o with
    | pdu p => exact dlHandle_none hid hn
    | announce i t =>
      have hn : announce s.k s.st i t = none := hn
      obtain ⟨m, hm⟩ := hr
      unfold announce at hn
      split at hn
      · cases hn
      · rw [hm] at hn
        dsimp only at hn
        split at hn
        · cases hn
        · rename_i o ho
          split at ho
          · cases ho
          · rename_i hck
            obtain ⟨mo, h1, h2⟩ := byTlli_some ho
            have hgo := get_of_mem hid.1 h1
            have hoi : o ≠ i := by
              rintro rfl
              rw [hm] at hgo; cases hgo
              exact hck h2
            have g1 : get? (modify s.st i (·.setTlli t)) i = some (m.setTlli t) := by rw [get_modify, if_pos rfl, hm]; rfl
            have g2 : get? (modify s.st i (·.setTlli t)) o = some mo := by rw [get_modify, if_neg hoi, hgo]
            exact ⟨o, mo, hgo, merge_none hoi g1 g2 hn⟩
    | resource t att => cases hn
    | meas t => cases hn
    | access => cases hn
    | attachDl i b => cases hn
    | attachUl i b => cases hn
    | freeUl i => cases hn
    | freeDl i => cases hn
    | freeOld i n => cases hn
    | llc i q t => cases hn
    | release i => cases hn

/-! ### Where the code differs -/

/-- Acts one after the other. -/
def acts (c : Nat) (s : Sys) : List Act → Option Sys
  | [] => some s
  | a :: as => (act c s a).bind fun s' => acts c s' as

theorem runs_acts {c : Nat} : ∀ {as : List Act} {s s' : Sys}, acts c s as = some s' →
    (∀ a ∈ as, (∀ i, a ≠ .op (.freeUl i)) ∧ (∀ i, a ≠ .op (.freeDl i)) ∧ (∀ i n, a ≠ .op (.freeOld i n)) ∧ (∀ i, a ≠ .op (.release i)) ∧
      (∀ i t, a ≠ .op (.announce i t)) ∧ (∀ i u d t, a ≠ .serve i u d t) ∧ ∀ i t, a ≠ .final i t) → Runs c s as s'
  | [], s, s', h, _ => by cases h; exact .nil s
  | a :: as, s, s', h, hs => by
    unfold acts at h
    cases ha : act c s a with
    | none => rw [ha] at h; cases h
    | some s1 =>
      rw [ha] at h
      refine .cons ?_ ha (runs_acts h fun b hb => hs b (List.mem_cons_of_mem _ hb))
      obtain ⟨h1, h2, h3, h4, h5, h6, h7⟩ := hs a (List.mem_cons_self ..)
      cases a with
      | op o => cases o with
        | freeUl i => exact absurd rfl (h1 i)
        | freeDl i => exact absurd rfl (h2 i)
        | freeOld i n => exact absurd rfl (h3 i n)
        | release i => exact absurd rfl (h4 i)
        | announce i t => exact absurd rfl (h5 i t)
        | _ => trivial
      | serve i u d t => exact absurd rfl (h6 i u d t)
      | final i t => exact absurd rfl (h7 i t)
      | _ => trivial

/-- A mobile reports measurements at 0 s; at 59 s a frame with unlimited lifetime comes for it and no
TBF can be started. -/
def demo : List Act := [.op (.meas 0xc0001234), .time 59, .op (.pdu { tlli := 0xc0001234, data := [3, 7], now := 59, expire := 0 })]

/-- A frame that waits for a TBF does not stop the timer: the frame, though its lifetime is not over,
is discarded with the record one second after it has come. -/
theorem C80_fails_frames : ∃ s s', Runs 0 (start 0 60) demo s ∧ act 0 s (.time 1) = some s' ∧
    (∃ m f, get? s.st 0 = some m ∧ f ∈ m.q.pq 2 ∧ f.data = [3, 7] ∧ f.recv = 59 ∧ f.expire = 0) ∧ get? s'.st 0 = none ∧ byTlli s'.st 0xc0001234 = none := by
  refine ⟨_, _, runs_acts (c := 0) (as := demo) rfl ?_, rfl, ⟨_, ⟨[3, 7], 59, 0⟩, rfl, ?_, rfl, rfl, rfl⟩, rfl, rfl⟩
  · intro a ha
    simp only [demo, List.mem_cons, List.not_mem_nil, or_false] at ha
    rcases ha with rfl | rfl | rfl <;> exact ⟨nofun, nofun, nofun, nofun, nofun, nofun, nofun⟩
  · decide +kernel

/-- A report does not stop the timer either: a mobile that has reported a second ago is not known any
more, while a request for resources that is rejected gives it the whole time again. -/
theorem C80_fails_heard : (∃ s, Runs 0 (start 0 60) [.op (.meas 0xc0001234), .time 59, .op (.meas 0xc0001234), .time 1] s ∧ byTlli s.st 0xc0001234 = none) ∧
    ∃ s, Runs 0 (start 0 60) [.op (.meas 0xc0001234), .time 59, .op (.resource 0xc0001234 none), .time 59] s ∧ byTlli s.st 0xc0001234 = some 0 := by
  refine ⟨⟨_, runs_acts (c := 0) (as := [.op (.meas 0xc0001234), .time 59, .op (.meas 0xc0001234), .time 1]) rfl ?_, rfl⟩,
    ⟨_, runs_acts (c := 0) (as := [.op (.meas 0xc0001234), .time 59, .op (.resource 0xc0001234 none), .time 59]) rfl ?_, by decide +kernel⟩⟩
  · intro a ha
    simp only [List.mem_cons, List.not_mem_nil, or_false] at ha
    rcases ha with rfl | rfl | rfl | rfl <;> exact ⟨nofun, nofun, nofun, nofun, nofun, nofun, nofun⟩
  · intro a ha
    simp only [List.mem_cons, List.not_mem_nil, or_false] at ha
    rcases ha with rfl | rfl | rfl | rfl <;> exact ⟨nofun, nofun, nofun, nofun, nofun, nofun, nofun⟩

/-! Instances: a mobile with TLLI and uplink TBF, whose TBF ends; it is kept 60 s. -/

def withTbf : List Act := [.op (.resource 0xc0001234 (some true)), .time 100]

example : ∃ s m s1 s2 s3, Runs 0 (start 0 60) withTbf s ∧ get? s.st 0 = some m ∧ m.busy ∧ m.named ∧ Real s (.final 0 none) ∧
    act 0 s (.final 0 none) = some s1 ∧ act 0 s1 (.time 59) = some s2 ∧ byTlli s2.st 0xc0001234 = some 0 ∧
    act 0 s1 (.time 60) = some s3 ∧ byTlli s3.st 0xc0001234 = none := by
  refine ⟨_, _, _, _, _, runs_acts (c := 0) (as := withTbf) rfl ?_, rfl, .inl rfl, .inr (.inl ?_), ⟨_, rfl, rfl⟩, rfl, rfl, ?_, rfl, rfl⟩
  · intro a ha
    simp only [withTbf, List.mem_cons, List.not_mem_nil, or_false] at ha
    rcases ha with rfl | rfl <;> exact ⟨nofun, nofun, nofun, nofun, nofun, nofun, nofun⟩
  · decide
  · decide +kernel

/-- With timer X2030 set to 0 the record goes with the TBF, after the last use of it. -/
example : ∃ s s1, Runs 0 (start 0 0) withTbf s ∧ act 0 s (.final 0 none) = some s1 ∧ (get? s.st 0).isSome = true ∧ (get? s1.st 0).isNone = true ∧
    ∃ s2, act 0 s (.serve 0 true true (some true)) = some s2 ∧ (get? s2.st 0).isSome = true := by
  refine ⟨_, _, runs_acts (c := 0) (as := withTbf) rfl ?_, rfl, rfl, rfl, _, rfl, rfl⟩
  intro a ha
  simp only [withTbf, List.mem_cons, List.not_mem_nil, or_false] at ha
  rcases ha with rfl | rfl <;> exact ⟨nofun, nofun, nofun, nofun, nofun, nofun, nofun⟩

end Verif.Store
