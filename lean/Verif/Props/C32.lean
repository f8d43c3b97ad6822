import Verif.Props.C29
/-!
# C32: Blocks whose USF is for a mobile that only reads GMSK
-/

namespace Verif.Sched

open Verif.Cs

/-- The block that TBF `t` sends next if GMSK is asked for: a new one (with data or a dummy frame),
or one that is repeated with resegmentation enabled (ARQ type I) and was not sent with MCS-8 the
first time. -/
def GmskNext (c : Cfg) (t : DlT) : Prop :=
  ∀ x, dataCs c .egprsGmsk t = some x → x.why = .fresh ∨ x.why = .dummy ∨ (x.why = .resend ∧ c.arq1 = true ∧ x.ini ≠ .mcs8)

theorem getRetx_gmsk : ∀ ini tx x : CS, (tx = .mcs1 ∨ tx = .mcs2 ∨ tx = .mcs3 ∨ tx = .mcs4) → ini ≠ .mcs8 →
    getRetx ini tx true = some x → (x = .mcs1 ∨ x = .mcs2 ∨ x = .mcs3 ∨ x = .mcs4) := by
  intro ini tx x h hi hx
  rcases h with rfl | rfl | rfl | rfl <;> cases ini <;> first
    | exact absurd rfl hi
    | (revert hx; cases x <;> decide)

theorem dataCs_gmsk {c : Cfg} {t : DlT} {x : Chosen} (hm : t.ms.curDl ≠ .unknown) (he : t.egprs = true)
    (h : dataCs c .egprsGmsk t = some x) (hn : GmskNext c t) : isCs14 x.cs ∨ isMcs14 x.cs := by
  have hw := hn x h
  unfold dataCs at h
  rw [he] at h
  simp only [if_true] at h
  cases hc : Ms.currentCsDl c.cell t.ms .egprsGmsk t.few with
  | none => rw [hc] at h; cases h
  | some tx =>
    rw [hc] at h
    simp only [Option.bind_some] at h
    have htx := currentCsDl_gmsk hm hc
    split at h
    · cases hr : retxCs c true (t.blk _) tx with
      | none => rw [hr] at h; cases h
      | some y =>
        rw [hr] at h
        simp only [Option.map_some, Option.some.injEq] at h
        subst h
        dsimp only at hw ⊢
        rcases hw with hw | hw | ⟨_, ha, hi⟩
        · cases hw
        · cases hw
        · unfold retxCs at hr
          simp only [if_true] at hr
          rw [ha] at hr
          cases hg : getRetx (t.blk _).ini tx true with
          | none => rw [hg] at hr; cases hr
          | some z =>
            rw [hg] at hr
            simp only [Option.map_some, Option.some.injEq] at hr
            rw [if_neg hi] at hr
            subst hr
            rcases htx with htx | htx
            · exfalso
              generalize (t.blk _).ini = b at hg
              rcases htx with rfl | rfl | rfl | rfl <;> cases b <;> exact absurd hg (by decide +revert)
            · exact .inr (getRetx_gmsk _ _ _ htx hi hg)
    · cases h; exact htx
    · cases h; exact htx
    · cases h
      rcases hw with hw | hw | hw
      · cases hw
      · cases hw
      · cases hw.1
    · cases h

/-- C32. Partial: the property is claimed for all requests; it is proved for those at which each
EGPRS TBF of the PDCH next sends a new block, or repeats one under ARQ type I that was not sent
with MCS-8 the first time. Then a block whose USF is for a mobile that is not in EGPRS mode is
coded with CS-1..4 or MCS-1..4. -/
theorem C32_gmsk_partial (c : Cfg) (s s1 : St) (tr : List (St × Env × Out)) (h : Trace c {} tr s) (e : Env) (o : Out)
    (hr : rts c e s = some (s1, o)) (hg : GprsSane e) (hn : ∀ i t, e.dl i = some t → t.egprs = true → GmskNext c t)
    (u : UlT) (hu : o.usfTbf = some u) (hmode : u.mode ≠ .egprs) : o.blk.gmsk := by
  have hreq := reqOf_eq hr
  obtain ⟨b, hb, rfl, rfl⟩ := rts_some hr
  dsimp only at hu ⊢
  have hok := h.ok init_ok
  rcases selBlock_some hb with ⟨m, _, h3, _⟩ | ⟨tfi, t, x, _, h2, h3, h4, _⟩ | ⟨_, _, h3, _⟩
  · rw [h3]; trivial
  · rw [h4]
    show isCs14 _ ∨ isMcs14 _
    have hk := selDl_some hok.dl h2
    cases he : t.egprs with
    | false => exact .inl (radioCs_gprs _ (dataCs_gprs hg hk.1 hk.2.2.1 he h3))
    | true =>
      have hm := (hg tfi hk.1 t hk.2.2.1).2
      have hkind : reqKind s.gprsOnly (selUsf e s s.gprsOnly).usf = .egprsGmsk ∨
          reqKind s.gprsOnly (selUsf e s s.gprsOnly).usf = .gprs := by
        unfold reqKind
        rw [hu]
        cases s.gprsOnly with
        | true => exact .inr rfl
        | false => left; simp [hmode]
      rcases hkind with hkind | hkind
      · rw [hkind] at h3
        exact radioCs_gmsk _ (dataCs_gmsk hm he h3 (hn tfi t hk.2.2.1 he))
      · exfalso
        rw [hkind] at hk
        obtain ⟨p, hp, _⟩ := dlRank_pos hk.2.2.1 hk.2.2.2.1
        have := dlPrio_gprs hp
        rw [he] at this
        cases this
  · rw [h3]
    unfold idleBlock
    split <;> trivial

/-! ### Where the code differs -/

/-- A window with one block, which was reported as not received. -/
def exWin32 : RlcDl.Win := ((RlcDl.Win.init 2048 64).createNew.1).markFirstSegment 0
/-- The same, the block being acknowledged (window empty again). -/
def exAcked32 : RlcDl.Win := { (RlcDl.Win.init 2048 64).createNew.1 with va := 1 }

def exDl32 (w : RlcDl.Win) (cs : CS) (fin : Bool) : DlT :=
  { id := 1, st := if fin then .finished else .flow, egprs := true, ctrlTs := true, ackLost := false, txCounter := 0, ackRequested := true, lastPoll := none, lastDrained := none, haveData := false, w := w, blk := fun _ => ⟨cs, cs, cs⟩, ms := { mode := .egprs, curUl := .mcs1, curDl := .mcs9 }, few := false }
def exUl32 : UlT := { id := 7, st := .flow, egprs := false, usf := some 3, mode := .gprs }
def exEnv32 (t : DlT) : Env :=
  { fn := 0, block := 0, ul := fun i => if i = 4 then some exUl32 else none, dl := fun i => if i = 2 then some t else none, poll := fun _ => none, trxUl := [], trxDl := [], can := fun _ _ => true, paging := false, c0 := true, single := true }
def exCell32 : Ms.Cell := { maxMcsDl := 9, maxCsDl := 4 }
def exCfg32 (arq1 : Bool) : Cfg := { exCfg29 with arq1, cell := exCell32 }

/-- A block that was first sent with MCS-8 is repeated with MCS-8, while the USF is for a GPRS
mobile. -/
theorem C32_mcs8_repeated : ∃ s1 o, rts (exCfg32 true) (exEnv32 (exDl32 exWin32 .mcs8 false)) {} = some (s1, o) ∧
    o.usfTbf = some exUl32 ∧ o.usf = 3 ∧ o.blk = .data 2 true .mcs8 := ⟨_, _, rfl, by decide +kernel, by decide +kernel, by decide +kernel⟩

/-- Under ARQ type II a block of MCS-9 is repeated with 8-PSK. -/
theorem C32_arq2_repeated : ∃ s1 o, rts (exCfg32 false) (exEnv32 (exDl32 exWin32 .mcs9 false)) {} = some (s1, o) ∧
    o.usfTbf = some exUl32 ∧ o.usf = 3 ∧ o.blk = .data 2 true .mcs6 := ⟨_, _, rfl, by decide +kernel, by decide +kernel, by decide +kernel⟩

/-- The final block is repeated in the scheme in which it was sent before. -/
theorem C32_final_repeated : ∃ s1 o, rts (exCfg32 true) (exEnv32 (exDl32 exAcked32 .mcs9 true)) {} = some (s1, o) ∧
    o.usfTbf = some exUl32 ∧ o.usf = 3 ∧ o.blk = .data 2 true .mcs6 := ⟨_, _, rfl, by decide +kernel, by decide +kernel, by decide +kernel⟩

/-! Instance: under ARQ type I, a block of MCS-9 is repeated with MCS-3. -/

example : ∃ s1 o, rts (exCfg32 true) (exEnv32 (exDl32 exWin32 .mcs9 false)) {} = some (s1, o) ∧
    o.usfTbf = some exUl32 ∧ o.blk = .data 2 true .mcs3 := ⟨_, _, rfl, by decide +kernel, by decide +kernel⟩

end Verif.Sched
