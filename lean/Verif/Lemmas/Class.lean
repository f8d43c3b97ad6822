import Verif.Lemmas.WorldOps
import Verif.Spec.MslotClass
/-!
# Slots of a mobile and its multislot class
-/

namespace Verif.Alloc

theorem leastBusy_ul_isSome {trx : Trx} {mask : Nat} {usage : Pdch → Dir → Nat} {s : Nat}
    (hs : s < 8) (hm : mask.testBit s = true) (hf : (findFreeUsf (trx s).usfMap).isSome = true) :
    (leastBusy trx .ul mask usage false).isSome = true := by
  have mono : ∀ (l : List Nat) (b : Option Cand), b.isSome = true →
      (l.foldl (busyStep trx .ul mask usage false) b).isSome = true := by
    intro l b hb
    refine foldl_inv (fun (b : Option Cand) => b.isSome = true) _ _ _ hb ?_
    intro b ts _ hb
    unfold busyStep
    simp only []
    repeat' split
    all_goals first | exact hb | rfl
  unfold leastBusy
  have hmem : s ∈ List.range 8 := List.mem_range.2 hs
  obtain ⟨l1, l2, he⟩ := List.append_of_mem hmem
  rw [he, List.foldl_append, List.foldl_cons]
  apply mono
  generalize List.foldl _ none l1 = b
  unfold busyStep
  obtain ⟨u, hu⟩ := Option.isSome_iff_exists.1 hf
  cases b with
  | none => simp [hm, better, hu]
  | some b => by_cases hlt : usage (trx s) Dir.ul < b.used <;> simp [hm, hlt, better, hu]

theorem FreeUsf.isSome {p : Pdch} (h : FreeUsf p) : (findFreeUsf p.usfMap).isSome = true := by
  obtain ⟨u, h1, h2⟩ := h
  unfold findFreeUsf
  have h127 : ∀ u, u < 7 → (127 : Nat).testBit u = true := by decide
  rw [if_neg (by intro hc; rw [hc, h127 u h1] at h2; cases h2)]
  cases hq : (List.range 7).find? fun i => !p.usfMap.testBit i with
  | some i => simp
  | none =>
    have := List.find?_eq_none.1 hq u (List.mem_range.2 h1)
    simp [h2] at this

/-- Slots selected in the uplink are reserved, unless the broken fallback of the single slot
selection is used. -/
theorem selectSlotSet_ul {trx : Trx} {req : Req} {ul dl : Nat} {f : Option Nat} {sl : Nat}
    (hd : req.dir = .ul) (h8 : ∀ s, ul.testBit s = true → s < 8)
    (hf : req.single = true → f = none → ∀ s, (dl &&& ul).testBit s = true → FreeUsf (trx s))
    (h : selectSlotSet trx req ul dl f = some sl) : sl ≠ 0 ∧ Sub sl ul := by
  unfold selectSlotSet at h
  simp only [] at h
  generalize hk : (if req.single = true then getSingleTs trx req.dir dl ul f
    else if req.dir = Dir.ul then ul else dl) = k at h
  split at h
  · cases h
  · rename_i hz
    simp only [Option.some.injEq] at h
    subst h
    have h := hk
    refine ⟨hz, ?_⟩
    split at h
    · rename_i hsg
      rw [hd] at h
      unfold getSingleTs at h
      simp only [] at h
      split at h
      · rename_i hn
        split at hn
        · cases hn
        · rename_i hfn
          rw [Option.map_eq_none_iff] at hn
          by_cases hr : dl &&& ul = 0
          · rw [hr] at h
            exfalso
            apply hz
            rw [← h]
            decide
          · obtain ⟨s, hs⟩ := exists_testBit hr
            have := leastBusy_ul_isSome (trx := trx) (usage := usageByTbfs)
              (h8 s (sub_and_right _ _ s hs)) hs (hf hsg rfl s hs).isSome
            rw [hn] at this
            cases this
      · subst h
        intro s hs
        exact sub_and_right _ _ s (sub_and_left _ _ s hs)
    · subst h
      exact fun s hs => hs

/-- Limits of a class. -/
def Fits (c : MsClass) (u d : Nat) : Prop :=
  pop u ≤ c.tx ∧ pop d ≤ c.rx ∧ pop u + pop d ≤ c.sum ∧ ClassTimes c u d

/-- What a mobile holds is within `U` and `D`. -/
def Within (ms : Ms) (U D : Nat) : Prop :=
  Sub ms.ul U ∧ Sub ms.dl D ∧ ∀ f, ms.fct = some f → U.testBit f = true ∧ D.testBit f = true

/-- Result of an allocation relative to the sets `U` and `D`. -/
structure ResIn (r : Res) (d : Dir) (U D : Nat) : Prop where
  ul : Sub r.ul U
  dl : Sub r.dl D
  mask : Sub r.mask (if d = .ul then U else D)
  fct : r.ul.testBit r.fct = true ∧ r.dl.testBit r.fct = true ∧ r.mask.testBit r.fct = true

theorem pop_one_shl (s : Nat) : pop (1 <<< s) ≤ 1 := by
  unfold pop
  simp only [testBit_one_shl]
  by_cases hs : s < 8
  · have := countP_upd (List.range 8) List.nodup_range s (List.mem_range.2 hs) (fun i => decide (s = i)) (fun _ => false)
      (by intro j hj; simpa using fun h => hj h.symm)
    have e : List.countP (fun _ => false) (List.range 8) = 0 := by decide
    rw [e] at this
    simp only [decide_true, Bool.toNat_true, Bool.toNat_false] at this
    omega
  · have : List.countP (fun i => decide (s = i)) (List.range 8) = 0 := by
      rw [List.countP_eq_zero]
      intro i hi
      have := List.mem_range.1 hi
      simp; omega
    rw [this]; simp

theorem one_shl_sub {s m : Nat} (h : m.testBit s = true) : Sub (1 <<< s) m := by
  intro j hj
  rw [testBit_one_shl] at hj
  have := of_decide_eq_true hj
  subst this
  exact h

theorem one_times {c : MsClass} {s : Nat} (hc : c ∈ classTable) (hs : s < 8) : ClassTimes c (1 <<< s) (1 <<< s) := by
  intro ht
  obtain ⟨-, h1, h2, h3, h4⟩ := classTable_times c hc ht
  obtain ⟨-, -, -, h5, h6, -⟩ := classTable_ok c hc
  have hb : ∀ i, (1 <<< s).testBit i = true → i = s := by
    intro i hi
    rw [testBit_one_shl] at hi
    exact (of_decide_eq_true hi).symm
  refine ⟨⟨min s (8 - c.tx), by omega, ?_⟩, ⟨min s (8 - c.rx), by omega, ?_⟩, Or.inl ?_⟩
  · intro i hi; rw [hb i hi]; omega
  · intro i hi; rw [hb i hi]; omega
  · intro i j hi hj
    rw [hb i hi, hb j hj]
    omega

theorem algoA_in {bts : Nat → Trx} {ms : Ms} {req : Req} {r : Res} (h : algoA bts ms req = some r) :
    ∃ ts, ts < 8 ∧ r.ul = 1 <<< ts ∧ r.dl = 1 <<< ts ∧ r.mask = 1 <<< ts ∧ r.fct = ts ∧
      (∀ f, ms.fct = some f → ts = f) ∧
      (ms.fct = none → (ms.dl ≠ 0 ∨ ms.ul ≠ 0) → ms.dl.testBit ts = true ∧ ms.ul.testBit ts = true) := by
  unfold algoA at h
  split at h
  · cases h
  · rename_i t ht
    simp only [] at h
    split at h
    · cases h
    · split at h
      · cases h
      · rename_i c hc
        split at h
        · cases h
        · cases h
          obtain ⟨h1, h2, -⟩ := leastBusy_spec hc
          obtain ⟨-, -, h3⟩ := findPossible_spec _ _ _ _ h2
          refine ⟨c.ts, h1, rfl, rfl, rfl, rfl, ?_, ?_⟩
          · intro f hf
            unfold maskA at h3
            rw [hf] at h3
            rw [testBit_one_shl] at h3
            exact (of_decide_eq_true h3).symm
          · intro hn hor
            unfold maskA at h3
            rw [hn] at h3
            simp only [if_pos hor, Nat.testBit_and, Bool.and_eq_true] at h3
            exact h3

theorem algoB_in {bts : Nat → Trx} {dflt : Nat} {ms : Ms} {req : Req} {r : Res} (hm : MsOk bts ms)
    (hq : ReqOk bts ms req) (h : algoB dflt bts ms req = some r) :
    ((ms.ul ≠ 0 ∧ ms.dl ≠ 0) → ResIn r req.dir ms.ul ms.dl) ∧
    ((ms.ul = 0 ∨ ms.dl = 0) → ∃ U D, Fits (getClass dflt ms.cls) U D ∧ ResIn r req.dir U D) := by
  unfold algoB at h
  split at h
  · cases h
  · rename_i t tfi htf
    obtain ⟨-, h2, -, -⟩ := tfiFindFree_spec hm htf
    simp only [] at h
    split at h
    · cases h
    · rename_i rul rdl hres
      obtain ⟨h5, h6, h7⟩ := algoB_res hm h2 hres
      have key : ResIn r req.dir rul rdl := by
        split at h
        · cases h
        · rename_i sl hsl
          split at h
          · rename_i hd
            split at h
            · cases h
            · rename_i hz
              cases h
              obtain ⟨h8, h9⟩ := selectSlotSet_dl hd (fun s hs => (h7 s (Or.inr hs)).1) hsl
              have hf := ffs_spec (m := sl &&& rul) (fun s hs => (h7 s (Or.inl (sub_and_right _ _ s hs))).1) hz
              refine ⟨fun s hs => hs, fun s hs => hs, by rw [hd]; exact h9, ?_⟩
              exact ⟨sub_and_right _ _ _ hf.1, h9 _ (sub_and_left _ _ _ hf.1), sub_and_left _ _ _ hf.1⟩
          · rename_i hd
            have hd : req.dir = .ul := by
              cases hx : req.dir with
              | ul => rfl
              | dl => exact absurd hx hd
            split at h
            · cases h
            · rename_i u hu
              split at h
              · cases h
              · rename_i hz
                cases h
                obtain ⟨h8, h9, -⟩ := allocateUsf_spec hu
                obtain ⟨-, h10⟩ := selectSlotSet_ul hd (fun s hs => (h7 s (Or.inl hs)).1)
                  (fun hsg hfn s hs => hq hd hsg hfn t s (h7 s (Or.inr (sub_and_left _ _ s hs))).2) hsl
                have hf := ffs_spec (m := rdl &&& u) (fun s hs => (h7 s (Or.inr (sub_and_left _ _ s hs))).1) hz
                refine ⟨fun s hs => h10 s (sub_and_left _ _ s (h9 s hs)), fun s hs => hs, ?_, ?_⟩
                · rw [if_pos hd]
                  exact fun s hs => h10 s (sub_and_left _ _ s (h9 s hs))
                · exact ⟨sub_and_right _ _ _ hf.1, sub_and_left _ _ _ hf.1, sub_and_right _ _ _ hf.1⟩
      constructor
      · intro hne
        rw [if_neg (by intro hc; rcases hc with hc | hc; exact hne.2 hc; exact hne.1 hc)] at hres
        cases hres
        exact key
      · intro hor
        rw [if_pos (by rcases hor with hc | hc; exact Or.inr hc; exact Or.inl hc)] at hres
        obtain ⟨⟨-, -, k1, k2, k3, -, k4, -⟩, -, -⟩ := findMultiSlots_class hres
        exact ⟨rul, rdl, ⟨k1, k2, k3, k4⟩, key⟩

/-- An allocation stays within the sets already granted to the mobile, or finds new ones within the
limits of its class. -/
theorem allocate_in {algo : Algo} {dflt : Nat} {bts : Nat → Trx} {dis : Bool} {ms : Ms} {req : Req}
    {r : Res} (hm : MsOk bts ms) (hq : ReqOk bts ms req) (h : (allocate algo dflt bts dis ms req).1 = some r) :
    (∀ U D, ms.ul ≠ 0 → ms.dl ≠ 0 → Within ms U D → ResIn r req.dir U D) ∧
    (ms.ul = 0 → ms.dl = 0 → ∃ U D, Fits (getClass dflt ms.cls) U D ∧ ResIn r req.dir U D) := by
  have hcls := classTable_ok _ (getClass_mem dflt ms.cls)
  rcases allocate_cases h with h | h
  · obtain ⟨ts, hts, e1, e2, e3, e4, h5, h6⟩ := algoA_in h
    have hself : (1 <<< ts).testBit ts = true := by rw [testBit_one_shl]; simp
    constructor
    · intro U D hu hd ⟨h7, h8, h9⟩
      have hin : U.testBit ts = true ∧ D.testBit ts = true := by
        cases hf : ms.fct with
        | some f => rw [h5 f hf]; exact h9 f hf
        | none => obtain ⟨a, b⟩ := h6 hf (Or.inl hd); exact ⟨h7 _ b, h8 _ a⟩
      refine ⟨by rw [e1]; exact one_shl_sub hin.1, by rw [e2]; exact one_shl_sub hin.2, ?_, ?_⟩
      · rw [e3]
        split
        · exact one_shl_sub hin.1
        · exact one_shl_sub hin.2
      · rw [e1, e2, e3, e4]; exact ⟨hself, hself, hself⟩
    · intro _ _
      refine ⟨1 <<< ts, 1 <<< ts, ?_, ?_⟩
      · have := pop_one_shl ts
        obtain ⟨-, -, -, k1, k2, k3⟩ := hcls
        exact ⟨by omega, by omega, by omega, one_times (getClass_mem _ _) hts⟩
      · refine ⟨by rw [e1]; exact fun _ h => h, by rw [e2]; exact fun _ h => h, ?_, ?_⟩
        · rw [e3, ite_self]; exact fun _ h => h
        · rw [e1, e2, e3, e4]; exact ⟨hself, hself, hself⟩
  · obtain ⟨k1, k2⟩ := algoB_in hm hq h
    constructor
    · intro U D hu hd ⟨h7, h8, _⟩
      obtain ⟨g1, g2, g3, g4⟩ := k1 ⟨hu, hd⟩
      refine ⟨fun s hs => h7 s (g1 s hs), fun s hs => h8 s (g2 s hs), ?_, g4⟩
      intro s hs
      have := g3 s hs
      split
      · rename_i hd'; rw [if_pos hd'] at this; exact h7 s this
      · rename_i hd'; rw [if_neg hd'] at this; exact h8 s this
    · intro hu _
      exact k2 (Or.inl hu)

/-! ## Histories -/

/-- The mobile holds slots within `U` and `D`. -/
structure Held (dflt : Nat) (w : World) (m U D : Nat) : Prop where
  fits : Fits (getClass dflt (w.ms m).cls) U D
  within : Within (w.ms m) U D
  common : ∃ s, (w.ms m).ul.testBit s = true ∧ (w.ms m).dl.testBit s = true
  tbf : ∀ b x s, w.tbf b = some x → x.ms = m → x.slots s = true →
    x.trx = (w.ms m).trx ∧ (if x.dir = .ul then U else D).testBit s = true

/-- The mobile holds no slots. -/
structure Bare (w : World) (m : Nat) : Prop where
  ul : (w.ms m).ul = 0
  dl : (w.ms m).dl = 0
  tbf : ∀ b x s, w.tbf b = some x → x.ms = m → x.slots s = false

def CInv (dflt : Nat) (w : World) : Prop := ∀ m, m < w.msN → Bare w m ∨ ∃ U D, Held dflt w m U D

/-- What happens to a mobile's slots when the operation concerns others or only removes TBFs. -/
theorem CInv.mono1 {dflt : Nat} {w w' : World} {m : Nat} (h : Bare w m ∨ ∃ U D, Held dflt w m U D)
    (hms : w'.ms m = w.ms m)
    (htb : ∀ b x s, w'.tbf b = some x → x.ms = m → x.slots s = true →
      ∃ y, w.tbf b = some y ∧ y.ms = m ∧ y.slots s = true ∧ y.trx = x.trx ∧ y.dir = x.dir) :
    Bare w' m ∨ ∃ U D, Held dflt w' m U D := by
  rcases h with h | ⟨U, D, h⟩
  · refine Or.inl ⟨by rw [hms]; exact h.ul, by rw [hms]; exact h.dl, ?_⟩
    intro b x s hb hx
    cases hs : x.slots s with
    | false => rfl
    | true =>
      obtain ⟨y, h1, h2, h3, -⟩ := htb b x s hb hx hs
      rw [h.tbf b y s h1 h2] at h3
      cases h3
  · refine Or.inr ⟨U, D, ⟨by rw [hms]; exact h.fits, by rw [hms]; exact h.within, by rw [hms]; exact h.common, ?_⟩⟩
    intro b x s hb hx hs
    obtain ⟨y, h1, h2, h3, h4, h5⟩ := htb b x s hb hx hs
    rw [hms, ← h4, ← h5]
    exact h.tbf b y s h1 h2 h3

theorem CInv.dis {dflt : Nat} {w : World} (h : CInv dflt w) (b : Bool) : CInv dflt { w with disabled := b } :=
  fun m hm => CInv.mono1 (h m hm) rfl (fun _ x _ hb hx hsl => ⟨x, hb, hx, hsl, rfl, rfl⟩)

theorem CInv.fail {dflt : Nat} {w : World} (h : CInv dflt w) (b : Bool) (n : Nat) :
    CInv dflt { w with disabled := b, fails := n } :=
  fun m hm => CInv.mono1 (h m hm) rfl (fun _ x _ hb hx hsl => ⟨x, hb, hx, hsl, rfl, rfl⟩)

theorem take_held {dflt : Nat} {w w' : World} {m b : Nat} {d : Dir} {r : Res} {x' : Tbf}
    (hmsok : MsOk w.pdch (w.ms m))
    (h : Bare w m ∨ ∃ U D, Held dflt w m U D) (hb : ∀ y s, w.tbf b = some y → y.slots s = false)
    (hin1 : ∀ U D, (w.ms m).ul ≠ 0 → (w.ms m).dl ≠ 0 → Within (w.ms m) U D → ResIn r d U D)
    (hin2 : (w.ms m).ul = 0 → (w.ms m).dl = 0 → ∃ U D, Fits (getClass dflt (w.ms m).cls) U D ∧ ResIn r d U D)
    (hsame : ∀ t, (w.ms m).trx = some t → r.trx = t)
    (hms : w'.ms m = ⟨(w.ms m).cls, some r.trx, r.ul, r.dl, some r.fct⟩)
    (hx' : w'.tbf b = some x') (hd : x'.dir = d) (ht : x'.trx = some r.trx)
    (hsl : ∀ s, x'.slots s = r.mask.testBit s) (hoth : ∀ c, c ≠ b → w'.tbf c = w.tbf c) :
    Bare w' m ∨ ∃ U D, Held dflt w' m U D := by
  right
  have fin : ∀ U D, Fits (getClass dflt (w.ms m).cls) U D → ResIn r d U D →
      (∀ c y s, c ≠ b → w.tbf c = some y → y.ms = m → y.slots s = true → y.trx = some r.trx ∧
        (if y.dir = .ul then U else D).testBit s = true) → Held dflt w' m U D := by
    intro U D hf hr hc
    refine ⟨by rw [hms]; exact hf, ?_, ⟨r.fct, by rw [hms]; exact ⟨hr.fct.1, hr.fct.2.1⟩⟩, ?_⟩
    · rw [hms]
      refine ⟨hr.ul, hr.dl, ?_⟩
      intro f hf
      cases hf
      exact ⟨hr.ul _ hr.fct.1, hr.dl _ hr.fct.2.1⟩
    · intro c y s hy hm hs
      rw [hms]
      by_cases hcb : c = b
      · subst hcb
        rw [hx'] at hy
        cases hy
        refine ⟨ht, ?_⟩
        rw [hd]
        exact hr.mask s (by rw [← hsl]; exact hs)
      · rw [hoth c hcb] at hy
        exact hc c y s hcb hy hm hs
  rcases h with h | ⟨U, D, h⟩
  · obtain ⟨U, D, h1, h2⟩ := hin2 h.ul h.dl
    refine ⟨U, D, fin U D h1 h2 ?_⟩
    intro c y s _ hy hm hs
    rw [h.tbf c y s hy hm] at hs
    cases hs
  · obtain ⟨s0, hu, hdl⟩ := h.common
    refine ⟨U, D, fin U D h.fits (hin1 U D (ne_zero_of_testBit hu) (ne_zero_of_testBit hdl) h.within) ?_⟩
    intro c y s _ hy hm hs
    obtain ⟨k1, k2⟩ := h.tbf c y s hy hm hs
    refine ⟨?_, k2⟩
    obtain ⟨-, t, ht', -⟩ := hmsok.bit (d := .ul) hu
    rw [k1, ht', hsame t ht']

theorem step_class {cfg : Cfg} {w w' : World} (hi : Inv w) (h : CInv cfg.dflt w) {op : Op} (ht : Tame w op)
    (hs : step cfg w op = some w') : CInv cfg.dflt w' := by
  cases op with
  | newMs cls =>
    simp only [step, Option.some.injEq] at hs
    subst hs
    intro m hm
    have hm : m < w.msN + 1 := hm
    by_cases hmN : m = w.msN
    · left
      subst hmN
      refine ⟨by simp [World.setMs], by simp [World.setMs], ?_⟩
      intro b x s hb hx
      exact absurd (hi.own b x hb) (by omega)
    · exact CInv.mono1 (h m (by omega)) (by simp [World.setMs, hmN]) (fun b x s hb hx hsl => ⟨x, hb, hx, hsl, rfl, rfl⟩)
  | setClass m cls =>
    simp only [step] at hs
    split at hs
    · cases hs
      intro c hc
      by_cases hcm : c = m
      · left
        subst hcm
        obtain ⟨h1, h2⟩ := ht
        refine ⟨by simpa [World.setMs] using h1, by simpa [World.setMs] using h2, ?_⟩
        rcases h c hc with hb | ⟨U, D, hb⟩
        · exact hb.tbf
        · obtain ⟨s, h3, -⟩ := hb.common
          rw [h1] at h3
          simp at h3
      · exact CInv.mono1 (h c hc) (by simp [World.setMs, hcm]) (fun b x s hb hx hsl => ⟨x, hb, hx, hsl, rfl, rfl⟩)
    · cases hs; exact h
  | alloc m req e =>
    simp only [step] at hs
    split at hs
    · rename_i hm
      unfold allocTbf at hs
      simp only [] at hs
      split at hs
      · cases hs; exact h.fail _ _
      · rename_i r hr
        have hok := allocate_ok (hi.r.msok m hm) hr
        obtain ⟨hin1, hin2⟩ := allocate_in (hi.r.msok m hm) ht hr
        generalize hb : (allocate cfg.algo cfg.dflt w.pdch w.disabled (w.ms m) req).2 = b at hs
        obtain ⟨w2, x', h1, h2, h3, h4, h5, h6, h7, h8, h9, h10⟩ := takeRes_spec
          (w := newTbf { w with disabled := b } m req.dir e)
          ((hi.dis b).newTbf hm req.dir e) (m := m) (b := w.tbfN) (r := r)
          (x := ⟨req.dir, m, e, none, none, fun _ => false, fun _ => 255⟩) hm
          (by simp [newTbf, World.setTbf]) (fun _ => rfl) hok
        rw [h1] at hs
        cases hs
        have hnone : w.tbf w.tbfN = none := by
          cases hq : w.tbf w.tbfN with
          | none => rfl
          | some y => exact absurd (hi.t.fresh _ _ hq) (Nat.lt_irrefl _)
        have hoth : ∀ c, c ≠ w.tbfN → w'.tbf c = w.tbf c := by
          intro c hc
          rw [h3.tbf c hc]
          simp [newTbf, World.setTbf, hc]
        intro c hc
        rw [h3.msN] at hc
        have hc : c < w.msN := hc
        by_cases hcm : c = m
        · subst hcm
          exact take_held (hi.r.msok c hm) (h c hm) (fun y s hy => by rw [hnone] at hy; cases hy) hin1 hin2
            hok.same h4 h5 h7 h9 h10 hoth
        · refine CInv.mono1 (h c hc) (h3.ms c hcm) ?_
          intro b' x s hx hxm hsl
          by_cases hbN : b' = w.tbfN
          · subst hbN
            rw [h5] at hx
            cases hx
            exact absurd (h6.symm.trans hxm) (fun e => hcm e.symm)
          · rw [hoth b' hbN] at hx
            exact ⟨x, hx, hxm, hsl, rfl, rfl⟩
    · cases hs; exact h
  | upgrade b =>
    simp only [step] at hs
    unfold upgrade at hs
    split at hs
    · cases hs; exact h
    · rename_i x hx
      split at hs
      · cases hs; exact h
      · rename_i hdl
        have hdl : x.dir = .dl := by
          cases hq : x.dir with
          | ul => exact absurd hq hdl
          | dl => rfl
        obtain ⟨w1, h1, h2, h3, h4⟩ := unlink_spec hi.t hx
        rw [h1] at hs
        simp only [Option.bind_some] at hs
        have hlt : x.ms < w1.msN := by rw [h3.msN]; exact hi.own b x hx
        have hi1 : Inv w1 := ⟨h2, hi.r.sameR h3, by
          intro c y hy
          by_cases hc : c = b
          · subst hc; rw [h4] at hy; cases hy; exact hlt
          · rw [h3.other c hc] at hy; rw [h3.msN]; exact hi.own c y hy⟩
        have hC1 : CInv cfg.dflt w1 := by
          intro c hc
          rw [h3.msN] at hc
          refine CInv.mono1 (h c hc) (by rw [h3.ms]) ?_
          intro b' y s hy hym hsl
          by_cases hbb : b' = b
          · subst hbb; rw [h4] at hy; cases hy; cases hsl
          · rw [h3.other b' hbb] at hy; exact ⟨y, hy, hym, hsl, rfl, rfl⟩
        split at hs
        · cases hs; exact hC1.fail _ _
        · rename_i r hr
          have hok := allocate_ok (hi1.r.msok x.ms hlt) hr
          obtain ⟨hin1, hin2⟩ := allocate_in (hi1.r.msok x.ms hlt) (fun hu => by
            simp only [] at hu; rw [hdl] at hu; cases hu) hr
          generalize hb : (allocate cfg.algo cfg.dflt w1.pdch w1.disabled (w1.ms x.ms) ⟨x.dir, false, none⟩).2 = bb at hs
          obtain ⟨w2, x', k1, k2, k3, k4, k5, k6, k7, k8, k9, k10⟩ := takeRes_spec (w := { w1 with disabled := bb })
            (hi1.dis bb) (m := x.ms) (b := b) (r := r) hlt h4 (fun _ => rfl) hok
          rw [k1] at hs
          cases hs
          intro c hc
          rw [k3.msN] at hc
          have hc : c < w1.msN := hc
          by_cases hcm : c = x.ms
          · subst hcm
            exact take_held (w := w1) (hi1.r.msok _ hlt) (hC1 _ hlt) (fun y s hy => by rw [h4] at hy; cases hy; rfl)
              hin1 hin2 hok.same k4 k5 k7 k9 k10 k3.tbf
          · refine CInv.mono1 (hC1 c hc) (k3.ms c hcm) ?_
            intro b' y s hy hym hsl
            by_cases hbb : b' = b
            · subst hbb
              rw [k5] at hy
              cases hy
              exact absurd (k6.symm.trans hym) (fun e => hcm e.symm)
            · rw [k3.tbf b' hbb] at hy
              exact ⟨y, hy, hym, hsl, rfl, rfl⟩
  | reject m t s e =>
    simp only [step] at hs
    split at hs
    · cases hs
      have htb : ∀ b x s', (rejectUl w m t s e).tbf b = some x → x.slots s' = true → w.tbf b = some x := by
        intro b x s' hx hsl
        have hx' : (if b = w.tbfN then some ⟨.ul, m, e, none, some t, fun _ => false, fun _ => 255⟩ else
          if b = w.tbfN then some ⟨.ul, m, e, none, none, fun _ => false, fun _ => 255⟩ else w.tbf b) = some x := hx
        split at hx'
        · cases hx'; cases hsl
        · exact hx'
      intro c hc
      by_cases hcm : c = m
      · left
        subst hcm
        obtain ⟨h1, h2⟩ := ht
        have hm' : (rejectUl w c t s e).ms c = { w.ms c with fct := some s } := by
          show (if c = c then _ else _) = _
          rw [if_pos rfl]
        refine ⟨by rw [hm']; exact h1, by rw [hm']; exact h2, ?_⟩
        rcases h c hc with hb | ⟨U, D, hb⟩
        · intro b x s' hx hxm
          cases hsl : x.slots s' with
          | false => rfl
          | true =>
            rw [hb.tbf b x s' (htb b x s' hx hsl) hxm] at hsl
            cases hsl
        · obtain ⟨s, h3, -⟩ := hb.common
          rw [h1] at h3
          simp at h3
      · refine CInv.mono1 (h c hc) ?_ (fun b x s' hb hx hsl => ⟨x, htb b x s' hb hsl, hx, hsl, rfl, rfl⟩)
        show (if c = m then _ else _) = _
        rw [if_neg hcm]
    · cases hs; exact h
  | free b =>
    simp only [step] at hs
    obtain ⟨w1, h1, h2, h3, h4⟩ := freeExtra_inv hi b
    rw [h1] at hs
    cases hs
    intro c hc
    rw [h3.msN] at hc
    refine CInv.mono1 (h c hc) (by rw [h3.ms]) ?_
    intro b' y s hy hym hsl
    exact ⟨y, (h3.fewer h4).tbf b' y hy, hym, hsl, rfl, rfl⟩
  | idle m =>
    simp only [step] at hs
    split at hs
    · rename_i hm
      obtain ⟨w1, h1, h2, h3, h4, h5, h6, h7⟩ := msIdle_inv hi hm
      rw [h1] at hs
      cases hs
      cases hh : hasTbf w m with
      | true => rw [h6 hh]; exact h
      | false =>
        have h7 := h7 hh
        intro c hc
        rw [h4] at hc
        by_cases hcm : c = m
        · left
          subst hcm
          refine ⟨by rw [h7]; simp, by rw [h7]; simp, ?_⟩
          intro b x s hx hxm
          rw [h3] at hx
          unfold hasTbf at hh
          have := List.any_eq_false.1 hh b (List.mem_range.2 (hi.t.fresh b x hx))
          rw [hx] at this
          simp [hxm] at this
        · exact CInv.mono1 (h c hc) (by rw [h7, if_neg hcm]) (fun b x s hb hx hsl =>
            ⟨x, by rw [h3] at hb; exact hb, hx, hsl, rfl, rfl⟩)
    · cases hs; exact h
  | enable t s tsc =>
    simp only [step] at hs
    split at hs
    · rename_i hh
      obtain ⟨w1, h1, h2, h3, h4, h5, -⟩ := enablePdch_inv hi tsc hh.1 hh.2.1 hh.2.2
      rw [h1] at hs
      cases hs
      intro c hc
      rw [h5] at hc
      exact CInv.mono1 (h c hc) (by rw [h4]) (fun b x s hb hx hsl =>
        ⟨x, by rw [h3] at hb; exact hb, hx, hsl, rfl, rfl⟩)
    · cases hs; exact h
  | disable t s extra => exact absurd ht id

theorem run_class {cfg : Cfg} (ops : List Op) {w w' : World} (hi : Inv w) (h : CInv cfg.dflt w)
    (ht : TameRun cfg w ops) (hr : run cfg w ops = some w') : CInv cfg.dflt w' := by
  induction ops generalizing w with
  | nil => cases hr; exact h
  | cons op ops ih =>
    obtain ⟨w1, h1, h2⟩ := step_inv (cfg := cfg) hi op
    unfold run at hr
    rw [List.foldlM_cons, h1] at hr
    exact ih h2 (step_class hi h ht.1 h1) (ht.2 w1 h1) hr

end Verif.Alloc
