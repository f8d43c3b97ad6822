import Verif.Spec.Full
import Verif.Lemmas.AllocFull
import Verif.Props.C21
import Verif.Props.C23
import Verif.Props.C46
import Verif.Lemmas.Polls
/-!
# C83: A mobile is turned away only when there is no room

`run cfg World.init ops` is the BTS after any history (see C21). A mobile without resources asks for a
TBF on any TRX, `⟨d, single, none⟩`. `Served w w' m d`: it gets one.

* `C83_dl`: with the algorithms A and dynamic a downlink TBF is refused exactly if all 32 TFIs are in
  use on every PDCH.
* `C83_dl_b_partial`: with algorithm B, exactly if on every TRX each TFI is in use on some PDCH. Missing:
  more than 32 reservations on a PDCH, where this is false (`C83_fails_dl`).
* `C83_ul_a`: with algorithm A an uplink TBF is refused exactly if all USFs are in use on the TRX the
  algorithm settles on; `C83_ul_one_trx`: so in a cell with one TRX, exactly if all are in use.
* `C83_ul_b_partial`: with algorithm B and dynamic an uplink TBF is not refused while there is a free USF
  on every PDCH and a TFI that is free on some TRX.
* `C83_fails_ul`: with each of the algorithms a mobile is turned away although there is room.
-/

namespace Verif.Alloc

/-! ## From the maps to the TBFs -/

theorem tfi_free {cfg : Cfg} {ops : List Op} {w : World} (h : run cfg World.init ops = some w) {d : Dir} {t s i : Nat} :
    ((w.pdch t s).tfiMap d).testBit i = false ↔ ¬ TfiUsed w d t s i := by
  have := (C21_no_leak cfg ops w h t s).1 d i
  unfold TfiUsed
  rw [← this]
  simp

theorem usf_free {cfg : Cfg} {ops : List Op} {w : World} (h : run cfg World.init ops = some w) {t s u : Nat} :
    (w.pdch t s).usfMap.testBit u = false ↔ ¬ UsfUsed w t s u := by
  have := (C21_no_leak cfg ops w h t s).2 u
  unfold UsfUsed
  rw [← this]
  simp

theorem idle_ms {cfg : Cfg} {ops : List Op} {w : World} (h : run cfg World.init ops = some w) {m : Nat} (hm : Idle w m) :
    (w.ms m).trx = none ∧ (w.ms m).fct = none ∧ (w.ms m).dl = 0 ∧ (w.ms m).ul = 0 := by
  have := (reachable_inv h).r.msok m hm.1
  unfold MsOk at this
  rw [hm.2.1] at this
  exact ⟨hm.2.1, hm.2.2, this.2, this.1⟩

theorem served_iff {cfg : Cfg} {ops : List Op} {w : World} (h : run cfg World.init ops = some w) {m : Nat}
    (hm : m < w.msN) (req : Req) (e : Bool) :
    ∃ w', run cfg World.init (ops ++ [.alloc m req e]) = some w' ∧
      (Served w w' m req.dir ↔ (allocate cfg.algo cfg.dflt w.pdch w.disabled (w.ms m) req).1.isSome = true) := by
  have hi := reachable_inv h
  have hrun : run cfg World.init (ops ++ [.alloc m req e]) = allocTbf cfg w m req e := by
    unfold run at h ⊢
    rw [List.foldlM_append, h]
    show (List.foldlM (step cfg) w [.alloc m req e]) = _
    simp only [List.foldlM_cons, List.foldlM_nil, step, if_pos hm]
    cases allocTbf cfg w m req e <;> rfl
  have hfresh : w.tbf w.tbfN = none := by
    cases hq : w.tbf w.tbfN with
    | none => rfl
    | some x => exact absurd (hi.t.fresh _ x hq) (Nat.lt_irrefl _)
  rw [hrun]
  unfold allocTbf
  dsimp only
  cases hr : (allocate cfg.algo cfg.dflt w.pdch w.disabled (w.ms m) req).1 with
  | none =>
    refine ⟨_, rfl, ⟨?_, fun hx => nomatch hx⟩⟩
    rintro ⟨b, x, t, s, h1, h2, -⟩
    exact absurd (h1.symm.trans h2) (fun hx => nomatch hx)
  | some r =>
    have hok := allocate_ok (hi.r.msok m hm) hr
    generalize hb : (allocate cfg.algo cfg.dflt w.pdch w.disabled (w.ms m) req).2 = b
    obtain ⟨w', x', h1, h2, h3, h4, h5, h6, h7, -, h8, h9⟩ := takeRes_spec (w := newTbf { w with disabled := b } m req.dir e)
      ((hi.dis b).newTbf hm req.dir e) (m := m) (b := w.tbfN) (r := r)
      (x := ⟨req.dir, m, e, none, none, fun _ => false, fun _ => 255⟩) hm
      (by simp [newTbf, World.setTbf]) (fun _ => rfl) hok
    refine ⟨w', h1, fun _ => rfl, fun _ => ?_⟩
    obtain ⟨s, hs⟩ := exists_testBit hok.ne
    obtain ⟨hs8, hen, -⟩ := hok.slots s hs
    refine ⟨w.tbfN, x', r.trx, s, hfresh, h5, h6, h7, ?_, hok.trx, hs8, hen⟩
    unfold Tbf.uses
    rw [h8, h9, hs]
    simp

theorem findTrx_idle {bts : Nat → Trx} {ms : Ms} {d : Dir} {sg : Bool} (hm : ms.trx = none) :
    findTrx bts ms ⟨d, sg, none⟩ =
      (List.range 8).find? fun t => (List.range 8).any fun ts => usablePdch (bts t ts) := by
  unfold findTrx
  rw [hm]

theorem usable_room {cfg : Cfg} {ops : List Op} {w : World} (h : run cfg World.init ops = some w) {t : Nat} (ht : t < 8) :
    ((List.range 8).any fun ts => usablePdch (w.pdch t ts)) = true ↔ ∃ s, RoomDl w t s := by
  rw [List.any_eq_true]
  constructor
  · rintro ⟨s, hs, hu⟩
    obtain ⟨h1, i, h2, h3⟩ := (usablePdch_iff ((reachable_inv h).t.p t s)).1 hu
    exact ⟨s, ⟨ht, List.mem_range.1 hs, h1⟩, i, h2, (tfi_free h).1 h3⟩
  · rintro ⟨s, ⟨-, hs, h1⟩, i, h2, h3⟩
    exact ⟨s, List.mem_range.2 hs, (usablePdch_iff ((reachable_inv h).t.p t s)).2 ⟨h1, i, h2, (tfi_free h).2 h3⟩⟩

/-- What an allocation that succeeds says about room. -/
theorem some_room {cfg : Cfg} {ops : List Op} {w : World} (h : run cfg World.init ops = some w) {m : Nat} {d : Dir} {r : Res}
    (hr : ResOk w.pdch (w.ms m) d r) :
    ∃ t s, (∃ i, i < 32 ∧ ¬ TfiUsed w d t s i) ∧ Up w t s ∧ (d = .ul → RoomUl w t s) := by
  obtain ⟨s, hs⟩ := exists_testBit hr.ne
  obtain ⟨h8, hen, ht, hu⟩ := hr.slots s hs
  refine ⟨r.trx, s, ⟨r.tfi, hr.tfi, (tfi_free h).1 ht⟩, ⟨hr.trx, h8, hen⟩, fun hd => ?_⟩
  obtain ⟨u, -, h7, hf⟩ := hu hd
  exact ⟨⟨hr.trx, h8, hen⟩, u, h7, (usf_free h).1 hf⟩

theorem algoA_dl {cfg : Cfg} {ops : List Op} {w : World} (h : run cfg World.init ops = some w) {m : Nat} (hm : Idle w m)
    {sg : Bool} {t s : Nat} (hr : RoomDl w t s) : (algoA w.pdch (w.ms m) ⟨.dl, sg, none⟩).isSome = true := by
  obtain ⟨m1, m2, m3, m4⟩ := idle_ms h hm
  cases hf : findTrx w.pdch (w.ms m) ⟨.dl, sg, none⟩ with
  | none =>
    rw [findTrx_idle m1] at hf
    exact absurd ((usable_room h hr.1.1).2 ⟨s, hr⟩) (List.find?_eq_none.1 hf t (List.mem_range.2 hr.1.1))
  | some t0 =>
    have hf' := hf
    rw [findTrx_idle m1] at hf'
    obtain ⟨s0, ⟨-, h1, h2⟩, i, h3, h4⟩ := (usable_room h (List.mem_range.1 (List.mem_of_find?_eq_some hf'))).1
      (List.find?_some (p := fun t => (List.range 8).any fun ts => usablePdch (w.pdch t ts)) hf')
    exact algoA_isSome hf ⟨m2, m3, m4⟩ h1 h2 h3 ((tfi_free h).2 h4) (fun hx => nomatch hx)

theorem dynamic_some {dflt : Nat} {bts : Nat → Trx} {dis : Bool} {ms : Ms} {req : Req}
    (h : (algoA bts ms req).isSome = true) : (allocate .dynamic dflt bts dis ms req).1.isSome = true := by
  unfold allocate
  dsimp only
  split
  · exact h
  · split
    · rfl
    · exact h

theorem dynamic_some_b {dflt : Nat} {bts : Nat → Trx} {ms : Ms} {req : Req}
    (h : (algoB dflt bts ms req).isSome = true) : (allocate .dynamic dflt bts false ms req).1.isSome = true := by
  unfold allocate
  dsimp only
  rw [if_neg (by simp)]
  obtain ⟨r, hr⟩ := Option.isSome_iff_exists.1 h
  rw [hr]
  rfl

/-! ## Downlink -/

/-- With the algorithms A and dynamic, a downlink TBF is given exactly if there is room on some PDCH. -/
theorem C83_dl (cfg : Cfg) (hc : cfg.algo = .a ∨ cfg.algo = .dynamic) (ops : List Op) (w : World)
    (h : run cfg World.init ops = some w) (m : Nat) (hm : Idle w m) (single egprs : Bool) :
    ∃ w', run cfg World.init (ops ++ [.alloc m ⟨.dl, single, none⟩ egprs]) = some w' ∧
      (Served w w' m .dl ↔ ∃ t s, RoomDl w t s) := by
  obtain ⟨w', h1, h2⟩ := served_iff h hm.1 ⟨.dl, single, none⟩ egprs
  refine ⟨w', h1, h2.trans ⟨fun hs => ?_, fun ⟨t, s, hr⟩ => ?_⟩⟩
  · obtain ⟨r, hr⟩ := Option.isSome_iff_exists.1 hs
    obtain ⟨t, s, h3, h4, -⟩ := some_room h (allocate_ok ((reachable_inv h).r.msok m hm.1) hr)
    exact ⟨t, s, h4, h3⟩
  · have := algoA_dl h hm (sg := single) hr
    rcases hc with hc | hc <;> rw [hc]
    · exact this
    · exact dynamic_some this

/-- With algorithm B, a downlink TBF is given exactly if some TRX in operation has a TFI that is free on
all its PDCHs. Missing: PDCHs with more than 32 reservations, and a configured default class that does
not exist. -/
theorem C83_dl_b_partial (cfg : Cfg) (hc : cfg.algo = .b) (ops : List Op) (w : World)
    (h : run cfg World.init ops = some w) (m : Nat) (hm : Idle w m)
    (hcls : (getClass cfg.dflt (w.ms m).cls).tx ≠ NA)
    (hres : ∀ t s d, (reserving w t s d).length ≤ 32) (single egprs : Bool) :
    ∃ w', run cfg World.init (ops ++ [.alloc m ⟨.dl, single, none⟩ egprs]) = some w' ∧
      (Served w w' m .dl ↔ ∃ t, (∃ s, Up w t s) ∧ ∃ i, i < 32 ∧ ∀ s, Up w t s → ¬ TfiUsed w .dl t s i) := by
  obtain ⟨w', h1, h2⟩ := served_iff h hm.1 ⟨.dl, single, none⟩ egprs
  refine ⟨w', h1, h2.trans ?_⟩
  rw [hc]
  show (algoB cfg.dflt w.pdch (w.ms m) ⟨.dl, single, none⟩).isSome = true ↔ _
  constructor
  · intro hs
    obtain ⟨m1, -⟩ := idle_ms h hm
    unfold algoB at hs
    cases hq : tfiFindFree w.pdch (w.ms m) ⟨.dl, single, none⟩ with
    | none => rw [hq] at hs; cases hs
    | some p =>
      obtain ⟨t, i⟩ := p
      obtain ⟨ht, -, hi, hf⟩ := tfiFindFree_spec ((reachable_inv h).r.msok m hm.1) hq
      have hq' : btsTfiFindFree w.pdch .dl none = some (t, i) := by
        rw [← hq]
        unfold tfiFindFree
        rw [m1]
      obtain ⟨s, hs8, hen⟩ := btsTfiFindFree_enabled hq'
      exact ⟨t, ⟨s, ht, hs8, hen⟩, i, hi, fun s hs => (tfi_free h).1 (hf s hs.2.1 hs.2.2)⟩
  · rintro ⟨t, ⟨s, ht, hs, hen⟩, i, hi, hf⟩
    refine algoB_isSome (idle_ms h hm) hcls (fun t s _ _ d => ?_) ht hi hs hen
      (fun s hs he => (tfi_free h).2 (hf s ⟨ht, hs, he⟩)) (fun hx => nomatch hx)
    rw [C46_counters cfg ops w h t s d]
    exact hres t s d

/-! ## Uplink -/

/-- The TRX algorithm A settles on for a mobile without resources: the first one with a PDCH on which a
downlink TFI is free. -/
def FirstTrx (w : World) (t : Nat) : Prop := (∃ s, RoomDl w t s) ∧ ∀ t', t' < t → ∀ s, ¬ RoomDl w t' s

theorem algoA_ul {cfg : Cfg} {ops : List Op} {w : World} (h : run cfg World.init ops = some w) {m : Nat} (hm : Idle w m)
    {sg : Bool} : (algoA w.pdch (w.ms m) ⟨.ul, sg, none⟩).isSome = true ↔ ∃ t s, FirstTrx w t ∧ RoomUl w t s := by
  obtain ⟨m1, m2, m3, m4⟩ := idle_ms h hm
  have first : ∀ t, findTrx w.pdch (w.ms m) ⟨.ul, sg, none⟩ = some t → FirstTrx w t := by
    intro t hf
    rw [findTrx_idle m1] at hf
    have ht := List.mem_range.1 (List.mem_of_find?_eq_some hf)
    refine ⟨(usable_room h ht).1
      (List.find?_some (p := fun t => (List.range 8).any fun ts => usablePdch (w.pdch t ts)) hf), fun t' hlt s hr => ?_⟩
    obtain ⟨-, i, hi, he, hpre⟩ := List.find?_eq_some_iff_getElem.1 hf
    rw [List.getElem_range] at he
    subst he
    have := hpre t' hlt
    rw [List.getElem_range] at this
    rw [(usable_room h (by omega)).2 ⟨s, hr⟩] at this
    cases this
  constructor
  · intro hs
    obtain ⟨r, hr⟩ := Option.isSome_iff_exists.1 hs
    have hok := algoA_ok ((reachable_inv h).r.msok m hm.1) hr
    obtain ⟨s, hb⟩ := exists_testBit hok.ne
    obtain ⟨h8, hen, -, hu⟩ := hok.slots s hb
    obtain ⟨u, -, h7, hf⟩ := hu rfl
    refine ⟨r.trx, s, first _ ?_, ⟨hok.trx, h8, hen⟩, u, h7, (usf_free h).1 hf⟩
    unfold algoA at hr
    cases hq : findTrx w.pdch (w.ms m) ⟨.ul, sg, none⟩ with
    | none => rw [hq] at hr; cases hr
    | some t =>
      rw [hq] at hr
      dsimp only at hr
      split at hr
      · cases hr
      · split at hr
        · cases hr
        · split at hr
          · cases hr
          · cases hr; rfl
  · rintro ⟨t, s, hft, ⟨ht, hs, hen⟩, u, hu, hfree⟩
    cases hq : findTrx w.pdch (w.ms m) ⟨.ul, sg, none⟩ with
    | none =>
      rw [findTrx_idle m1] at hq
      exact absurd ((usable_room h ht).2 hft.1) (List.find?_eq_none.1 hq t (List.mem_range.2 ht))
    | some t0 =>
      have h0 := first t0 hq
      have : t0 = t := by
        rcases Nat.lt_trichotomy t0 t with hlt | he | hgt
        · obtain ⟨s0, hs0⟩ := h0.1; exact absurd hs0 (hft.2 t0 hlt s0)
        · exact he
        · obtain ⟨s0, hs0⟩ := hft.1; exact absurd hs0 (h0.2 t hgt s0)
      subst this
      obtain ⟨i, hi, hfi⟩ := ul_tfi_free ((reachable_inv h).t.p t0 s)
      exact algoA_isSome hq ⟨m2, m3, m4⟩ hs hen hi hfi fun _ => ⟨u, hu, (usf_free h).2 hfree⟩

/-- With algorithm A, an uplink TBF is given exactly if there is room on the first TRX on which there is
room for a downlink TBF. -/
theorem C83_ul_a (cfg : Cfg) (hc : cfg.algo = .a) (ops : List Op) (w : World)
    (h : run cfg World.init ops = some w) (m : Nat) (hm : Idle w m) (single egprs : Bool) :
    ∃ w', run cfg World.init (ops ++ [.alloc m ⟨.ul, single, none⟩ egprs]) = some w' ∧
      (Served w w' m .ul ↔ ∃ t s, FirstTrx w t ∧ RoomUl w t s) := by
  obtain ⟨w', h1, h2⟩ := served_iff h hm.1 ⟨.ul, single, none⟩ egprs
  refine ⟨w', h1, h2.trans ?_⟩
  rw [hc]
  exact algoA_ul h hm

/-- In a cell with one TRX that is not full in the downlink, an uplink TBF is given with the algorithms A and
dynamic exactly if there is room for it on some PDCH. -/
theorem C83_ul_one_trx (cfg : Cfg) (hc : cfg.algo = .a ∨ cfg.algo = .dynamic) (ops : List Op) (w : World)
    (h : run cfg World.init ops = some w) (m : Nat) (hm : Idle w m) (t : Nat) (hone : ∀ t' s, Up w t' s → t' = t)
    (hdl : ∃ s, RoomDl w t s) (single egprs : Bool) :
    ∃ w', run cfg World.init (ops ++ [.alloc m ⟨.ul, single, none⟩ egprs]) = some w' ∧
      (Served w w' m .ul ↔ ∃ s, RoomUl w t s) := by
  obtain ⟨w', h1, h2⟩ := served_iff h hm.1 ⟨.ul, single, none⟩ egprs
  refine ⟨w', h1, h2.trans ⟨fun hs => ?_, fun ⟨s, hr⟩ => ?_⟩⟩
  · obtain ⟨r, hr⟩ := Option.isSome_iff_exists.1 hs
    obtain ⟨t', s, -, h4, h5⟩ := some_room h (allocate_ok ((reachable_inv h).r.msok m hm.1) hr)
    have := hone t' s h4
    subst this
    exact ⟨s, h5 rfl⟩
  · have := (algoA_ul h hm (sg := single)).2 ⟨t, s, ⟨hdl, fun t' hlt s' hr' => by have := hone t' s' hr'.1; omega⟩, hr⟩
    rcases hc with hc | hc <;> rw [hc]
    · exact this
    · exact dynamic_some this

/-- With algorithm B, and with dynamic unless it has switched to algorithm A, an uplink TBF is given if there
is room on every PDCH and some TRX in operation has a TFI that is free on all its PDCHs. Missing: when some
PDCHs have no free USF, where it may be refused although others have one. -/
theorem C83_ul_b_partial (cfg : Cfg) (ops : List Op) (w : World) (h : run cfg World.init ops = some w)
    (hc : cfg.algo = .b ∨ cfg.algo = .dynamic ∧ w.disabled = false) (m : Nat) (hm : Idle w m)
    (hcls : (getClass cfg.dflt (w.ms m).cls).tx ≠ NA)
    (hres : ∀ t s d, (reserving w t s d).length ≤ 32) (hroom : ∀ t s, Up w t s → RoomUl w t s)
    (t i : Nat) (hup : ∃ s, Up w t s) (hi : i < 32) (hf : ∀ s, Up w t s → ¬ TfiUsed w .ul t s i) (single egprs : Bool) :
    ∃ w', run cfg World.init (ops ++ [.alloc m ⟨.ul, single, none⟩ egprs]) = some w' ∧ Served w w' m .ul := by
  obtain ⟨w', h1, h2⟩ := served_iff h hm.1 ⟨.ul, single, none⟩ egprs
  refine ⟨w', h1, h2.2 ?_⟩
  obtain ⟨s, ht, hs, hen⟩ := hup
  have key : (algoB cfg.dflt w.pdch (w.ms m) ⟨.ul, single, none⟩).isSome = true := by
    refine algoB_isSome (idle_ms h hm) hcls (fun t s _ _ d => ?_) ht hi hs hen
      (fun s hs he => (tfi_free h).2 (hf s ⟨ht, hs, he⟩)) (fun _ t s ht hs he => ?_)
    · rw [C46_counters cfg ops w h t s d]
      exact hres t s d
    · obtain ⟨-, u, hu, hfree⟩ := hroom t s ⟨ht, hs, he⟩
      exact findFreeUsf_ne hu ((usf_free h).2 hfree)
  rcases hc with hc | ⟨hc, hd⟩
  · rw [hc]; exact key
  · rw [hc, hd]; exact dynamic_some_b key

/-! ## Cases -/

/-- Mobiles `a`, `a+1`, … of class `c`, each with a downlink TBF. -/
def newDl (a n c : Nat) : List Op :=
  (List.range' a n).flatMap fun i => [.newMs c, .alloc i ⟨.dl, false, none⟩ true]

/-- Two slots of TRX 1 with eight uplink TBFs, then a slot of TRX 0 with seven. -/
def c83Ul : List Op := [.enable 1 0 0, .enable 1 1 0] ++ newUl 0 8 1 false ++ [.enable 0 0 0] ++
  newUl 8 7 1 false ++ [.newMs 1]

/-- A slot with seven uplink and 26 downlink TBFs. -/
def c83Dl : List Op := [.enable 0 0 0] ++ newUl 0 7 1 false ++ newDl 7 26 1 ++ [.newMs 1]

/-- A refused mobile, seen from the counters of the model. -/
theorem refused {cfg : Cfg} {ops : List Op} {w w' : World} {m : Nat} {req : Req} {e : Bool}
    (h : run cfg World.init ops = some w) (h' : run cfg World.init (ops ++ [.alloc m req e]) = some w')
    (hm : m < w.msN) (hn : w'.tbfN = w.tbfN) : ¬ Served w w' m req.dir := by
  rintro ⟨b, x, t, s, h1, h2, -⟩
  have := (reachable_inv h').t.fresh b x h2
  have hrun : run cfg World.init (ops ++ [.alloc m req e]) = allocTbf cfg w m req e := by
    unfold run at h ⊢
    rw [List.foldlM_append, h]
    show (List.foldlM (step cfg) w [.alloc m req e]) = _
    simp only [List.foldlM_cons, List.foldlM_nil, step, if_pos hm]
    cases allocTbf cfg w m req e <;> rfl
  obtain ⟨w2, g1, -, -, -, g2, -⟩ := Verif.Polls.allocTbf_spec (cfg := cfg) (reachable_inv h) hm req e
  rw [hrun, g1] at h'
  cases h'
  rw [hn] at this
  rw [g2 b (by omega), h1] at h2
  cases h2

/-- With algorithm B a mobile is turned away although six downlink TFIs are free on the only PDCH: with more
than 32 reservations on a PDCH the capacity becomes negative. -/
theorem C83_fails_dl : ∃ w w', run ⟨.b, 8⟩ World.init c83Dl = some w ∧ Idle w 33 ∧ (w.ms 33).cls = 1 ∧
    RoomDl w 0 0 ∧ run ⟨.b, 8⟩ World.init (c83Dl ++ [.alloc 33 ⟨.dl, true, none⟩ true]) = some w' ∧
    ¬ Served w w' 33 .dl := by
  have h : ((run ⟨.b, 8⟩ World.init c83Dl).map fun w => [w.tbfN, w.msN, (w.ms 33).cls]) = some [33, 34, 1] ∧
    ((run ⟨.b, 8⟩ World.init c83Dl).map fun w => decide ((w.ms 33).trx = none ∧ (w.ms 33).fct = none ∧
      (w.pdch 0 0).enabled = true ∧ ((w.pdch 0 0).tfiMap .dl).testBit 31 = false)) = some true ∧
    ((run ⟨.b, 8⟩ World.init (c83Dl ++ [.alloc 33 ⟨.dl, true, none⟩ true])).map fun w => w.tbfN) = some 33 := by
    decide +kernel
  cases h1 : run ⟨.b, 8⟩ World.init c83Dl with
  | none => rw [h1] at h; cases h.1
  | some w =>
    cases h2 : run ⟨.b, 8⟩ World.init (c83Dl ++ [.alloc 33 ⟨.dl, true, none⟩ true]) with
    | none => rw [h2] at h; cases h.2.2
    | some w' =>
      rw [h1, h2] at h
      simp only [Option.map_some, Option.some.injEq, List.cons.injEq, and_true, decide_eq_true_eq] at h
      obtain ⟨⟨a1, a2, a3⟩, ⟨a4, a5, a6, a7⟩, a8⟩ := h
      have hlt : 33 < w.msN := by omega
      exact ⟨w, w', rfl, ⟨hlt, a4, a5⟩, a3, ⟨⟨by decide, by decide, a6⟩, 31, by decide, (tfi_free h1).1 a7⟩, rfl,
        refused h1 h2 hlt (a8.trans a1.symm)⟩

/-- With each of the algorithms a mobile is turned away although there is room for its uplink TBF on another TRX:
the TRX is chosen without looking at its USFs. -/
theorem C83_fails_ul (algo : Algo) : ∃ w w', run ⟨algo, 8⟩ World.init c83Ul = some w ∧ Idle w 15 ∧ (w.ms 15).cls = 1 ∧
    RoomUl w 1 0 ∧ run ⟨algo, 8⟩ World.init (c83Ul ++ [.alloc 15 ⟨.ul, true, none⟩ true]) = some w' ∧
    ¬ Served w w' 15 .ul := by
  have h : ((run ⟨algo, 8⟩ World.init c83Ul).map fun w => [w.tbfN, w.msN, (w.ms 15).cls]) = some [15, 16, 1] ∧
    ((run ⟨algo, 8⟩ World.init c83Ul).map fun w => decide ((w.ms 15).trx = none ∧ (w.ms 15).fct = none ∧
      (w.pdch 1 0).enabled = true ∧ (w.pdch 1 0).usfMap.testBit 6 = false)) = some true ∧
    ((run ⟨algo, 8⟩ World.init (c83Ul ++ [.alloc 15 ⟨.ul, true, none⟩ true])).map fun w => w.tbfN) = some 15 := by
    cases algo <;> decide +kernel
  cases h1 : run ⟨algo, 8⟩ World.init c83Ul with
  | none => rw [h1] at h; cases h.1
  | some w =>
    cases h2 : run ⟨algo, 8⟩ World.init (c83Ul ++ [.alloc 15 ⟨.ul, true, none⟩ true]) with
    | none => rw [h2] at h; cases h.2.2
    | some w' =>
      rw [h1, h2] at h
      simp only [Option.map_some, Option.some.injEq, List.cons.injEq, and_true, decide_eq_true_eq] at h
      obtain ⟨⟨a1, a2, a3⟩, ⟨a4, a5, a6, a7⟩, a8⟩ := h
      have hlt : 15 < w.msN := by omega
      exact ⟨w, w', rfl, ⟨hlt, a4, a5⟩, a3, ⟨⟨by decide, by decide, a6⟩, 6, by decide, (usf_free h1).1 a7⟩, rfl,
        refused h1 h2 hlt (a8.trans a1.symm)⟩

/-- A mobile of class 10 in a cell with two PDCHs and a few mobiles: the hypotheses of the theorems hold, it is
given a downlink and, in another history, an uplink TBF. -/
def c83Some : List Op := [.enable 0 2 0, .enable 0 3 0] ++ newUl 0 3 1 false ++ newDl 3 2 1 ++ [.newMs 10]

example : ∀ algo : Algo, ((run ⟨algo, 8⟩ World.init c83Some).map fun w =>
    decide (5 < w.msN ∧ (w.ms 5).trx = none ∧ (w.ms 5).fct = none ∧ (getClass 8 (w.ms 5).cls).tx ≠ NA ∧
      w.disabled = false ∧ w.tbfN = 5)) = some true := by
  intro algo; cases algo <;> decide +kernel

example : ∀ algo : Algo, ((run ⟨algo, 8⟩ World.init (c83Some ++ [.alloc 5 ⟨.ul, false, none⟩ true])).map fun w =>
    w.tbfN) = some 6 := by
  intro algo; cases algo <;> decide +kernel

example : ∃ w, run ⟨.b, 8⟩ World.init c83Some = some w ∧ Idle w 5 ∧ (getClass 8 (w.ms 5).cls).tx ≠ NA ∧
    ∀ t s d, (reserving w t s d).length ≤ 32 := by
  have h : ((run ⟨.b, 8⟩ World.init c83Some).map fun w =>
    decide (w.msN = 6 ∧ (w.ms 5).trx = none ∧ (w.ms 5).fct = none ∧ (getClass 8 (w.ms 5).cls).tx ≠ NA)) = some true := by
    decide +kernel
  cases h1 : run ⟨.b, 8⟩ World.init c83Some with
  | none => rw [h1] at h; cases h
  | some w =>
    rw [h1] at h
    simp only [Option.map_some, Option.some.injEq, decide_eq_true_eq] at h
    refine ⟨w, rfl, ⟨by omega, h.2.1, h.2.2.1⟩, h.2.2.2, fun t s d => ?_⟩
    have := List.length_filter_le (fun m => (w.ms m).reserves t s d) (List.range w.msN)
    rw [List.length_range] at this
    exact Nat.le_trans this (by omega)

/-- The first mobile of a cell is served by algorithm B. -/
example : ∃ w w', run ⟨.b, 8⟩ World.init [.enable 0 2 0, .newMs 10] = some w ∧
    run ⟨.b, 8⟩ World.init ([.enable 0 2 0, .newMs 10] ++ [.alloc 0 ⟨.ul, false, none⟩ true]) = some w' ∧
    Served w w' 0 .ul := by
  obtain ⟨w', h1, h2⟩ := C83_ul_b_partial ⟨.b, 8⟩ [.enable 0 2 0, .newMs 10] _ rfl (Or.inl rfl) 0 ⟨by decide, rfl, rfl⟩
    (by decide)
    (fun t s d => Nat.le_trans (List.length_filter_le _ _) (by decide))
    (fun t s hup => ⟨hup, 0, by decide, fun ⟨b, x, hx, _⟩ => nomatch hx⟩)
    0 0 ⟨2, by decide, by decide, rfl⟩ (by decide) (fun s _ ⟨b, x, hx, _⟩ => nomatch hx) false true
  exact ⟨_, w', rfl, h1, h2⟩

/-- A cell with no PDCH is full. -/
example : ∃ w w', run ⟨.a, 8⟩ World.init [.newMs 1] = some w ∧
    run ⟨.a, 8⟩ World.init ([.newMs 1] ++ [.alloc 0 ⟨.dl, true, none⟩ true]) = some w' ∧ ¬ Served w w' 0 .dl := by
  obtain ⟨w', h1, h2⟩ := C83_dl ⟨.a, 8⟩ (Or.inl rfl) [.newMs 1] _ rfl 0 ⟨by decide, rfl, rfl⟩ true true
  refine ⟨_, w', rfl, h1, fun hs => ?_⟩
  obtain ⟨t, s, ⟨-, -, hup⟩, -⟩ := h2.1 hs
  cases hup

end Verif.Alloc
