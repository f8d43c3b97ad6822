import Verif.Spec.Rach
import Verif.Props.C50
import Verif.Props.C51
/-!
# C45: random access

`asks` (Spec/Rach.lean) is what a burst asks for; `understood` and `rejected` (Spec/ImmAss.lean) are what a
mobile reads from the answer.
-/

namespace Verif.Rach

open Verif.Ia

/-! ## Classification -/

/-- What the PCU makes of a request is what it asks for. -/
def reqOf : Asks → Option (Bool × Nat)
  | .block => some (true, 0)
  | .tbf c => some (false, c.getD 0)
  | .unsupported => none

theorem parse11 : ∀ ra, ra < 2048 → (parseEgprs ra).map (fun r => (r.single, r.cls)) = reqOf (asks11 (bits 11 ra)) := by
  decide +kernel

theorem parse8 : ∀ ra, ra < 256 → ((ra &&& 0xf8) == 0x70) = decide (ra / 8 % 32 = 14) := by decide +kernel

/-- Requests as they come from the BTS. -/
structure IndOk (i : Ind) : Prop where
  rfn : i.rfn < 42432
  ra11 : i.ra < 2048
  ra8 : i.is11 = false → i.ra < 256

theorem parse_asks {i : Ind} (h : IndOk i) : (parse i).map (fun r => (r.single, r.cls)) = reqOf (asks i) := by
  have h8 := h.ra8
  unfold parse asks
  cases i.burst <;> cases hi : i.is11 <;> simp only [Bool.not_true, Bool.not_false, if_true, if_false, Bool.false_eq_true, Option.map_none]
  · rw [Option.map_some, parse8 _ (h8 hi)]
    unfold asks8
    by_cases hx : i.ra / 8 % 32 = 14
    · rw [if_pos hx, decide_eq_true hx]; rfl
    · rw [if_neg hx, decide_eq_false hx]; rfl
  · rfl
  · rw [Option.map_some, parse8 _ (h8 hi)]
    unfold asks8
    by_cases hx : i.ra / 8 % 32 = 14
    · rw [if_pos hx, decide_eq_true hx]; rfl
    · rw [if_neg hx, decide_eq_false hx]; rfl
  · rfl
  · rfl
  · exact parse11 _ h.ra11
  · rfl
  · exact parse11 _ h.ra11
  · rfl
  · rfl

theorem taOf_qta2ta (q : Int) : TaOf q (qta2ta q) := by
  unfold TaOf qta2ta
  refine ⟨fun h => if_pos h, fun h => ?_, fun h h' => ?_⟩
  · rw [if_neg (by omega), if_pos h]
  · rw [if_neg (by omega), if_neg (by omega)]; omega

theorem qta2ta_lt (q : Int) : qta2ta q < 64 := by
  unfold qta2ta
  split
  · decide
  · split
    · decide
    · omega

/-! ## Single blocks -/

theorem findPdch_some {e : Env} {trx ts : Nat} {p : Pdch} (h : findPdch e = some (trx, ts, p)) : e.pdch trx ts = some p := by
  unfold findPdch at h
  obtain ⟨a, -, ha⟩ := List.exists_of_findSome?_eq_some h
  obtain ⟨b, -, hb⟩ := List.exists_of_findSome?_eq_some ha
  obtain ⟨q, hq, e'⟩ := Option.map_eq_some_iff.1 hb
  cases e'
  exact hq

theorem findPdch_none {e : Env} (h : findPdch e = none) : ∀ trx < 8, ∀ ts < 8, e.pdch trx ts = none := by
  intro trx ht ts hs
  unfold findPdch at h
  rw [List.findSome?_eq_none_iff] at h
  have h1 := h trx (List.mem_range.2 ht)
  rw [List.findSome?_eq_none_iff] at h1
  have h2 := h1 ts (by
    have : ∀ t < 8, t ∈ [7, 6, 5, 4, 3, 2, 1, 0] := by decide
    exact this ts hs)
  simpa using h2

theorem allocSba_eq (e : Env) (q : Int) : allocSba e (qta2ta q) = (findPdch e).map fun x => (x.1, x.2.1, x.2.2, e.sbaFn x.1 x.2.1) := by
  unfold allocSba
  rw [if_neg (by have := qta2ta_lt q; omega)]

/-! ## What is assumed of the rest of the PCU -/

/-- Channels, configuration and TBFs are legal. A mobile whose class is not known gets a GPRS TBF. The list of
hopping frequencies has at most five octets (see `C45_not_answered`). -/
structure EnvOk (e : Env) : Prop where
  par : ParOk e.alpha e.gamma none
  t3142 : e.t3142 < 256
  pdch : ∀ trx ts p, e.pdch trx ts = some p → PdchOk p ∧ (maOf p).length ≤ 5
  tbf : ∀ c t p usf, e.tbf c = some (t, p, usf) → PdchOk p ∧ (maOf p).length ≤ 5 ∧ t.tfi < 32 ∧ usf < 8 ∧ t.code < 16 ∧ WsOk t.ws ∧
    t.tlli = 0xFFFFFFFF ∧ (t.egprs = true → c ≠ 0) ∧ (c = 0 → t.code < 4)

/-- The block that is announced, by kind of request. -/
def blockRest (e : Env) (i : Ind) (fn : Nat) : Rest :=
  if i.burst = .access1 ∨ i.burst = .access2 then .egprsUlBlocks (i.ra % 32) (alphaOf e.alpha) e.gamma (fn % 42432) 1 none
  else .ulBlock (alphaOf e.alpha) e.gamma (fn % 42432)

def tbfRest (e : Env) (i : Ind) (t : Tbf) (usf : Nat) : Rest :=
  if i.burst = .access1 ∨ i.burst = .access2 then
    .egprsUlTbf (i.ra % 32) t.tfi false usf 0 none t.code false none false t.ws (alphaOf e.alpha) e.gamma none none
  else .ulTbf t.tfi false usf 0 none t.code true (alphaOf e.alpha) e.gamma none none

/-- The first eight bits in the request reference. -/
def refRa (i : Ind) : Nat := if i.burst = .access1 ∨ i.burst = .access2 then 0x7f else i.ra

theorem egprs_iff (b : Burst) : b.egprs = true ↔ b = .access1 ∨ b = .access2 := by cases b <;> decide

theorem ra_lt {i : Ind} (h : IndOk i) (ha : asks i ≠ .unsupported) (hb : i.burst.egprs = false) : i.ra < 256 := by
  refine h.ra8 ?_
  unfold asks at ha
  cases hx : i.is11
  · rfl
  · cases hb' : i.burst <;> simp_all [Burst.egprs]

/-! ## The property -/

/-- **C45**, a single block is granted if the request asks for it or two phase access is forced, and any channel is
enabled: one block on one of the channels is reserved, no TBF is allocated, and the answer tells the mobile this block. -/
theorem C45_block {e : Env} {i : Ind} {trx₀ ts₀ : Nat} {p₀ : Pdch} (he : EnvOk e) (hi : IndOk i)
    (ha : asks i = .block ∨ (∃ c, asks i = .tbf c) ∧ e.forceTwoPhase = true) (h1 : trx₀ < 8) (h2 : ts₀ < 8)
    (h3 : e.pdch trx₀ ts₀ = some p₀) :
    ∃ trx ts p n m ta, e.pdch trx ts = some p ∧ (rcvRach e i).sba = some (trx, ts, e.sbaFn trx ts) ∧ (rcvRach e i).tbf = none ∧
      (rcvRach e i).out = .msg n m ∧ TaOf i.qta ta ∧
      understood m = some ⟨false, p.ts, p.tsc, freqOf p, refRa i, i.rfn, ta, maOf p, blockRest e i (e.sbaFn trx ts)⟩ := by
  have hp := parse_asks hi
  have hu : asks i ≠ .unsupported := by rcases ha with h | ⟨⟨c, h⟩, -⟩ <;> rw [h] <;> nofun
  obtain ⟨r, hr, hs⟩ : ∃ r, parse i = some r ∧ (r.single || e.forceTwoPhase) = true := by
    rcases ha with h | ⟨⟨c, h⟩, hf⟩ <;> rw [h] at hp <;> obtain ⟨r, hr, hq⟩ := Option.map_eq_some_iff.1 hp
    · refine ⟨r, hr, ?_⟩; rw [(Prod.mk.inj hq).1]; rfl
    · refine ⟨r, hr, ?_⟩; simp [hf]
  cases hf : findPdch e with
  | none => rw [findPdch_none hf trx₀ h1 ts₀ h2] at h3; cases h3
  | some x =>
    obtain ⟨trx, ts, p⟩ := x
    have hpd := findPdch_some hf
    obtain ⟨k1, k2⟩ := he.pdch _ _ _ hpd
    have ev : rcvRach e i = { out := uplink p none i.ra i.rfn (qta2ta i.qta) 7 (e.sbaFn trx ts % 42432) e.alpha e.gamma none i.burst, sba := some (trx, ts, e.sbaFn trx ts) } := by
      unfold rcvRach
      rw [hr]
      dsimp only
      rw [if_pos hs, allocSba_eq, hf]
      rfl
    obtain ⟨n, m, hm⟩ := C50_ul_sent (p := p) (t := none) (ra := i.ra) (refRfn := i.rfn) (ta := qta2ta i.qta) (usf := 7)
      (rfn := e.sbaFn trx ts % 42432) (alpha := e.alpha) (gamma := e.gamma) (b := i.burst) k2 nofun
    refine ⟨trx, ts, p, n, m, qta2ta i.qta, hpd, by rw [ev], by rw [ev], by rw [ev]; exact hm, taOf_qta2ta _, ?_⟩
    unfold refRa blockRest
    cases hb : i.burst.egprs
    · rw [(C50_ul_block k1 he.par (ra_lt hi hu hb) hi.rfn (qta2ta_lt _) (Nat.mod_lt _ (by decide)) hb hm).2.2]
      rw [if_neg (by rw [← egprs_iff, hb]; decide), if_neg (by rw [← egprs_iff, hb]; decide)]
    · rw [(C50_egprs_ul_block k1 he.par hi.rfn (qta2ta_lt _) (Nat.mod_lt _ (by decide)) hb hm).2.2]
      rw [if_pos ((egprs_iff _).1 hb), if_pos ((egprs_iff _).1 hb)]

/-- **C45**, a TBF is granted if the request asks for one, two phase access is not forced and a TBF can be allocated:
this TBF is told to the mobile, no block is reserved. -/
theorem C45_tbf {e : Env} {i : Ind} {c : Option Nat} {t : Tbf} {p : Pdch} {usf : Nat} (he : EnvOk e) (hi : IndOk i)
    (ha : asks i = .tbf c) (hf : e.forceTwoPhase = false) (ht : e.tbf (c.getD 0) = some (t, p, usf)) :
    ∃ n m ta, (rcvRach e i).tbf = some t ∧ (rcvRach e i).sba = none ∧ (rcvRach e i).out = .msg n m ∧ TaOf i.qta ta ∧
      understood m = some ⟨false, p.ts, p.tsc, freqOf p, refRa i, i.rfn, ta, maOf p, tbfRest e i t usf⟩ := by
  have hp := parse_asks hi
  have hu : asks i ≠ .unsupported := by rw [ha]; nofun
  rw [ha] at hp
  obtain ⟨r, hr, hq⟩ := Option.map_eq_some_iff.1 hp
  obtain ⟨hq1, hq2⟩ := Prod.mk.inj hq
  obtain ⟨k1, k2, k3, k4, k5, k6, k7, k8, k9⟩ := he.tbf _ _ _ _ ht
  have ev : rcvRach e i = { out := uplink p (some t) i.ra i.rfn (qta2ta i.qta) usf 0 e.alpha e.gamma none i.burst, tbf := some t } := by
    unfold rcvRach
    rw [hr]
    dsimp only
    rw [if_neg (by rw [hq1, hf]; decide), hq2, ht]
  have hc0 : i.burst.egprs = false → c.getD 0 = 0 := by
    intro hb
    unfold asks at ha
    cases hx : i.is11 <;> cases hb' : i.burst <;> simp_all [Burst.egprs, asks8]
    all_goals first | (subst ha; rfl) | (split at ha <;> simp_all) | skip
    all_goals first | (obtain ⟨-, rfl⟩ := ha; rfl) | skip
  obtain ⟨n, m, hm⟩ := C50_ul_sent (p := p) (t := some t) (ra := i.ra) (refRfn := i.rfn) (ta := qta2ta i.qta) (usf := usf)
      (rfn := 0) (alpha := e.alpha) (gamma := e.gamma) (b := i.burst) k2 (by
        intro x hx hx'
        cases hx
        cases hb : i.burst.egprs
        · exact absurd (hc0 hb) (k8 hx')
        · rfl)
  refine ⟨n, m, qta2ta i.qta, by rw [ev], by rw [ev], by rw [ev]; exact hm, taOf_qta2ta _, ?_⟩
  unfold refRa tbfRest
  cases hb : i.burst.egprs
  · rw [(C50_ul_tbf k1 he.par (ra_lt hi hu hb) hi.rfn (qta2ta_lt _) k3 k4 (k9 (hc0 hb)) hb hm).2.2]
    rw [if_neg (by rw [← egprs_iff, hb]; decide), if_neg (by rw [← egprs_iff, hb]; decide)]
  · rw [(C50_egprs_ul_tbf k1 he.par hi.rfn (qta2ta_lt _) k3 k4 k5 k6 k7 hb hm).2.2]
    rw [if_pos ((egprs_iff _).1 hb), if_pos ((egprs_iff _).1 hb)]

/-- Rejected: nothing is allocated, and the answer is an Immediate Assignment Reject. -/
def IsRejected (e : Env) (i : Ind) (r : Res) : Prop :=
  r.sba = none ∧ r.tbf = none ∧ ∃ m, r.out = .msg 19 m ∧ r.out = reject i.ra i.rfn e.t3142 i.burst

theorem isRejected_send (e : Env) (i : Ind) : IsRejected e i (sendReject e i) := by
  obtain ⟨m, h, -⟩ := C51_sent i.ra i.rfn e.t3142 i.burst
  exact ⟨rfl, rfl, m, h, rfl⟩

/-- **C45**, requests for something that is not supported are rejected and nothing is allocated. -/
theorem C45_unsupported {e : Env} {i : Ind} (hi : IndOk i) (ha : asks i = .unsupported) : IsRejected e i (rcvRach e i) := by
  have hp := parse_asks hi
  rw [ha] at hp
  have hr : parse i = none := by
    cases h : parse i with
    | none => rfl
    | some r => rw [h] at hp; cases hp
  unfold rcvRach
  rw [hr]
  exact isRejected_send e i

/-- **C45**, if there is nothing to allocate the request is rejected. -/
theorem C45_busy {e : Env} {i : Ind} (hi : IndOk i)
    (hb : (∀ trx < 8, ∀ ts < 8, e.pdch trx ts = none) ∨ asks i ≠ .block ∧ e.forceTwoPhase = false)
    (ht : ∀ c, asks i = .tbf c → e.forceTwoPhase = false → e.tbf (c.getD 0) = none) : IsRejected e i (rcvRach e i) := by
  have hp := parse_asks hi
  unfold rcvRach
  dsimp only
  cases hr : parse i with
  | none => exact isRejected_send e i
  | some r =>
    rw [hr] at hp
    dsimp only
    split
    · rename_i hs
      rw [allocSba_eq]
      rcases hb with hb | ⟨hb1, hb2⟩
      · have hf : findPdch e = none := by
          unfold findPdch
          rw [List.findSome?_eq_none_iff]
          intro trx ht'
          rw [List.findSome?_eq_none_iff]
          intro ts hts
          have hlt : ts < 8 := by
            have : ∀ t ∈ [7, 6, 5, 4, 3, 2, 1, 0], t < 8 := by decide
            exact this ts hts
          rw [hb trx (List.mem_range.1 ht') ts hlt]; rfl
        rw [hf]
        exact isRejected_send e i
      · cases ha : asks i with
        | block => exact absurd ha hb1
        | tbf c =>
          rw [ha] at hp
          have := (Prod.mk.inj (Option.some.inj hp)).1
          rw [this, hb2] at hs; cases hs
        | unsupported => rw [ha] at hp; cases hp
    · rename_i hs
      have hs' : r.single = false ∧ e.forceTwoPhase = false := by simpa using hs
      cases ha : asks i with
      | block =>
        rw [ha] at hp
        have := (Prod.mk.inj (Option.some.inj hp)).1
        rw [hs'.1] at this; cases this
      | tbf c =>
        rw [ha] at hp
        have h2 := (Prod.mk.inj (Option.some.inj hp)).2
        rw [h2, ht c ha hs'.2]
        exact isRejected_send e i
      | unsupported => rw [ha] at hp; cases hp

/-- **C45**, a block is reserved only if asked for (or forced), a TBF is allocated only if asked for and not forced,
never both. -/
theorem C45_only {e : Env} {i : Ind} (hi : IndOk i) :
    ((rcvRach e i).sba.isSome → asks i = .block ∨ (∃ c, asks i = .tbf c) ∧ e.forceTwoPhase = true) ∧
    ((rcvRach e i).tbf.isSome → (∃ c, asks i = .tbf c) ∧ e.forceTwoPhase = false) ∧
    ((rcvRach e i).sba = none ∨ (rcvRach e i).tbf = none) := by
  have hp := parse_asks hi
  unfold rcvRach
  dsimp only
  cases hr : parse i with
  | none => exact ⟨nofun, nofun, .inl rfl⟩
  | some r =>
    rw [hr] at hp
    dsimp only
    cases ha : asks i with
    | unsupported => rw [ha] at hp; cases hp
    | block =>
      rw [ha] at hp
      have h1 := (Prod.mk.inj (Option.some.inj hp)).1
      rw [h1, if_pos (by rfl)]
      cases allocSba e (qta2ta i.qta) with
      | none => exact ⟨nofun, nofun, .inl rfl⟩
      | some x => exact ⟨fun _ => .inl rfl, nofun, .inr rfl⟩
    | tbf c =>
      rw [ha] at hp
      have h1 := (Prod.mk.inj (Option.some.inj hp)).1
      rw [h1]
      cases hf : e.forceTwoPhase
      · rw [if_neg (by decide)]
        cases e.tbf r.cls with
        | none => exact ⟨nofun, nofun, .inl rfl⟩
        | some x => exact ⟨nofun, fun _ => ⟨⟨c, rfl⟩, rfl⟩, .inl rfl⟩
      · rw [if_pos (by decide)]
        cases allocSba e (qta2ta i.qta) with
        | none => exact ⟨nofun, nofun, .inl rfl⟩
        | some x => exact ⟨fun _ => .inr ⟨⟨c, rfl⟩, rfl⟩, nofun, .inr rfl⟩

/-! ## Exactly one answer -/

theorem understood_type {s : List Sym} {ty : Nat} (h : ty < 256) (hn : ty ≠ 0x3f) :
    understood (render 0 (fld 4 0 ++ (fld 4 6 ++ (fld 8 ty ++ s)))) = none := by
  have ht : ty < 2 ^ 8 := h
  unfold understood assignment
  rw [bind_run, ← List.append_assoc (fld 4 0), reads_06]
  dsimp only
  rw [if_neg (by decide), bind_run, reads_fld' ht]
  dsimp only
  rw [if_pos hn]
  rfl

theorem rejected_type {s : List Sym} {ty : Nat} (h : ty < 256) (hn : ty ≠ 0x3a) :
    rejected (render 0 (fld 4 0 ++ (fld 4 6 ++ (fld 8 ty ++ s)))) = none := by
  have ht : ty < 2 ^ 8 := h
  unfold rejected rejection
  rw [bind_run, ← List.append_assoc (fld 4 0), reads_06]
  dsimp only
  rw [if_neg (by decide), bind_run, reads_fld' ht]
  dsimp only
  rw [if_pos hn]
  rfl

theorem uplink_not_reject {p : Pdch} {t : Option Tbf} {ra refRfn ta usf rfn alpha gamma n : Nat} {tai : Option Nat} {b : Burst}
    {m : List Bool} (h : uplink p t ra refRfn ta usf rfn alpha gamma tai b = .msg n m) : rejected m = none := by
  have key : ∀ {s : List Sym}, finish (header p false ra refRfn ta b) s = .msg n m → rejected m = none := by
    intro s h
    obtain ⟨-, -, t, rfl, -⟩ := finish_msg h
    unfold header
    simp only [List.append_assoc]
    exact rejected_type (by decide) (by decide)
  unfold uplink at h
  split at h
  · exact key h
  · split at h
    · cases h
    · exact key h

theorem reject_read {ra refRfn w n : Nat} {b : Burst} {m : List Bool} (hr : refRfn < 42432) (hw : w < 256)
    (h : reject ra refRfn w b = .msg n m) : understood m = none ∧ ∃ l, rejected m = some l ∧ l.length = 4 := by
  have h' := h
  rw [reject_eq] at h'
  obtain ⟨-, -, t, a3, a4, -⟩ := finish_msg h'
  constructor
  · rw [a3]
    unfold rejHeader
    simp only [List.append_assoc]
    exact understood_type (by decide) (by decide)
  · cases hb : b.egprs
    · obtain ⟨e, x, he, hl⟩ := ext8
      simp only [hb, Bool.false_eq_true, if_false, List.length_append, length_rejHeader, length_fld] at a3 a4
      rw [a3, a4, rejected_of hr hw he]
      exact ⟨_, rfl, by simp [hl]⟩
    · obtain ⟨l, e, rfl⟩ := C51_egprs_partial hr hw hb h
      exact ⟨_, e, rfl⟩

/-- **C45**, every access burst is answered by one message that is either an Immediate Assignment or an Immediate
Assignment Reject, if the lists of hopping frequencies are short. -/
theorem C45_answered_partial {e : Env} {i : Ind} (he : EnvOk e) (hi : IndOk i) :
    ∃ n m, (rcvRach e i).out = .msg n m ∧ ((∃ x, understood m = some x) ∧ rejected m = none ∧ ((rcvRach e i).sba.isSome ∨ (rcvRach e i).tbf.isSome) ∨
      understood m = none ∧ (∃ l, rejected m = some l ∧ l.length = 4) ∧ (rcvRach e i).sba = none ∧ (rcvRach e i).tbf = none) := by
  have rej : ∀ {r : Res}, IsRejected e i r → ∃ n m, r.out = .msg n m ∧ ((∃ x, understood m = some x) ∧ rejected m = none ∧ (r.sba.isSome ∨ r.tbf.isSome) ∨
      understood m = none ∧ (∃ l, rejected m = some l ∧ l.length = 4) ∧ r.sba = none ∧ r.tbf = none) := by
    rintro r ⟨h1, h2, m, h3, h4⟩
    refine ⟨_, m, h3, .inr ?_⟩
    rw [h4] at h3
    obtain ⟨a, b⟩ := reject_read hi.rfn he.t3142 h3
    exact ⟨a, b, h1, h2⟩
  have blk : (asks i = .block ∨ (∃ c, asks i = .tbf c) ∧ e.forceTwoPhase = true) → ∃ n m, (rcvRach e i).out = .msg n m ∧ ((∃ x, understood m = some x) ∧ rejected m = none ∧ ((rcvRach e i).sba.isSome ∨ (rcvRach e i).tbf.isSome) ∨
      understood m = none ∧ (∃ l, rejected m = some l ∧ l.length = 4) ∧ (rcvRach e i).sba = none ∧ (rcvRach e i).tbf = none) := by
    intro ha
    by_cases hd : ∀ trx < 8, ∀ ts < 8, e.pdch trx ts = none
    · refine rej (C45_busy hi (.inl hd) ?_)
      intro c hc hf
      rcases ha with h | ⟨-, h⟩
      · rw [h] at hc; cases hc
      · rw [hf] at h; cases h
    · simp only [Classical.not_forall] at hd
      obtain ⟨trx, h1, ts, h2, h3⟩ := hd
      obtain ⟨p₀, hp₀⟩ := Option.ne_none_iff_exists'.1 h3
      obtain ⟨trx', ts', p, n, m, ta, -, a2, a3, a4, -, a5⟩ := C45_block he hi ha h1 h2 hp₀
      refine ⟨n, m, a4, .inl ⟨⟨_, a5⟩, ?_, .inl (by rw [a2]; rfl)⟩⟩
      unfold rcvRach at a2 a4
      dsimp only at a2 a4
      split at a4
      · rename_i hq; rw [hq] at a2; cases a2
      · rename_i r hq
        rw [hq] at a2
        dsimp only at a2
        split at a4
        · rename_i hs
          rw [if_pos hs] at a2
          split at a4
          · rename_i hz; rw [hz] at a2; cases a2
          · exact uplink_not_reject (usf := 7) (tai := none) a4
        · rename_i hs
          rw [if_neg hs] at a2
          split at a4
          · rename_i hz; rw [hz] at a2; cases a2
          · exact uplink_not_reject (rfn := 0) a4
  cases ha : asks i with
  | unsupported => exact rej (C45_unsupported hi ha)
  | block => exact blk (.inl ha)
  | tbf c =>
    cases hf : e.forceTwoPhase
    · cases ht : e.tbf (c.getD 0) with
      | none =>
        refine rej (C45_busy hi (.inr ⟨by rw [ha]; nofun, hf⟩) ?_)
        intro c' hc' _
        rw [ha] at hc'
        cases hc'
        exact ht
      | some x =>
        obtain ⟨t, p, usf⟩ := x
        obtain ⟨n, m, ta, a1, a2, a3, -, a4⟩ := C45_tbf he hi ha hf ht
        refine ⟨n, m, a3, .inl ⟨⟨_, a4⟩, ?_, .inr (by rw [a1]; rfl)⟩⟩
        unfold rcvRach at a1 a3
        dsimp only at a1 a3
        split at a3
        · rename_i hq; rw [hq] at a1; cases a1
        · rename_i r hq
          rw [hq] at a1
          dsimp only at a1
          split at a3
          · rename_i hs
            rw [if_pos hs] at a1
            split at a3
            · rename_i hz; rw [hz] at a1; cases a1
            · exact uplink_not_reject (usf := 7) (tai := none) a3
          · rename_i hs
            rw [if_neg hs] at a1
            split at a3
            · rename_i hz; rw [hz] at a1; cases a1
            · exact uplink_not_reject (rfn := 0) a3
    · exact blk (.inr ⟨⟨c, ha⟩, hf⟩)

/-! ## Where the property fails -/

/-- A hopping channel with a list of eight octets, an EGPRS TBF on it. -/
def longPdch : Pdch := { ts := 6, tsc := 2, hop := some { maio := 3, hsn := 41, ma := [1, 2, 3, 4, 5, 6, 7, 8] }, arfcn := 0 }
def longEnv : Env where
  pdch := fun trx ts => if trx = 0 ∧ ts = 6 then some longPdch else none
  sbaFn := fun _ _ => 1000
  tbf := fun _ => some (tbf₂, longPdch, 3)
  forceTwoPhase := false
  alpha := 0
  gamma := 0
  t3142 := 20

/-- **C45**, false: with long lists of hopping frequencies the message does not fit. A TBF is allocated, or a block
reserved, and the mobile is not answered at all. -/
theorem C45_not_answered :
    (let r := rcvRach longEnv { burst := .access1, is11 := true, ra := 0x2a9, rfn := 100, qta := 20 }
     r.out = .fail ∧ r.tbf = some tbf₂) ∧
    (let r := rcvRach longEnv { burst := .access0, is11 := false, ra := 0x73, rfn := 100, qta := 20 }
     r.out = .fail ∧ r.sba = some (0, 6, 1000)) := by decide +kernel

/-- **C45**, an EGPRS request that does not tell the multislot class (short access, reduced latency) gets a GPRS TBF; the
answer however is an EGPRS assignment, in which the coding scheme is read as an EGPRS scheme. -/
theorem C45_gprs_tbf_as_egprs {e : Env} {i : Ind} {t : Tbf} {p : Pdch} {usf : Nat} (he : EnvOk e) (hi : IndOk i)
    (hb : i.burst = .access1 ∨ i.burst = .access2) (ha : asks i = .tbf none) (hf : e.forceTwoPhase = false)
    (ht : e.tbf 0 = some (t, p, usf)) :
    t.egprs = false ∧ (rcvRach e i).tbf = some t ∧ ∃ n m x, (rcvRach e i).out = .msg n m ∧ understood m = some x ∧
      x.rest = .egprsUlTbf (i.ra % 32) t.tfi false usf 0 none t.code false none false t.ws (alphaOf e.alpha) e.gamma none none := by
  obtain ⟨n, m, ta, a1, -, a3, -, a4⟩ := C45_tbf he hi ha hf ht
  obtain ⟨-, -, -, -, -, -, -, k8, -⟩ := he.tbf _ _ _ _ ht
  refine ⟨?_, a1, n, m, _, a3, a4, ?_⟩
  · cases h : t.egprs
    · rfl
    · exact absurd rfl (k8 h)
  · dsimp only
    unfold tbfRest
    rw [if_pos hb]

/-! ## The hypotheses can be met -/

def env₁ : Env where
  pdch := fun trx ts => if trx = 1 ∧ (ts = 5 ∨ ts = 2) then some pdch₁ else none
  sbaFn := fun _ _ => 2715640
  tbf := fun c => if c = 0 then some (tbf₁, pdch₁, 4) else some (tbf₂, pdch₂, 3)
  forceTwoPhase := false
  alpha := 3
  gamma := 12
  t3142 := 20

theorem envOk₁ : EnvOk env₁ where
  par := ⟨by decide, by decide, nofun⟩
  t3142 := by decide
  pdch := by
    intro trx ts p h
    unfold env₁ at h
    dsimp only at h
    split at h
    · cases h; exact ⟨pdchOk₁, by decide⟩
    · cases h
  tbf := by
    intro c t p usf h
    unfold env₁ at h
    dsimp only at h
    split at h
    · rename_i hc; cases h; exact ⟨pdchOk₁, by decide, by decide, by decide, by decide, by unfold WsOk; decide, rfl, nofun, fun _ => by decide⟩
    · rename_i hc; cases h; exact ⟨pdchOk₂, by decide, by decide, by decide, by decide, by unfold WsOk; decide, rfl, fun _ => hc, fun h => absurd h hc⟩

/-- One phase access with class 12, two phase access, short access for one block, for four blocks, emergency call. -/
example : asks { burst := .access1, is11 := true, ra := 0b01011011010, rfn := 0, qta := 0 } = .tbf (some 23) ∧
    asks { burst := .access2, is11 := true, ra := 0b11000011010, rfn := 0, qta := 0 } = .block ∧
    asks { burst := .access2, is11 := true, ra := 0b10000011010, rfn := 0, qta := 0 } = .block ∧
    asks { burst := .access2, is11 := true, ra := 0b10001111010, rfn := 0, qta := 0 } = .tbf none ∧
    asks { burst := .access2, is11 := true, ra := 0b11011111010, rfn := 0, qta := 0 } = .unsupported ∧
    asks { burst := .access0, is11 := false, ra := 0b01110010, rfn := 0, qta := 0 } = .block ∧
    asks { burst := .access0, is11 := false, ra := 0b01111010, rfn := 0, qta := 0 } = .tbf none ∧
    asks { burst := .access0, is11 := true, ra := 0b01111010, rfn := 0, qta := 0 } = .unsupported := by decide +kernel

/-- An answer to one phase access. -/
example : (let r := rcvRach env₁ { burst := .access1, is11 := true, ra := 0b01011011010, rfn := 4711, qta := 23 }
    r.tbf = some tbf₂ ∧ (understood (bitsOf r.out)).map (fun x => (x.ts, x.ta, x.refFrame)) = some (6, 5, 4711)) := by decide +kernel

/-- A block: the second TRX, the upper time slot. -/
example : (let r := rcvRach env₁ { burst := .access0, is11 := false, ra := 0x72, rfn := 4711, qta := 23 }
    r.sba = some (1, 5, 2715640) ∧ (understood (bitsOf r.out)).map (fun x => x.rest) = some (.ulBlock (some 3) 12 42424)) := by decide +kernel

end Verif.Rach
