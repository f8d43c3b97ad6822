import Verif.Lemmas.PcuCfg
import Verif.Props.C69
/-!
C70: the PCU uses a BTS as it last announced itself.

`Follows` (Spec/BtsCfg): a BTS configured as announced. `run` (Model/PcuIf): a history of messages of any octets, from the start of the
PCU.
-/

namespace Verif.PcuIf

open BtsMsg

/-! ### Coding schemes -/

theorem mask_bit (flags start : Nat) : ∀ n i, (maskOf flags start n).testBit i = (decide (i < n) && flags.testBit (start + i))
  | 0, i => by simp [maskOf]
  | n + 1, i => by
    have ih := mask_bit flags start n i
    unfold maskOf at ih ⊢
    rw [List.range_succ, List.foldl_append, List.foldl_cons, List.foldl_nil, Nat.testBit_or, ih]
    by_cases hi : i = n
    · subst hi
      by_cases hf : flags.testBit (start + i)
      · simp [hf, Nat.testBit_two_pow_self]
      · simp [hf]
    · by_cases hf : flags.testBit (start + n)
      · rw [if_pos hf, Nat.testBit_two_pow_of_ne (Ne.symm hi), Bool.or_false, show decide (i < n) = decide (i < n + 1) from decide_eq_decide.2 (by omega)]
      · rw [if_neg hf, Nat.zero_testBit, Bool.or_false, show decide (i < n) = decide (i < n + 1) from decide_eq_decide.2 (by omega)]

theorem flag_cs {cs mcs i : Nat} (hc : cs < 16) (hi : i < 4) : (1 + 65536 * cs + 1048576 * mcs).testBit (16 + i) = cs.testBit i := by
  rw [Nat.testBit_eq_decide_div_mod_eq, Nat.testBit_eq_decide_div_mod_eq]
  apply decide_eq_decide.2
  match i, hi with
  | 0, _ => simp only [Nat.reducePow, Nat.add_zero]; omega
  | 1, _ => simp only [Nat.reducePow, Nat.reduceAdd]; omega
  | 2, _ => simp only [Nat.reducePow, Nat.reduceAdd]; omega
  | 3, _ => simp only [Nat.reducePow, Nat.reduceAdd]; omega

theorem flag_mcs {cs mcs i : Nat} (hc : cs < 16) : (1 + 65536 * cs + 1048576 * mcs).testBit (20 + i) = mcs.testBit i := by
  rw [Nat.testBit_eq_decide_div_mod_eq, Nat.testBit_eq_decide_div_mod_eq]
  apply decide_eq_decide.2
  have : (1 + 65536 * cs + 1048576 * mcs) / 2 ^ (20 + i) = mcs / 2 ^ i := by
    rw [Nat.pow_add, ← Nat.div_div_eq_div_mul]
    congr 1
    simp only [Nat.reducePow]
    omega
  rw [this]

theorem greatest_iff {P Q : Nat → Prop} (h : ∀ k, P k ↔ Q k) {m : Nat} (g : Greatest P m) : Greatest Q m := by
  rcases g with ⟨g1, g2⟩ | ⟨g1, g2⟩
  · exact .inl ⟨(h m).1 g1, fun k hk => g2 k ((h k).2 hk)⟩
  · exact .inr ⟨g1, fun k hk => g2 k ((h k).2 hk)⟩

theorem recalcMax_greatest (mask : Nat) : ∀ n, Greatest (fun k => k ≤ n ∧ 1 ≤ k ∧ mask.testBit (k - 1) = true) (Ms.recalcMax mask n)
  | 0 => .inr ⟨rfl, fun k h => by omega⟩
  | n + 1 => by
    unfold Ms.recalcMax
    by_cases hb : mask.testBit n
    · rw [if_pos hb]; exact .inl ⟨⟨Nat.le_refl _, by omega, hb⟩, fun k h => h.1⟩
    · rw [if_neg hb]
      refine greatest_iff (fun k => ?_) (recalcMax_greatest mask n)
      constructor
      · rintro ⟨h1, h2⟩; exact ⟨by omega, h2⟩
      · rintro ⟨h1, h2, h3⟩
        refine ⟨?_, h2, h3⟩
        by_cases hk : k = n + 1
        · subst hk; exact absurd h3 hb
        · omega

/-! ### An INFO indication -/

/-- What an INFO indication of an active BTS sets. -/
theorem info_follows {e : Env} {b : Bts} {a : Info} {body : List Nat} (h : a.Is body) : Follows e.vty a (infoBts e b (body.take 1003)) := by
  obtain ⟨hl, f⟩ := info_fields h
  generalize hv : body.take 1003 = v at f
  have hvl : v.length = 1003 := by rw [← hv, List.length_take]; omega
  have tf := fun i hi => trx_fields h.ntrx hvl f i hi
  have hcs : ∀ k, 1 ≤ k → ((1 ||| maskOf (u32 v 4) 16 4).testBit (k - 1) = true ↔ a.allowsCs k) := by
    intro k hk
    rw [Nat.testBit_or, mask_bit, f.flags]
    unfold Info.allowsCs
    by_cases h1 : k = 1
    · subst h1; simp
    · have h2 : Nat.testBit 1 (k - 1) = false := by
        rw [show (1 : Nat) = 2 ^ 0 from rfl]
        exact Nat.testBit_two_pow_of_ne (by omega)
      by_cases h3 : k - 1 < 4
      · rw [h2, flag_cs h.cs h3]; simp [h1, h3, hk]
      · have : a.cs.testBit (k - 1) = false := by
          apply Nat.testBit_lt_two_pow
          exact Nat.lt_of_lt_of_le h.cs (show 2 ^ 4 ≤ 2 ^ (k - 1) from Nat.pow_le_pow_right (by decide) (by omega))
        rw [h2, this]; simp [h1, h3]
  have hmcs : ∀ k, 1 ≤ k → ((maskOf (u32 v 4) 20 9).testBit (k - 1) = true ↔ a.allowsMcs k) := by
    intro k hk
    rw [mask_bit, f.flags, flag_mcs h.cs]
    unfold Info.allowsMcs
    by_cases h3 : k - 1 < 9
    · simp [h3, hk]
    · have : a.mcs.testBit (k - 1) = false := by
        apply Nat.testBit_lt_two_pow
        exact Nat.lt_of_lt_of_le h.mcs (show 2 ^ 9 ≤ 2 ^ (k - 1) from Nat.pow_le_pow_right (by decide) (by omega))
      rw [this]; simp
  have gcs : ∀ n, Greatest (fun k => k ≤ n ∧ a.allowsCs k) (Ms.recalcMax (1 ||| maskOf (u32 v 4) 16 4) n) := fun n =>
    greatest_iff (fun k => by
      constructor
      · rintro ⟨h1, h2, h3⟩; exact ⟨h1, (hcs k h2).1 h3⟩
      · rintro ⟨h1, h3⟩
        have h2 : 1 ≤ k := by unfold Info.allowsCs at h3; omega
        exact ⟨h1, h2, (hcs k h2).2 h3⟩) (recalcMax_greatest _ n)
  have gmcs : ∀ n, Greatest (fun k => k ≤ n ∧ a.allowsMcs k) (Ms.recalcMax (maskOf (u32 v 4) 20 9) n) := fun n =>
    greatest_iff (fun k => by
      constructor
      · rintro ⟨h1, h2, h3⟩; exact ⟨h1, (hmcs k h2).1 h3⟩
      · rintro ⟨h1, h3⟩
        exact ⟨h1, h3.1, (hmcs k h3.1).2 h3⟩) (recalcMax_greatest _ n)
  have ics : ∀ (c : Ms.Cfg) f m, c.infoInitCs = a.initCs → Ms.recalcInitCs c f m = if c.forceInitCs then f else max 1 (min a.initCs m) := by
    intro c f m hc
    unfold Ms.recalcInitCs
    cases c.forceInitCs
    · simp only [Bool.false_eq_true, if_false, hc]
      split <;> split <;> omega
    · rfl
  have imcs : ∀ (c : Ms.Cfg) f m, c.infoInitMcs = a.initMcs → Ms.recalcInitMcs c f m = if c.forceInitMcs then f else min a.initMcs m := by
    intro c f m hc
    unfold Ms.recalcInitMcs
    cases c.forceInitMcs
    · simp only [Bool.false_eq_true, if_false, hc]
      split <;> omega
    · rfl
  have hp : ∀ trx ts, trx < 8 → ts < 8 →
      (infoBts e b v).pdch trx ts = cfgPdch (b.pdch trx ts) (a.chan trx ts).isSome (tsInfo v trx ts) := by
    intro trx ts h1 h2
    unfold infoBts
    dsimp only
    rw [if_pos ⟨h1, h2⟩, (tf trx h1).2.2.1 ts h2]
  refine { active := rfl, cgi := f.cgi, bsic := f.bsic, arfcn := ?_, used := ?_, tsc := ?_, hop := ?_, cs := hcs, mcs := hmcs
           maxCsDl := gcs _, maxCsUl := gcs _, maxMcsDl := gmcs _, maxMcsUl := gmcs _
           initCsDl := ics _ _ _ f.initCs, initCsUl := ics _ _ _ f.initCs, initMcsDl := imcs _ _ _ f.initMcs, initMcsUl := imcs _ _ _ f.initMcs
           counters := ?_, idle := ?_ }
  · intro i t ht
    have hi : i < 8 := by
      have := (List.getElem?_eq_some_iff.1 ht).1
      rw [h.ntrx] at this; exact this
    exact (tf i hi).2.1 t ht
  · intro trx ts h1 h2
    rw [hp trx ts h1 h2]
    unfold cfgPdch
    cases a.chan trx ts <;> rfl
  · intro trx ts c h1 h2 hc
    rw [hp trx ts h1 h2, hc]
    exact ((tf trx h1).2.2.2 ts c h2 hc).1
  · intro trx ts c hh h1 h2 hc hhop
    rw [hp trx ts h1 h2, hc]
    obtain ⟨g1, g2, g3, g4, g5, g6, g7⟩ := ((tf trx h1).2.2.2 ts c h2 hc).2.2 hh hhop
    show hopOf (setFh _ _) = some hh
    unfold setFh
    rw [if_neg g1, g2, g3, g4]
    show some (⟨hh.hsn, hh.maio, hh.bits, (slice (tsInfo v trx ts).ma (8 - (hh.bits + 7) / 8) ((hh.bits + 7) / 8) ++ _).take ((hh.bits + 7) / 8)⟩ : Hop) = some hh
    rw [g7, List.take_left' g6]
  · intro ht
    have ht' : u8 v 941 ≠ 0 := by rw [f.t3142]; exact ht
    unfold infoBts
    dsimp only
    rw [if_pos ht', if_pos ht', if_pos ht', f.n3101, f.n3103, f.n3105]
    exact ⟨rfl, rfl, rfl⟩
  · show genIdleOf (u8 v 1002) = true ↔ _
    rw [f.model]
    unfold genIdleOf
    simp only [Bool.and_eq_true, decide_eq_true_eq, List.mem_cons, List.not_mem_nil, or_false]
    omega

theorem rx_info {e : Env} {s : St} {nr : Nat} {fill body : List Nat} {a : Info} (hf : fill.length = 2) (h : a.Is body) :
    rx e s (msg 0x32 nr fill body) = rxInfo e (s.ensure nr) nr (s.bts' nr) (body.take 1003) := by
  rw [rx_msg _ _ _ _ _ _ hf]
  dsimp only
  rw [if_neg (by decide), if_neg (by decide), if_neg (by decide), if_neg (by decide), if_pos rfl, check_ok hf (info_fields h).1]

theorem flag_active {a : Info} {v : List Nat} (f : Fields a v) : (u32 v 4).testBit 0 = true := by
  rw [f.flags, Nat.testBit_zero, decide_eq_true_eq]
  omega

/-- A well-formed announcement, if it is handled, is taken over. -/
theorem rx_info_ok {e : Env} {s s' : St} {nr : Nat} {fill body : List Nat} {a : Info} {o : List Out} {acc : Bool} (hf : fill.length = 2)
    (h : a.Is body) (hx : rx e s (msg 0x32 nr fill body) = .ok s' o acc) :
    s' = { (s.ensure nr).set nr (infoBts e (s.bts' nr) (body.take 1003)) with timers := infoTimers (s.ensure nr).timers (body.take 1003) } ∧
      (s'.get nr).isSome ∧ s'.bts' nr = infoBts e (s.bts' nr) (body.take 1003) := by
  rw [rx_info hf h] at hx
  rcases rxInfo_ok hx with ⟨_, _, _, h1⟩ | ⟨rfl, _, _⟩
  · rw [flag_active (info_fields h).2] at h1; cases h1
  · refine ⟨rfl, ?_, ?_⟩
    · show (((s.ensure nr).set nr _).get nr).isSome
      rw [get_set _ _ _ _ (ensure_some s nr), if_pos rfl]; rfl
    · rw [info_bts', if_pos rfl]

theorem info_stop {a : Info} {body : List Nat} (h : a.Is body) (i : Nat) (hi : i < 8) : trxStop (body.take 1003) i = none := by
  obtain ⟨hl, f⟩ := info_fields h
  have hvl : (body.take 1003).length = 1003 := by rw [List.length_take]; omega
  obtain ⟨t1, t2, t3, t4⟩ := trx_fields h.ntrx hvl f i hi
  unfold trxStop
  rw [if_neg (by rw [t1]; simp), if_neg]
  simp only [List.any_eq_true, List.mem_range, Bool.and_eq_true, decide_eq_true_eq, not_exists, not_and]
  intro ts hts ⟨h1, h2⟩ h3
  rw [t3 ts hts] at h1
  obtain ⟨c, hc⟩ := Option.isSome_iff_exists.1 h1
  obtain ⟨g1, g2, g3⟩ := t4 ts c hts hc
  cases hh : c.hop with
  | none => exact h2 (g2 hh)
  | some hp =>
    obtain ⟨k1, k2, k3, k4, k5, _⟩ := g3 hp hh
    omega

/-- An announcement of an active BTS with a connection to the SGSN is taken over, in all states, if BSSGP and NS can be set up: they are told
the identifiers and addresses announced. -/
theorem C70_accepted (e : Env) (s : St) (nr : Nat) (fill body : List Nat) (a : Info) (hf : fill.length = 2) (h : a.Is body)
    (he : e.bssgp = true) (hn : e.ns = true) (hv : a.vcs.1.isSome ∨ a.vcs.2.isSome) :
    ∃ s' acts, rx e s (msg 0x32 nr fill body) =
      .ok s' (.bssgp nr a.nsei a.bvci a.cgi :: .ns nr a.nsei [a.vcs.1.map vcOf, a.vcs.2.map vcOf] :: acts) true := by
  obtain ⟨hl, f⟩ := info_fields h
  have hx := rxInfo_active (e := e) (s := s.ensure nr) (nr := nr) (b := s.bts' nr) f.version (flag_active f) he hn
    (by rw [f.vc0, f.vc1, Option.isSome_map, Option.isSome_map]; exact hv) (info_stop h)
  rw [f.nsei, f.bvci, f.cgi, f.vc0, f.vc1] at hx
  exact ⟨_, _, (rx_info hf h).trans hx⟩

/-- After any history of messages, of this BTS and of others, the PCU uses a BTS as it last announced itself. Partial: hopping on a channel
that is announced without (see below), timers. -/
theorem C70_config_partial (e : Env) (nr : Nat) (ms1 ms2 : List (List Nat)) (fill body : List Nat) (a : Info) (s : St) (o : List Out)
    (hf : fill.length = 2) (h : a.Is body) (hr : run e {} (ms1 ++ msg 0x32 nr fill body :: ms2) = some (s, o))
    (hl : ∀ m ∈ ms2, ¬ AboutInfo nr m) : ∃ b, s.get nr = some b ∧ Follows e.vty a b := by
  obtain ⟨s1, o1, o2, h1, h2, _⟩ := run_split hr
  obtain ⟨s2, o3, acc, o4, h3, h4, _⟩ := run_cons h2
  obtain ⟨h5, h6, h7⟩ := rx_info_ok hf h h3
  obtain ⟨h8, h9⟩ := run_keep nr ms2 s2 s o4 h4 hl
  refine ⟨s.bts' nr, bts'_get (h9 h6), follows_cfg h8 ?_⟩
  rw [h7]
  exact info_follows h

/-! ### Hopping -/

theorem info_fh {e : Env} {b : Bts} {a : Info} {body : List Nat} (h : a.Is body) (trx ts : Nat) (ht : trx < 8) (hts : ts < 8)
    (hh : ∀ c, a.chan trx ts = some c → c.hop = none) : ((infoBts e b (body.take 1003)).pdch trx ts).fh = (b.pdch trx ts).fh := by
  obtain ⟨hl, f⟩ := info_fields h
  have hvl : (body.take 1003).length = 1003 := by rw [List.length_take]; omega
  obtain ⟨t1, t2, t3, t4⟩ := trx_fields h.ntrx hvl f trx ht
  unfold infoBts
  dsimp only
  rw [if_pos ⟨ht, hts⟩, t3 ts hts]
  unfold cfgPdch
  cases hc : a.chan trx ts with
  | none => rfl
  | some c =>
    show setFh _ _ = _
    unfold setFh
    rw [if_pos ((t4 ts c hts hc).2.1 (hh c hc))]

/-- A channel that was never announced with hopping is used without. -/
theorem C70_no_hopping_partial (e : Env) (nr trx ts : Nat) (ht : trx < 8) (hts : ts < 8) : ∀ (ms : List (List Nat)) (s : St) (o : List Out),
    run e {} ms = some (s, o) →
    (∀ m ∈ ms, AboutInfo nr m → ∃ fill body a, fill.length = 2 ∧ m = msg 0x32 nr fill body ∧ Info.Is a body ∧
      ∀ c, a.chan trx ts = some c → c.hop = none) →
    ∀ b, s.get nr = some b → hopOf (b.pdch trx ts).fh = none := by
  have key : ∀ (ms : List (List Nat)) (s s' : St) (o : List Out), run e s ms = some (s', o) →
      (∀ m ∈ ms, AboutInfo nr m → ∃ fill body a, fill.length = 2 ∧ m = msg 0x32 nr fill body ∧ Info.Is a body ∧
        ∀ c, a.chan trx ts = some c → c.hop = none) → ((s'.bts' nr).pdch trx ts).fh = ((s.bts' nr).pdch trx ts).fh := by
    intro ms
    induction ms with
    | nil =>
      intro s s' o h _
      rw [run] at h
      obtain ⟨rfl, rfl⟩ : s = s' ∧ [] = o := by simpa using h
      rfl
    | cons m ms ih =>
      intro s s' o h hm
      obtain ⟨s1, o1, acc, o2, h1, h2, _⟩ := run_cons h
      rw [ih s1 s' o2 h2 (fun x hx => hm x (List.mem_cons_of_mem _ hx))]
      by_cases hi : AboutInfo nr m
      · obtain ⟨fill, body, a, hf, rfl, ha, hh⟩ := hm m List.mem_cons_self hi
        rw [(rx_info_ok hf ha h1).2.2]
        exact info_fh ha trx ts ht hts hh
      · have := (rx_keep h1 nr hi).1
        have h3 := congrArg (fun b => (Bts.pdch b trx ts).fh) this
        exact h3
  intro ms s o h hm b hb
  have h1 := key ms {} s o h hm
  have h2 : s.bts' nr = b := by unfold St.bts'; rw [hb]; rfl
  rw [h2] at h1
  rw [h1]
  rfl

/-! ### Channels -/

/-- The state of a channel after more requests. -/
def reqFrom (nr trx ts : Nat) (o : List Out) (st : Bool) : Bool :=
  o.foldl (fun st x => match x with | .actReq n t s on => if n = nr ∧ t = trx ∧ s = ts then on else st | _ => st) st

theorem reqFrom_none {nr trx ts : Nat} : ∀ {o : List Out} {st : Bool}, (∀ on, Out.actReq nr trx ts on ∉ o) → reqFrom nr trx ts o st = st
  | [], _, _ => rfl
  | x :: o, st, h => by
    have ih : ∀ st, reqFrom nr trx ts o st = st := fun st => reqFrom_none (fun on hc => h on (List.mem_cons_of_mem _ hc))
    show reqFrom nr trx ts o _ = st
    rw [ih]
    cases x with
    | actReq n t s on =>
      dsimp only
      rw [if_neg]
      rintro ⟨rfl, rfl, rfl⟩
      exact h on List.mem_cons_self
    | _ => rfl

theorem reqFrom_append (nr trx ts : Nat) (o1 o2 : List Out) (st : Bool) : reqFrom nr trx ts (o1 ++ o2) st = reqFrom nr trx ts o2 (reqFrom nr trx ts o1 st) :=
  List.foldl_append

theorem mem_acts {nr trx ts n t k : Nat} {b : Bts} {v : List Nat} {on : Bool} (h : Out.actReq n t k on ∈ actOf nr trx ts (b.pdch trx ts) ((trxMask v trx).testBit ts)) :
    n = nr ∧ t = trx ∧ k = ts ∧ on = (trxMask v trx).testBit ts ∧ (b.pdch trx ts).enabled ≠ on := by
  unfold actOf at h
  split at h
  · simp at h
  · rename_i hne
    simp only [List.mem_cons, List.not_mem_nil, or_false, Out.actReq.injEq] at h
    obtain ⟨rfl, rfl, rfl, rfl⟩ := h
    exact ⟨rfl, rfl, rfl, rfl, hne⟩

/-- One of a list of lists concerns the channel. -/
theorem reqFrom_flatMap {nr trx ts : Nat} {f : Nat → List Out} {st st' : Bool} (i : Nat) : ∀ (n : Nat), i < n →
    (∀ j, j ≠ i → ∀ on, Out.actReq nr trx ts on ∉ f j) → reqFrom nr trx ts (f i) st = st' → reqFrom nr trx ts ((List.range n).flatMap f) st = st'
  | 0, h, _, _ => by omega
  | n + 1, h, h1, h2 => by
    rw [List.range_succ, List.flatMap_append, reqFrom_append]
    simp only [List.flatMap_cons, List.flatMap_nil, List.append_nil]
    by_cases hi : i = n
    · subst hi
      rw [reqFrom_none (o := (List.range i).flatMap f), h2]
      intro on hc
      obtain ⟨j, hj, hm⟩ := List.mem_flatMap.1 hc
      exact h1 j (by rw [List.mem_range] at hj; omega) on hm
    · rw [reqFrom_flatMap i n (by omega) h1 h2]
      exact reqFrom_none (h1 n (by omega))

theorem reqFrom_info {nr trx ts : Nat} {b : Bts} {v : List Nat} (ht : trx < 8) (hts : ts < 8) :
    reqFrom nr trx ts (infoActs nr b v) (b.pdch trx ts).enabled = (trxMask v trx).testBit ts := by
  unfold infoActs
  refine reqFrom_flatMap trx 8 ht ?_ (reqFrom_flatMap ts 8 hts ?_ ?_)
  · intro j hj on hc
    obtain ⟨k, _, hk⟩ := List.mem_flatMap.1 hc
    exact hj (mem_acts hk).2.1.symm
  · intro j hj on hc
    exact hj (mem_acts hc).2.2.1.symm
  · unfold actOf
    split
    · rename_i h; exact h
    · show (if nr = nr ∧ trx = trx ∧ ts = ts then (trxMask v trx).testBit ts else (b.pdch trx ts).enabled) = _
      rw [if_pos ⟨rfl, rfl, rfl⟩]

theorem info_no_act {nr n trx ts : Nat} {b : Bts} {v : List Nat} {on : Bool} (h : Out.actReq n trx ts on ∈ infoActs nr b v) : n = nr ∧ trx < 8 ∧ ts < 8 := by
  obtain ⟨i, hi, h1⟩ := List.mem_flatMap.1 h
  obtain ⟨j, hj, h2⟩ := List.mem_flatMap.1 h1
  obtain ⟨r1, rfl, rfl, _⟩ := mem_acts h2
  exact ⟨r1, List.mem_range.1 hi, List.mem_range.1 hj⟩

theorem rx_requested {e : Env} {s s' : St} {m : List Nat} {o : List Out} {acc : Bool} (h : rx e s m = .ok s' o acc) (nr trx ts : Nat) :
    ((s'.bts' nr).pdch trx ts).enabled = reqFrom nr trx ts o ((s.bts' nr).pdch trx ts).enabled := by
  rcases rx_step h with h1 | ⟨h1, h2, h3⟩
  · rw [reqFrom_none (fun on => h1.acts _ _ _ _)]
    by_cases hnr : nr = u8 m 1
    · rw [hnr]
      have h2 := congrArg (fun b => (Bts.pdch b trx ts).enabled) h1.this
      exact h2
    · rw [h1.other nr hnr]
  · rcases rxInfo_ok h3 with ⟨rfl, rfl, _⟩ | ⟨rfl, rfl, _⟩
    · rw [ensure_bts']; rfl
    · rw [info_bts']
      show _ = reqFrom nr trx ts (infoActs _ _ _) _
      by_cases hnr : nr = u8 m 1
      · rw [if_pos hnr]
        by_cases hb : trx < 8 ∧ ts < 8
        · rw [hnr, reqFrom_info hb.1 hb.2]
          unfold infoBts
          dsimp only
          rw [if_pos hb]
          unfold cfgPdch
          split <;> rename_i hx
          · exact hx.symm
          · simp only [Bool.not_eq_true] at hx; exact hx.symm
        · rw [reqFrom_none]
          · unfold infoBts
            dsimp only
            rw [if_neg hb, hnr]
          · intro on hc
            exact hb (info_no_act hc).2
      · rw [if_neg hnr, reqFrom_none]
        intro on hc
        exact hnr (info_no_act hc).1

/-- For all histories of messages: the channels in use are those the BTS was last requested to activate. -/
theorem C70_requested (e : Env) (ms : List (List Nat)) (s : St) (o : List Out) (h : run e {} ms = some (s, o)) (nr trx ts : Nat) (b : Bts)
    (hb : s.get nr = some b) : (b.pdch trx ts).enabled = Requested nr trx ts o := by
  have key : ∀ (ms : List (List Nat)) (s s' : St) (o : List Out), run e s ms = some (s', o) →
      ((s'.bts' nr).pdch trx ts).enabled = reqFrom nr trx ts o ((s.bts' nr).pdch trx ts).enabled := by
    intro ms
    induction ms with
    | nil =>
      intro s s' o h
      rw [run] at h
      obtain ⟨rfl, rfl⟩ : s = s' ∧ [] = o := by simpa using h
      rfl
    | cons m ms ih =>
      intro s s' o h
      obtain ⟨s1, o1, acc, o2, h1, h2, rfl⟩ := run_cons h
      rw [ih s1 s' o2 h2, rx_requested h1, reqFrom_append]
  have h2 : s.bts' nr = b := by unfold St.bts'; rw [hb]; rfl
  have h1 := key ms {} s o h
  rw [h2] at h1
  exact h1

/-- Every request concerning the channel changes its state. -/
def Toggles (nr trx ts : Nat) : Bool → List Out → Prop
  | _, [] => True
  | st, x :: o => (∀ on, x = .actReq nr trx ts on → on ≠ st) ∧ Toggles nr trx ts (reqFrom nr trx ts [x] st) o

theorem toggles_append {nr trx ts : Nat} : ∀ {o1 o2 : List Out} {st : Bool}, Toggles nr trx ts st o1 →
    Toggles nr trx ts (reqFrom nr trx ts o1 st) o2 → Toggles nr trx ts st (o1 ++ o2)
  | [], _, _, _, h => h
  | x :: o1, o2, st, ⟨h1, h2⟩, h => ⟨h1, toggles_append h2 (by
      rw [← reqFrom_append]; exact h)⟩

theorem toggles_split {nr trx ts : Nat} : ∀ {o1 o2 : List Out} {st : Bool}, Toggles nr trx ts st (o1 ++ o2) →
    Toggles nr trx ts (reqFrom nr trx ts o1 st) o2
  | [], _, _, h => h
  | x :: o1, o2, st, ⟨h1, h2⟩ => by
    have := toggles_split h2
    rw [← reqFrom_append] at this
    exact this

theorem toggles_none {nr trx ts : Nat} : ∀ {o : List Out} {st : Bool}, (∀ on, Out.actReq nr trx ts on ∉ o) → Toggles nr trx ts st o
  | [], _, _ => trivial
  | x :: o, st, h => ⟨fun on hx => absurd (hx ▸ List.mem_cons_self) (h on), toggles_none fun on hc => h on (List.mem_cons_of_mem _ hc)⟩

theorem toggles_flatMap {nr trx ts : Nat} {f : Nat → List Out} {st : Bool} (i : Nat) (h2 : Toggles nr trx ts st (f i))
    (h1 : ∀ j, j ≠ i → ∀ on, Out.actReq nr trx ts on ∉ f j) : ∀ n, Toggles nr trx ts st ((List.range n).flatMap f)
  | 0 => trivial
  | n + 1 => by
    rw [List.range_succ, List.flatMap_append]
    simp only [List.flatMap_cons, List.flatMap_nil, List.append_nil]
    by_cases hi : i = n
    · subst hi
      have h3 : ∀ on, Out.actReq nr trx ts on ∉ (List.range i).flatMap f := by
        intro on hc
        obtain ⟨j, hj, hm⟩ := List.mem_flatMap.1 hc
        exact h1 j (by rw [List.mem_range] at hj; omega) on hm
      exact toggles_append (toggles_none h3) (by rw [reqFrom_none h3]; exact h2)
    · exact toggles_append (toggles_flatMap i h2 h1 n) (toggles_none (h1 n (by omega)))

theorem toggles_info {nr trx ts : Nat} {b : Bts} {v : List Nat} : Toggles nr trx ts (b.pdch trx ts).enabled (infoActs nr b v) := by
  unfold infoActs
  refine toggles_flatMap trx (toggles_flatMap ts ?_ ?_ 8) ?_ 8
  · unfold actOf
    split
    · trivial
    · rename_i h
      refine ⟨?_, trivial⟩
      intro on hx
      simp only [Out.actReq.injEq, true_and] at hx
      rw [← hx]; exact Ne.symm h
  · intro j hj on hc
    exact hj (mem_acts hc).2.2.1.symm
  · intro j hj on hc
    obtain ⟨k, _, hk⟩ := List.mem_flatMap.1 hc
    exact hj (mem_acts hk).2.1.symm

theorem rx_toggles {e : Env} {s s' : St} {m : List Nat} {o : List Out} {acc : Bool} (h : rx e s m = .ok s' o acc) (nr trx ts : Nat) :
    Toggles nr trx ts ((s.bts' nr).pdch trx ts).enabled o := by
  rcases rx_step h with h1 | ⟨h1, h2, h3⟩
  · exact toggles_none fun on => h1.acts _ _ _ _
  · rcases rxInfo_ok h3 with ⟨rfl, rfl, _⟩ | ⟨rfl, rfl, _⟩
    · trivial
    · refine ⟨fun on hx => (nomatch hx), fun on hx => (nomatch hx), ?_⟩
      show Toggles nr trx ts ((s.bts' nr).pdch trx ts).enabled (infoActs _ _ _)
      by_cases hnr : nr = u8 m 1
      · rw [hnr]; exact toggles_info
      · refine toggles_none ?_
        intro on hc
        exact hnr (info_no_act hc).1

/-- For all histories of messages: a channel is activated only if it is not, and deactivated only if it is. -/
theorem C70_toggles (e : Env) (ms : List (List Nat)) (s : St) (o1 o2 : List Out) (nr trx ts : Nat) (on : Bool)
    (h : run e {} ms = some (s, o1 ++ .actReq nr trx ts on :: o2)) : Requested nr trx ts o1 ≠ on := by
  have key : ∀ (ms : List (List Nat)) (s s' : St) (o : List Out), run e s ms = some (s', o) →
      Toggles nr trx ts ((s.bts' nr).pdch trx ts).enabled o := by
    intro ms
    induction ms with
    | nil =>
      intro s s' o h
      rw [run] at h
      obtain ⟨rfl, rfl⟩ : s = s' ∧ [] = o := by simpa using h
      trivial
    | cons m ms ih =>
      intro s s' o h
      obtain ⟨s1, o1, acc, o2, h1, h2, rfl⟩ := run_cons h
      refine toggles_append (rx_toggles h1 nr trx ts) ?_
      rw [← rx_requested h1]
      exact ih s1 s' o2 h2
  have h1 := toggles_split (key ms {} s _ h)
  exact Ne.symm (h1.1 on rfl)

/-! ### Timers -/

/-- A single BTS: the timers are those last announced. -/
theorem C70_timers_partial (e : Env) (nr : Nat) (ms1 ms2 : List (List Nat)) (fill body : List Nat) (a : Info) (s : St) (o : List Out)
    (hf : fill.length = 2) (h : a.Is body) (ht : a.t3142 ≠ 0) (hr : run e {} (ms1 ++ msg 0x32 nr fill body :: ms2) = some (s, o))
    (hl : ∀ m ∈ ms2, m[1]? = some nr ∧ m[0]? ≠ some 0x32) : s.timers = a.timers := by
  obtain ⟨s1, o1, o2, h1, h2, _⟩ := run_split hr
  obtain ⟨s2, o3, acc, o4, h3, h4, _⟩ := run_cons h2
  obtain ⟨h5, h6, h7⟩ := rx_info_ok hf h h3
  have h8 : s2.timers = a.timers := by
    rw [h5]
    have f := (info_fields h).2
    show infoTimers _ _ = _
    unfold infoTimers Info.timers
    rw [f.t3142, f.t3169, f.t3191, f.t3193, f.t3195, if_pos ht]
  have key : ∀ (ms : List (List Nat)) (s s' : St) (o : List Out), run e s ms = some (s', o) → (s.get nr).isSome →
      (∀ m ∈ ms, m[1]? = some nr ∧ m[0]? ≠ some 0x32) → s'.timers = s.timers := by
    intro ms
    induction ms with
    | nil =>
      intro s s' o h _ _
      rw [run] at h
      obtain ⟨rfl, rfl⟩ : s = s' ∧ [] = o := by simpa using h
      rfl
    | cons m ms ih =>
      intro s s' o h hs hm
      obtain ⟨s1, o1, acc, o2, h1, h2, rfl⟩ := run_cons h
      obtain ⟨m1, m2⟩ := hm m List.mem_cons_self
      rcases rx_step h1 with g1 | ⟨g1, g2, _⟩
      · rw [u8_of_some m1] at g1
        rw [ih s1 s' o2 h2 (g1.mono nr hs) (fun x hx => hm x (List.mem_cons_of_mem _ hx)), g1.timers hs]
      · exact absurd (u8_some g1 (by omega)) m2
  rw [key ms2 s2 s o4 h4 h6 hl, h8]

/-! ### System information -/

theorem dataBcch_si (b : Bts) (d : List Nat) (n : Nat) (k : SiKind)
    (h : ¬ ((n = 23 ∧ u8 d 2 = k.type) ∨ (n = 1 ∧ u8 d 0 = k.code) ∨ (n = 0 ∧ k = .si13))) : siOf (dataBcch b d n).1 k = siOf b k := by
  unfold dataBcch
  by_cases h0 : n = 0
  · subst h0
    rw [if_pos rfl]
    cases k <;> first | rfl | exact absurd (.inr (.inr ⟨rfl, rfl⟩)) h
  rw [if_neg h0]
  by_cases h1 : n = 1
  · subst h1
    have hc : u8 d 0 ≠ k.code := fun hc => h (.inr (.inl ⟨rfl, hc⟩))
    rw [if_pos rfl]
    by_cases c1 : u8 d 0 = 1
    · rw [if_pos c1]; cases k <;> first | rfl | exact absurd c1 hc
    rw [if_neg c1]
    by_cases c2 : u8 d 0 = 2
    · rw [if_pos c2]; cases k <;> first | rfl | exact absurd c2 hc
    rw [if_neg c2]
    by_cases c3 : u8 d 0 = 3
    · rw [if_pos c3]; cases k <;> first | rfl | exact absurd c3 hc
    rw [if_neg c3]
    by_cases c4 : u8 d 0 = 11
    · rw [if_pos c4]; cases k <;> first | rfl | exact absurd c4 hc
    rw [if_neg c4]
  rw [if_neg h1]
  by_cases h2 : n = 23
  · subst h2
    have hc : u8 d 2 ≠ k.type := fun hc => h (.inl ⟨rfl, hc⟩)
    rw [if_pos rfl]
    by_cases c1 : u8 d 2 = 0x19
    · rw [if_pos c1]; cases k <;> first | rfl | exact absurd c1 hc
    rw [if_neg c1]
    by_cases c2 : u8 d 2 = 0x1a
    · rw [if_pos c2]; cases k <;> first | rfl | exact absurd c2 hc
    rw [if_neg c2]
    by_cases c3 : u8 d 2 = 0x1b
    · rw [if_pos c3]; cases k <;> first | rfl | exact absurd c3 hc
    rw [if_neg c3]
    by_cases c4 : u8 d 2 = 0
    · rw [if_pos c4]; cases k <;> first | rfl | exact absurd c4 hc
    rw [if_neg c4]
  rw [if_neg h2]

/-- The state that follows a DATA indication. -/
theorem rxDataInd_si {s s' : St} {nr : Nat} {b : Bts} {v : List Nat} {o : List Out} {acc : Bool} (h : rxDataInd s nr b v = .ok s' o acc) (k : SiKind)
    (hs : (s.get nr).isSome) (hb : s.bts' nr = b)
    (hn : u8 v 0 = 4 → ¬ ((u8 v 1 = 23 ∧ u8 (slice v 2 162) 2 = k.type) ∨ (u8 v 1 = 1 ∧ u8 (slice v 2 162) 0 = k.code) ∨ (u8 v 1 = 0 ∧ k = .si13))) :
    siOf (s'.bts' nr) k = siOf b k := by
  unfold rxDataInd at h
  dsimp only at h
  by_cases h1 : u8 v 0 = 5
  · rw [if_pos h1] at h
    split at h
    · cases h
    · split at h
      · cases h
      · split at h
        · cases h; rw [set_bts' _ _ _ _ hs, if_pos rfl]; cases k <;> rfl
        · split at h
          · cases h
          · cases h; rw [set_bts' _ _ _ _ hs, if_pos rfl]; cases k <;> rfl
  · rw [if_neg h1] at h
    by_cases h2 : u8 v 0 = 4
    · rw [if_pos h2] at h
      cases h
      rw [set_bts' _ _ _ _ hs, if_pos rfl]
      exact dataBcch_si _ _ _ _ (hn h2)
    · rw [if_neg h2] at h
      cases h
      rw [hb]

theorem rx_si {e : Env} {s s' : St} {m : List Nat} {o : List Out} {acc : Bool} (h : rx e s m = .ok s' o acc) (nr : Nat) (k : SiKind)
    (hn : ¬ AboutSi nr k m) : siOf (s'.bts' nr) k = siOf (s.bts' nr) k := by
  by_cases hnr : nr = u8 m 1
  · rcases rx_step' h with h1 | ⟨h1, h2, h3⟩ | ⟨h1, h2, h3⟩
    · rw [h1 nr]
    · rw [hnr]
      rw [hnr] at hn
      have hl : (slice m 4 180).length = 180 := by unfold slice; rw [List.length_take, List.length_drop]; omega
      refine rxDataInd_si h3 k (ensure_some s _) (ensure_bts' s _ _) ?_
      intro h4 h5
      apply hn
      refine ⟨u8_some h1 (by omega), u8_some rfl (by omega), u8_some ?_ (by omega), ?_⟩
      · rw [u8_slice (by omega)] at h4; exact h4
      · rcases h5 with ⟨a1, a2⟩ | ⟨a1, a2⟩ | ⟨a1, a2⟩
        · rw [u8_slice (by omega)] at a1
          rw [u8_slice (by omega), u8_slice (by omega)] at a2
          exact .inl ⟨u8_some a1 (by omega), u8_some a2 (by omega)⟩
        · rw [u8_slice (by omega)] at a1
          rw [u8_slice (by omega), u8_slice (by omega)] at a2
          exact .inr (.inl ⟨u8_some a1 (by omega), u8_some a2 (by omega)⟩)
        · rw [u8_slice (by omega)] at a1
          exact .inr (.inr ⟨u8_some a1 (by omega), a2⟩)
    · rcases rxInfo_ok h3 with ⟨rfl, _⟩ | ⟨rfl, _⟩
      · rw [ensure_bts']
      · rw [info_bts', if_pos hnr, hnr]; cases k <;> rfl
  · have : s'.bts' nr = s.bts' nr := by
      rcases rx_step h with h1 | ⟨h1, h2, h3⟩
      · exact h1.other nr hnr
      · rcases rxInfo_ok h3 with ⟨rfl, _⟩ | ⟨rfl, _⟩
        · exact ensure_bts' s _ _
        · rw [info_bts', if_neg hnr]
    rw [this]

theorem run_si {e : Env} (nr : Nat) (k : SiKind) : ∀ (ms : List (List Nat)) (s s' : St) (o : List Out), run e s ms = some (s', o) →
    (∀ m ∈ ms, ¬ AboutSi nr k m) → siOf (s'.bts' nr) k = siOf (s.bts' nr) k
  | [], s, s', o, h, _ => by
    rw [run] at h
    obtain ⟨rfl, rfl⟩ : s = s' ∧ [] = o := by simpa using h
    rfl
  | m :: ms, s, s', o, h, hm => by
    obtain ⟨s1, o1, acc, o2, h1, h2, _⟩ := run_cons h
    rw [run_si nr k ms s1 s' o2 h2 (fun x hx => hm x (List.mem_cons_of_mem _ hx)), rx_si h1 nr k (hm m List.mem_cons_self)]

theorem run_mono {e : Env} (nr : Nat) : ∀ (ms : List (List Nat)) (s s' : St) (o : List Out), run e s ms = some (s', o) →
    (s.get nr).isSome → (s'.get nr).isSome
  | [], s, s', o, h, hs => by
    rw [run] at h
    obtain ⟨rfl, rfl⟩ : s = s' ∧ [] = o := by simpa using h
    exact hs
  | m :: ms, s, s', o, h, hs => by
    obtain ⟨s1, o1, acc, o2, h1, h2, _⟩ := run_cons h
    refine run_mono nr ms s1 s' o2 h2 ?_
    rcases rx_step h1 with h1 | ⟨h1, _, h3⟩
    · exact h1.mono nr hs
    · rcases rxInfo_ok h3 with ⟨rfl, _⟩ | ⟨rfl, _⟩
      · exact ensure_mono s _ _ hs
      · exact set_mono _ _ _ _ (ensure_some s _) (ensure_mono s _ _ hs)

theorem rx_bcch (e : Env) (s : St) (nr : Nat) {fill body : List Nat} {d : Data} (hf : fill.length = 2) (h : d.Is body) (hs : d.sapi = 4) :
    rx e s (msg 0x02 nr fill body) = .ok ((s.ensure nr).set nr (dataBcch (s.bts' nr) (slice body 2 162) d.data.length).1) []
      (dataBcch (s.bts' nr) (slice body 2 162) d.data.length).2 := by
  obtain ⟨g0, g1, g2, g3, _⟩ := data_fields h
  rw [rx_msg _ _ _ _ _ _ hf]
  dsimp only
  rw [if_pos rfl, check_ok hf (by omega), ← g0, List.take_length]
  unfold rxDataInd
  dsimp only
  rw [g1, hs, if_neg (by decide), if_pos rfl, g2]

/-- For all histories: the system information the PCU has of each type is what the BTS last sent, or none after it was withdrawn. `d`: a DATA
indication on the BCCH with system information of this type, or with its number alone. -/
theorem C70_system_information (e : Env) (nr : Nat) (k : SiKind) (ms1 ms2 : List (List Nat)) (fill body : List Nat) (d : Data) (s : St)
    (o : List Out) (hf : fill.length = 2) (h : d.Is body) (hs : d.sapi = 4)
    (hr : run e {} (ms1 ++ msg 0x02 nr fill body :: ms2) = some (s, o)) (hl : ∀ m ∈ ms2, ¬ AboutSi nr k m) :
    ∃ b, s.get nr = some b ∧ (d.data.length = 23 → d.data[2]? = some k.type → siOf b k = some d.data) ∧
      (d.data = [k.code] → siOf b k = none) := by
  obtain ⟨s1, o1, o2, h1, h2, _⟩ := run_split hr
  obtain ⟨s2, o3, acc, o4, h3, h4, _⟩ := run_cons h2
  obtain ⟨g0, g1, g2, g3, _⟩ := data_fields h
  rw [rx_bcch e s1 nr hf h hs] at h3
  have h5 : s2 = (s1.ensure nr).set nr (dataBcch (s1.bts' nr) (slice body 2 162) d.data.length).1 := by
    injection h3 with a1 a2 a3
    exact a1.symm
  have h6 : (s2.get nr).isSome := by rw [h5]; exact set_mono _ _ _ _ (ensure_some _ _) (ensure_some _ _)
  have h7 : s2.bts' nr = (dataBcch (s1.bts' nr) (slice body 2 162) d.data.length).1 := by
    rw [h5, set_bts' _ _ _ _ (ensure_some _ _), if_pos rfl]
  have h8 := run_si nr k ms2 s2 s o4 h4 hl
  refine ⟨s.bts' nr, bts'_get (run_mono nr ms2 s2 s o4 h4 h6), ?_, ?_⟩
  · intro hlen hty
    rw [h8, h7]
    have e1 : (slice body 2 162).take 23 = d.data := by rw [← hlen]; exact g3
    have e2 : u8 (slice body 2 162) 2 = k.type := by
      have : u8 ((slice body 2 162).take 23) 2 = k.type := by rw [e1]; exact u8_of_some hty
      rw [← this]
      unfold u8
      rw [List.getD_eq_getElem?_getD, List.getD_eq_getElem?_getD, List.getElem?_take_of_lt (by decide)]
    unfold dataBcch
    rw [hlen, if_neg (by decide), if_neg (by decide), if_pos rfl, e1, e2]
    cases k <;> rfl
  · intro hd
    rw [h8, h7, hd]
    have e2 : u8 (slice body 2 162) 0 = k.code := by
      have e1 : (slice body 2 162).take 1 = [k.code] := by rw [hd] at g3; exact g3
      have : u8 ((slice body 2 162).take 1) 0 = k.code := by rw [e1]; rfl
      rw [← this]
      unfold u8
      rw [List.getD_eq_getElem?_getD, List.getD_eq_getElem?_getD, List.getElem?_take_of_lt (by decide)]
    unfold dataBcch
    rw [show [k.code].length = 1 from rfl, if_neg (by decide), if_pos rfl, e2]
    cases k <;> rfl

/-! ### A BTS with two channels -/

/-- Hopping over two frequencies. -/
def exHop : Hop := ⟨5, 1, 9, [1, 128]⟩

/-- A BTS with channels in time slots 6, with or without hopping, and 7 of the first TRX. -/
def exInfo (hop : Option Hop) : Info where
  cs := 15
  mcs := 0
  trx := ⟨871, [none, none, none, none, none, none, some ⟨7, hop⟩, some ⟨7, none⟩]⟩ :: List.replicate 7 ⟨0, List.replicate 8 none⟩
  bsic := 63
  cgi := ⟨1, 1, false, 300, 7, 4⟩
  nsei := 1234
  bvci := 1235
  t3142 := 25
  t3169 := 6
  t3191 := 7
  t3193 := 100
  t3195 := 8
  n3101 := 11
  n3103 := 5
  n3105 := 9
  initCs := 2
  initMcs := 1
  vcs := (some ⟨false, [127, 0, 0, 1], 23001, 23000, 1800⟩, none)
  model := 5

def exChan (hop : Option Hop) : List Nat :=
  match hop with
  | none => 7 :: 0 :: List.replicate 11 0
  | some h => [7, 1, h.hsn, h.maio, h.bits] ++ List.replicate (8 - h.ma.length) 0 ++ h.ma

def exTrx (hop : Option Hop) : List (List Nat) :=
  (le16 871 ++ [192, 0, 0, 0, 0, 0] ++ (List.replicate 6 (List.replicate 13 0) ++ [exChan hop, exChan none]).flatten) :: List.replicate 7 (List.replicate 112 0)

def exBody (hop : Option Hop) : List Nat :=
  let a := exInfo hop
  le32 12 ++ le32 (1 + 65536 * a.cs + 1048576 * a.mcs) ++ (exTrx hop).flatten ++
    ([a.bsic] ++ le16 a.cgi.mcc ++ le16 a.cgi.mnc ++ [if a.cgi.mnc3 then 1 else 0] ++ le16 a.cgi.lac ++ le16 a.cgi.rac ++ le16 a.nsei ++ List.replicate 18 0 ++
    le16 a.cgi.ci ++ List.replicate 3 0 ++ le16 a.bvci ++ [a.t3142, a.t3169, a.t3191, a.t3193, a.t3195, a.n3101, a.n3103, a.n3105] ++ List.replicate 5 0 ++
    [a.initCs, a.initMcs] ++ le16 1800 ++ le16 0 ++ le16 23001 ++ le16 0 ++ le16 23000 ++ le16 0 ++ [4, 0] ++ ([127, 0, 0, 1] ++ List.replicate 12 0) ++
      List.replicate 16 0 ++ [a.model] ++ [])

theorem blank_is : (⟨0, List.replicate 8 none⟩ : Trx).Is (List.replicate 112 0) := by
  refine ⟨by decide, rfl, 0, 0, List.replicate 8 (List.replicate 13 0), rfl, by decide, by decide, ?_, rfl⟩
  intro i c x h _
  rw [List.getElem?_replicate] at h
  split at h <;> simp at h

theorem chan_is {hop : Option Hop} (h : hop = none ∨ hop = some exHop) : Chan.Is ⟨7, hop⟩ (exChan hop) := by
  rcases h with rfl | rfl
  · exact .plain 7 (List.replicate 11 0) rfl
  · exact .hopping 7 1 exHop (List.replicate 6 0) (by decide) (by decide) rfl rfl

theorem chan_len {hop : Option Hop} (h : hop = none ∨ hop = some exHop) : (exChan hop).length = 13 := by
  rcases h with rfl | rfl <;> rfl

theorem exInfo_is {hop : Option Hop} (h : hop = none ∨ hop = some exHop) : (exInfo hop).Is (exBody hop) := by
  refine { cs := by show 15 < 16; decide, mcs := by show 0 < 512; decide, ntrx := rfl
           cgi := ⟨by show 1 < _; decide, by show 1 < _; decide, by show 300 < _; decide, by show 7 < _; decide, by show 4 < _; decide⟩
           ns := ⟨by show 1234 < _; decide, by show 1235 < _; decide⟩, octets := ?_ }
  refine ⟨exTrx hop, List.replicate 18 0, List.replicate 3 0, List.replicate 5 0, [127, 0, 0, 1] ++ List.replicate 12 0, List.replicate 16 0, [],
    4, 0, 23001, 0, 23000, 0, 1800, 0, rfl, ?_, rfl, rfl, rfl, .v4 _ _ _ _ _ rfl rfl, .none _ _ _ _ _ (by decide) (by decide) rfl, by decide, rfl⟩
  intro i t x ht hx
  match i with
  | 0 =>
    obtain rfl : _ = t := by simpa [exInfo] using ht
    obtain rfl : _ = x := by simpa [exTrx] using hx
    refine ⟨by show 871 < 65536; decide, rfl, 192, 0, List.replicate 6 (List.replicate 13 0) ++ [exChan hop, exChan none], rfl, ?_, ?_, ?_, ?_⟩
    · intro x hx
      rw [List.mem_append] at hx
      rcases hx with hx | hx
      · rw [(List.mem_replicate.1 hx).2]; rfl
      · simp only [List.mem_cons, List.not_mem_nil, or_false] at hx
        rcases hx with rfl | rfl
        · exact chan_len h
        · rfl
    · intro i hi
      match i, hi with
      | 0, _ => rfl
      | 1, _ => rfl
      | 2, _ => rfl
      | 3, _ => rfl
      | 4, _ => rfl
      | 5, _ => rfl
      | 6, _ => rfl
      | 7, _ => rfl
    · intro i c x hc hx
      match i with
      | 0 => simp at hc
      | 1 => simp at hc
      | 2 => simp at hc
      | 3 => simp at hc
      | 4 => simp at hc
      | 5 => simp at hc
      | 6 =>
        obtain rfl : _ = c := by simpa using hc
        have hx' : some (exChan hop) = some x := hx
        obtain rfl : exChan hop = x := by simpa using hx'
        exact chan_is h
      | 7 =>
        obtain rfl : _ = c := by simpa using hc
        have hx' : some (exChan none) = some x := hx
        obtain rfl : exChan none = x := by simpa using hx'
        exact chan_is (.inl rfl)
      | i + 8 => simp at hc
    · simp [exTrx]
  | i + 1 =>
    have h1 : t = ⟨0, List.replicate 8 none⟩ := by
      have : (List.replicate 7 (⟨0, List.replicate 8 none⟩ : Trx))[i]? = some t := ht
      rw [List.getElem?_replicate] at this
      split at this
      · simpa using this.symm
      · simp at this
    have h2 : x = List.replicate 112 0 := by
      have : (List.replicate 7 (List.replicate 112 0))[i]? = some x := hx
      rw [List.getElem?_replicate] at this
      split at this
      · simpa using this.symm
      · simp at this
    rw [h1, h2]; exact blank_is

theorem info_get (s : St) (nr n : Nat) (b : Bts) (t : Timers) :
    ({ (s.ensure nr).set nr b with timers := t } : St).get n = if n = nr then some b else s.get n := by
  show ((s.ensure nr).set nr b).get n = _
  rw [get_set _ _ _ _ (ensure_some _ _)]
  split
  · rfl
  · rename_i h; exact get_ensure_other s h

theorem run_one {e : Env} {s s1 : St} {m1 : List Nat} {o1 : List Out} {a1 : Bool} (h1 : rx e s m1 = .ok s1 o1 a1) :
    run e s ([] ++ m1 :: []) = some (s1, o1 ++ []) := by
  rw [List.nil_append, run, h1]
  dsimp only
  rw [run]
  rfl

theorem run_two {e : Env} {s s1 s2 : St} {m1 m2 : List Nat} {o1 o2 : List Out} {a1 a2 : Bool} (h1 : rx e s m1 = .ok s1 o1 a1)
    (h2 : rx e s1 m2 = .ok s2 o2 a2) : run e s [m1, m2] = some (s2, o1 ++ (o2 ++ [])) := by
  rw [run, h1]
  dsimp only
  rw [run, h2]
  dsimp only
  rw [run]
  rfl

/-- Two announcements: both are taken over. -/
theorem ex_run (h1 h2 : Option Hop) (e1 : h1 = none ∨ h1 = some exHop) (e2 : h2 = none ∨ h2 = some exHop) :
    ∃ s o, run {} {} ([msg 0x32 0 [0, 0] (exBody h1)] ++ msg 0x32 0 [0, 0] (exBody h2) :: []) = some (s, o) := by
  obtain ⟨s1, a1, r1⟩ := C70_accepted {} {} 0 [0, 0] _ _ rfl (exInfo_is e1) rfl rfl (.inl rfl)
  obtain ⟨s2, a2, r2⟩ := C70_accepted {} s1 0 [0, 0] _ _ rfl (exInfo_is e2) rfl rfl (.inl rfl)
  exact ⟨s2, _, run_two r1 r2⟩

/-- The hypotheses of the theorems on histories can be met. -/
example : ∃ (s : St) (b : Bts), s.get 0 = some b ∧ Follows {} (exInfo none) b ∧ s.timers = (exInfo none).timers ∧ (b.pdch 0 6).enabled = true ∧
    (b.pdch 0 7).tsc = 7 ∧ (b.pdch 0 5).enabled = false ∧ b.cell.maxCsDl = 4 ∧ b.cell.initCsDl = 2 := by
  obtain ⟨s, o, h⟩ := ex_run none none (.inl rfl) (.inl rfl)
  obtain ⟨b, hb, hf⟩ := C70_config_partial {} 0 _ [] [0, 0] _ _ s o rfl (exInfo_is (.inl rfl)) h (by simp)
  have hm : b.cell.maxCsDl = 4 := by
    rcases hf.maxCsDl with ⟨⟨g1, g2⟩, g3⟩ | ⟨_, g⟩
    · have h4 : (4 : Nat) ≤ b.cell.maxCsDl := g3 4 ⟨by decide, .inr ⟨by decide, by decide⟩⟩
      have : b.cell.maxCsDl ≤ 4 := g1
      omega
    · exact absurd ⟨by decide, .inl rfl⟩ (g 1)
  refine ⟨s, b, hb, hf, C70_timers_partial {} 0 _ [] [0, 0] _ _ s o rfl (exInfo_is (.inl rfl)) (by decide) h (by simp),
    hf.used 0 6 (by decide) (by decide), hf.tsc 0 7 _ (by decide) (by decide) rfl, hf.used 0 5 (by decide) (by decide), hm, ?_⟩
  rw [hf.initCsDl, hm]
  rfl

/-- The channels announced have been requested, without hopping. -/
example : ∃ s o b, run {} {} [msg 0x32 0 [0, 0] (exBody none), msg 0x32 0 [0, 0] (exBody none)] = some (s, o) ∧ s.get 0 = some b ∧
    Requested 0 0 6 o = true ∧ Requested 0 0 5 o = false ∧ hopOf (b.pdch 0 6).fh = none := by
  obtain ⟨s, o, h⟩ := ex_run none none (.inl rfl) (.inl rfl)
  obtain ⟨b, hb, hf⟩ := C70_config_partial {} 0 _ [] [0, 0] _ _ s o rfl (exInfo_is (.inl rfl)) h (by simp)
  refine ⟨s, o, b, h, hb, ?_, ?_, C70_no_hopping_partial {} 0 0 6 (by decide) (by decide) _ s o h ?_ b hb⟩
  · rw [← C70_requested {} _ s o h 0 0 6 b hb]; exact hf.used 0 6 (by decide) (by decide)
  · rw [← C70_requested {} _ s o h 0 0 5 b hb]; exact hf.used 0 5 (by decide) (by decide)
  · intro m hm _
    have : m = msg 0x32 0 [0, 0] (exBody none) := by simpa using hm
    refine ⟨[0, 0], exBody none, exInfo none, rfl, this, exInfo_is (.inl rfl), ?_⟩
    intro c hc
    obtain rfl : (⟨7, none⟩ : Chan) = c := Option.some.inj hc
    rfl

/-- System information 3 is sent. -/
example : ∃ s o b, run {} {} ([] ++ msg 0x02 0 [0, 0] (4 :: 23 :: ([0x49, 6, 0x1b] ++ List.replicate 20 1 ++ List.replicate 139 0 ++
      (le32 0 ++ le16 0 ++ [0, 0, 0] ++ int8 0 ++ le16 0 ++ int16 0 ++ int16 0))) :: []) = some (s, o) ∧ s.get 0 = some b ∧
      b.si3 = some ([0x49, 6, 0x1b] ++ List.replicate 20 1) := by
  let d : Data := ⟨4, [0x49, 6, 0x1b] ++ List.replicate 20 1, 0, 0, 0, 0, 0, 0, 0, 0, 0⟩
  have hd : d.Is _ := ⟨by decide, by decide, by decide, by decide, by decide, by decide, List.replicate 139 0, by simp [d], rfl⟩
  have h1 := rx_bcch {} {} 0 (fill := [0, 0]) rfl hd rfl
  obtain ⟨b, hb, h2, _⟩ := C70_system_information {} 0 .si3 [] [] [0, 0] _ d _ _ rfl hd rfl (run_one h1) (by simp)
  exact ⟨_, _, b, run_one h1, hb, h2 rfl rfl⟩

/-- Hopping is not switched off: a channel announced with hopping, then without, is used with hopping. -/
theorem C70_fails_hopping_off : ∃ s o b, run {} {} ([msg 0x32 0 [0, 0] (exBody (some exHop))] ++ msg 0x32 0 [0, 0] (exBody none) :: []) = some (s, o) ∧
    s.get 0 = some b ∧ (exInfo none).chan 0 6 = some ⟨7, none⟩ ∧ hopOf (b.pdch 0 6).fh = some exHop := by
  obtain ⟨s, o, h⟩ := ex_run (some exHop) none (.inr rfl) (.inl rfl)
  obtain ⟨s1, o1, o2, h1, h2, _⟩ := run_split h
  obtain ⟨s2, o3, acc, o4, h3, h4, _⟩ := run_cons h2
  rw [run] at h4
  obtain ⟨rfl, rfl⟩ : s2 = s ∧ [] = o4 := by simpa using h4
  obtain ⟨k1, k2, k3⟩ := rx_info_ok rfl (exInfo_is (.inl rfl)) h3
  refine ⟨s2, o, s2.bts' 0, h, bts'_get k2, rfl, ?_⟩
  rw [k3, info_fh (exInfo_is (.inl rfl)) 0 6 (by decide) (by decide) (by
    intro c hc
    obtain rfl : (⟨7, none⟩ : Chan) = c := Option.some.inj hc
    rfl)]
  obtain ⟨b, hb, hf⟩ := C70_config_partial {} 0 [] [] [0, 0] _ _ s1 o1 rfl (exInfo_is (.inr rfl)) h1 (by simp)
  have : s1.bts' 0 = b := by unfold St.bts'; rw [hb]; rfl
  rw [this]
  exact hf.hop 0 6 ⟨7, some exHop⟩ exHop (by decide) (by decide) rfl rfl

/-- The timers announced are lost as soon as a message with the number of another BTS arrives. -/
theorem C70_fails_timers : ∃ s o, run {} {} [msg 0x32 0 [0, 0] (exBody none), msg 0x52 1 [0, 0] [0, 0, 0, 0]] = some (s, o) ∧
    s.timers ≠ (exInfo none).timers := by
  obtain ⟨s1, a1, r1⟩ := C70_accepted {} {} 0 [0, 0] _ _ rfl (exInfo_is (.inl rfl)) rfl rfl (.inl rfl)
  have r2 : rx {} s1 (msg 0x52 1 [0, 0] [0, 0, 0, 0]) = .ok (s1.ensure 1) [] true := by
    rw [rx_msg _ _ _ _ _ _ rfl]
    rfl
  obtain ⟨k1, _, _⟩ := rx_info_ok rfl (exInfo_is (.inl rfl)) r1
  have k2 : s1.get 1 = none := by
    rw [k1, info_get, if_neg (by decide)]
    rfl
  refine ⟨s1.ensure 1, _, run_two r1 r2, ?_⟩
  · unfold St.ensure
    rw [k2]
    dsimp only
    decide

end Verif.PcuIf
