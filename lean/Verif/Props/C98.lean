import Verif.Spec.Tap
/-!
# C98: Counters and GSMTAP say what is on the air
-/

namespace Verif.Tap

open Verif.Cs

theorem run_induct {c : Cell} (P : St → List Ev → St → Prop) (h0 : ∀ s, P s [] s)
    (h1 : ∀ s e s1 es s2, step c s e = some s1 → P s1 es s2 → P s (e :: es) s2) :
    ∀ (es : List Ev) (s s2 : St), run c s es = some s2 → P s es s2
  | [], s, s2, h => by cases h; exact h0 s
  | e :: es, s, s2, h => by
    unfold run at h
    cases hs : step c s e with
    | none => rw [hs] at h; cases h
    | some s1 =>
      rw [hs] at h
      exact h1 s e s1 es s2 hs (run_induct P h0 h1 es s1 s2 h)

/-- Frames that one call may send. -/
theorem send_cases {c : Cell} {s s1 : St} {cat : Cat} {up : Bool} {trx ts : Nat} {ch : Chan} {fn : Nat} {d : Bytes}
    (h : sendGsmtap c s cat up trx ts ch fn d = some s1) :
    s1 = { s with tap := s.tap ++ (if c.mask.testBit cat.bit then [⟨cat, up, c.arfcn trx, ts, ch, fn, d⟩] else []) } := by
  unfold sendGsmtap at h
  by_cases hm : c.mask.testBit cat.bit = true
  · rw [if_neg (by rw [hm]; decide)] at h
    by_cases ht : 8 ≤ trx
    · rw [if_pos ht] at h; cases h
    · rw [if_neg ht] at h
      cases h
      rw [if_pos hm]
  · rw [if_pos (by simpa using hm)] at h
    cases h
    rw [if_neg hm, List.append_nil]

/-- The frame for a downlink block. -/
def dlFrame (c : Cell) (cat : Cat) (trx ts fn : Nat) (d : Bytes) : Frame :=
  ⟨cat, false, c.arfcn trx, ts, if cat = .dlCtrl ∨ cat = .dlDummy then .pacch else .pdtch, fn, d⟩

theorem tapNAcc_cases {c : Cell} {s s1 : St} {trx ts fn : Nat} {cat : Cat} {d : Bytes} (hc : cat ∈ dlCats)
    (h : tapNAcc c s trx ts fn cat d = some s1) :
    s1 = { s with
      sent := s.sent + (if cat = .dlGprs ∨ cat = .dlEgprs then 1 else 0)
      sentControl := s.sentControl + (if cat = .dlCtrl then 1 else 0)
      sentDummy := s.sentDummy + (if cat = .dlDummy then 1 else 0)
      tap := s.tap ++ (if c.mask.testBit cat.bit then [dlFrame c cat trx ts fn d] else []) } := by
  cases cat <;> first | (exact absurd hc (by decide)) | (exact send_cases h)

theorem select_cats {c : Cell} {trx : Nat} {f : Found} {cat : Cat} {m : Bytes} (h : select c trx f = some (cat, m)) : cat ∈ dlCats := by
  unfold select at h
  split at h
  · cases h; decide
  · split at h
    · cases h; split <;> decide
    · split at h
      · cases h
      · cases h; decide

theorem setUsf_some {u : Option Nat} {m d : Bytes} (h : setUsf u m = some d) :
    d ≠ [] ∧ d.length = m.length := by
  cases m with
  | nil => cases h
  | cons b l => cases h; exact ⟨List.cons_ne_nil _ _, rfl⟩

/-- A request: refused, an empty frame or a block. -/
theorem rts_cases {c : Cell} {s s1 : St} {trx ts fn block : Nat} {f : Found} (h : rts c s trx ts fn block f = some s1) :
    (onPdch c trx ts = false ∧ s1 = s) ∨
    (onPdch c trx ts = true ∧ select c trx f = none ∧ s1 = txPdtch c s trx ts fn block []) ∨
    (∃ cat m d, onPdch c trx ts = true ∧ select c trx f = some (cat, m) ∧ setUsf f.usf m = some d ∧ s1 = { s with
      sent := s.sent + (if cat = .dlGprs ∨ cat = .dlEgprs then 1 else 0)
      sentControl := s.sentControl + (if cat = .dlCtrl then 1 else 0)
      sentDummy := s.sentDummy + (if cat = .dlDummy then 1 else 0)
      dlBytes := s.dlBytes + d.length
      tap := s.tap ++ (if c.mask.testBit cat.bit then [dlFrame c cat trx ts fn d] else [])
      phy := s.phy ++ [⟨trx, ts, c.arfcn trx, fn, block, d⟩] }) := by
  unfold rts at h
  by_cases h8 : 8 ≤ trx ∨ 8 ≤ ts
  · rw [if_pos h8] at h
    cases h
    refine .inl ⟨?_, rfl⟩
    unfold onPdch
    rcases h8 with h | h
    · rw [decide_eq_false (by omega : ¬ trx < 8)]; rfl
    · rw [decide_eq_false (by omega : ¬ ts < 8), Bool.and_false]; rfl
  · rw [if_neg h8] at h
    have hb : onPdch c trx ts = c.enabled trx ts := by
      unfold onPdch
      rw [decide_eq_true (by omega : trx < 8), decide_eq_true (by omega : ts < 8)]; rfl
    cases he : c.enabled trx ts with
    | false => rw [if_pos he] at h; cases h; exact .inl ⟨hb.trans he, rfl⟩
    | true =>
      rw [if_neg (by rw [he]; decide)] at h
      cases hs : select c trx f with
      | none => rw [hs] at h; cases h; exact .inr (.inl ⟨hb.trans he, rfl, rfl⟩)
      | some p =>
        obtain ⟨cat, m⟩ := p
        rw [hs] at h
        simp only at h
        cases hu : setUsf f.usf m with
        | none => rw [hu] at h; cases h
        | some d =>
          rw [hu] at h
          simp only [Option.bind_some] at h
          cases ht : tapNAcc c { s with dlBytes := s.dlBytes + d.length } trx ts fn cat d with
          | none => rw [ht] at h; cases h
          | some s2 =>
            rw [ht] at h
            cases h
            refine .inr (.inr ⟨cat, m, d, hb.trans he, rfl, hu, ?_⟩)
            rw [tapNAcc_cases (select_cats hs) ht]
            rfl

/-- Reception leaves what is about the downlink alone; frames shown are of the uplink. -/
structure UpOnly (c : Cell) (s s1 : St) : Prop where
  sent : s1.sent = s.sent
  ctrl : s1.sentControl = s.sentControl
  dummy : s1.sentDummy = s.sentDummy
  bytes : s1.dlBytes = s.dlBytes
  phy : s1.phy = s.phy
  tap : ∃ l, s1.tap = s.tap ++ l ∧ ∀ f ∈ l, f.cat ∉ dlCats ∧ f.uplink = true ∧ c.mask.testBit f.cat.bit = true ∧ f.chan = f.cat.channel

theorem UpOnly.refl {c : Cell} (s : St) : UpOnly c s s := ⟨rfl, rfl, rfl, rfl, rfl, [], (List.append_nil _).symm, fun _ h => by cases h⟩

theorem UpOnly.trans {c : Cell} {a b d : St} (h : UpOnly c a b) (g : UpOnly c b d) : UpOnly c a d := by
  obtain ⟨l, hl, hp⟩ := h.tap
  obtain ⟨k, hk, hq⟩ := g.tap
  refine ⟨g.sent.trans h.sent, g.ctrl.trans h.ctrl, g.dummy.trans h.dummy, g.bytes.trans h.bytes, g.phy.trans h.phy, l ++ k, ?_, ?_⟩
  · rw [hk, hl, List.append_assoc]
  · intro f hf
    rcases List.mem_append.mp hf with h | h
    · exact hp f h
    · exact hq f h

theorem UpOnly.send {c : Cell} {s s1 : St} {cat : Cat} {trx ts : Nat} {ch : Chan} {fn : Nat} {d : Bytes} (hc : cat ∉ dlCats) (hch : ch = cat.channel)
    (h : sendGsmtap c s cat true trx ts ch fn d = some s1) : UpOnly c s s1 := by
  rw [send_cases h]
  refine ⟨rfl, rfl, rfl, rfl, rfl, _, rfl, ?_⟩
  intro f hf
  split at hf
  · cases List.mem_singleton.mp hf; exact ⟨hc, rfl, by assumption, hch⟩
  · cases hf

theorem UpOnly.control {c : Cell} {s s1 : St} {trx ts fn mt : Nat} {d : Bytes} {fail bad : Bool}
    (h : rcvControl c s trx ts fn d mt fail = some (s1, bad)) : UpOnly c s s1 := by
  unfold rcvControl at h
  cases hs : sendGsmtap c s (if mt = 3 then .ulDummy else .ulCtrl) true trx ts .pacch fn d with
  | none => rw [hs] at h; cases h
  | some s2 =>
    rw [hs] at h
    have h2 := UpOnly.send (by split <;> decide) (by split <;> rfl) hs
    cases fail
    · cases h; exact h2.trans ⟨rfl, rfl, rfl, rfl, rfl, [], (List.append_nil _).symm, fun _ h => by cases h⟩
    · cases h; exact h2

theorem UpOnly.data {c : Cell} {s s1 : St} {trx ts fn : Nat} {d : Bytes} {edge fail bad : Bool}
    (h : rcvData c s trx ts fn d edge fail = some (s1, bad)) : UpOnly c s s1 := by
  unfold rcvData at h
  cases hs : sendGsmtap c s (if edge then .ulEgprs else .ulGprs) true trx ts .pdtch fn d with
  | none => rw [hs] at h; cases h
  | some s2 =>
    rw [hs] at h
    have h2 := UpOnly.send (by split <;> decide) (by split <;> rfl) hs
    cases h; exact h2

theorem UpOnly.gprs {c : Cell} {s s1 : St} {trx ts fn mt : Nat} {d : Bytes} {fail bad : Bool}
    (h : rcvGprs c s trx ts fn d mt fail = some (s1, bad)) : UpOnly c s s1 := by
  unfold rcvGprs at h
  split at h
  · exact UpOnly.data h
  · exact UpOnly.control h
  · cases h; exact UpOnly.refl s
  · cases h; exact UpOnly.refl s

theorem UpOnly.block {c : Cell} {s s1 : St} {trx ts fn mt : Nat} {d : Bytes} {fail bad : Bool}
    (h : rcvBlock c s trx ts fn d mt fail = some (s1, bad)) : UpOnly c s s1 := by
  unfold rcvBlock at h
  have h0 : UpOnly c s { s with ulBytes := s.ulBytes + d.length } :=
    ⟨rfl, rfl, rfl, rfl, rfl, [], (List.append_nil _).symm, fun _ h => by cases h⟩
  split at h
  · cases h; exact UpOnly.refl s
  · dsimp only at h
    split at h
    · cases h; exact UpOnly.refl s
    · split at h
      · exact h0.trans (UpOnly.gprs h)
      · split at h
        · exact h0.trans (UpOnly.data h)
        · cases h; exact h0

/-- A block indicated by the BTS: on a time slot that is not enabled, or taken. -/
theorem rxPdtch_cases {c : Cell} {s s1 : St} {trx ts fn mt : Nat} {d : Bytes} {fail bad : Bool}
    (h : rxPdtch c s trx ts fn d mt fail = some (s1, bad)) :
    (onPdch c trx ts = false ∧ s1 = s ∧ bad = true) ∨ (onPdch c trx ts = true ∧ rcvBlock c s trx ts fn d mt fail = some (s1, bad)) := by
  unfold rxPdtch at h
  by_cases h8 : 8 ≤ trx ∨ 8 ≤ ts
  · rw [if_pos h8] at h; cases h
  · rw [if_neg h8] at h
    have hb : onPdch c trx ts = c.enabled trx ts := by
      unfold onPdch
      rw [decide_eq_true (by omega : trx < 8), decide_eq_true (by omega : ts < 8)]; rfl
    cases he : c.enabled trx ts with
    | false => rw [if_pos he] at h; cases h; exact .inl ⟨hb.trans he, rfl, rfl⟩
    | true => rw [if_neg (by rw [he]; decide)] at h; exact .inr ⟨hb.trans he, h⟩

theorem rxPdtch_on {c : Cell} {s : St} {trx ts fn mt : Nat} {d : Bytes} {fail : Bool} (h : onPdch c trx ts = true) :
    rxPdtch c s trx ts fn d mt fail = rcvBlock c s trx ts fn d mt fail := by
  unfold onPdch at h
  simp only [Bool.and_eq_true, decide_eq_true_eq] at h
  unfold rxPdtch
  rw [if_neg (by omega), if_neg (by rw [h.2]; decide)]

theorem UpOnly.pdtch {c : Cell} {s s1 : St} {trx ts fn mt : Nat} {d : Bytes} {fail bad : Bool}
    (h : rxPdtch c s trx ts fn d mt fail = some (s1, bad)) : UpOnly c s s1 := by
  rcases rxPdtch_cases h with ⟨-, rfl, -⟩ | ⟨-, h⟩
  · exact UpOnly.refl _
  · exact UpOnly.block h

theorem UpOnly.rx {c : Cell} {s s1 : St} {trx ts arfcn fn mt : Nat} {d : Bytes} {fail : Bool}
    (h : rxData c s trx ts arfcn fn d mt fail = some s1) : UpOnly c s s1 := by
  unfold rxData at h
  cases hb : rxPdtch c s trx ts fn d mt fail with
  | none => rw [hb] at h; cases h
  | some p =>
    obtain ⟨s2, bad⟩ := p
    rw [hb] at h
    simp only [Option.map_some, Option.some.injEq] at h
    have h2 := UpOnly.pdtch hb
    split at h
    · next hbad =>
      subst h
      refine h2.trans ⟨rfl, rfl, rfl, rfl, rfl, _, rfl, ?_⟩
      intro f hf
      rw [List.mem_singleton.mp hf]
      refine ⟨?_, rfl, (Bool.and_eq_true _ _ ▸ hbad).2, rfl⟩
      show Cat.ulUnknown ∉ dlCats
      decide
    · subst h; exact h2

theorem UpOnly.rach {c : Cell} {s s1 : St} {p : Bool} {trx ts fn ra : Nat} {is11 : Bool}
    (h : rxRach c s p trx ts fn ra is11 = some s1) : UpOnly c s s1 :=
  UpOnly.send (by split <;> decide) (by cases p <;> rfl) h

/-- What an event does to the downlink side. -/
theorem step_cases {c : Cell} {s s1 : St} {e : Ev} (h : step c s e = some s1) :
    (UpOnly c s s1 ∧ isCtrl c e = false ∧ isData c e = false ∧ isDummy c e = false) ∨
    (∃ trx ts fn block f, e = .rts trx ts fn block f ∧ rts c s trx ts fn block f = some s1) := by
  cases e with
  | rts trx ts fn block f => exact .inr ⟨trx, ts, fn, block, f, rfl, h⟩
  | ul trx ts arfcn fn data mt fail => exact .inl ⟨UpOnly.rx h, rfl, rfl, rfl⟩
  | rach p trx ts fn ra is11 => exact .inl ⟨UpOnly.rach h, rfl, rfl, rfl⟩

theorem select_kind {c : Cell} {trx ts fn block : Nat} {f : Found} (hp : onPdch c trx ts = true) :
    (isCtrl c (.rts trx ts fn block f) = true ↔ (select c trx f).map (·.1) = some .dlCtrl) ∧
    (isData c (.rts trx ts fn block f) = true ↔
      (select c trx f).map (·.1) = some .dlGprs ∨ (select c trx f).map (·.1) = some .dlEgprs) ∧
    (isDummy c (.rts trx ts fn block f) = true ↔ (select c trx f).map (·.1) = some .dlDummy) := by
  unfold isCtrl isData isDummy select
  simp only [hp, Bool.true_and]
  cases hf : f.ctrl with
  | some m => simp
  | none =>
    cases hd : f.data with
    | some p => obtain ⟨m, eg⟩ := p; cases eg <;> simp
    | none =>
      cases hi : c.idleC0
      · by_cases ht : f.tbfs = 0 <;> simp [ht]
      · by_cases ht : f.tbfs = 0 <;> by_cases hx : trx = 0 <;> simp [ht, hx]

theorem rts_off {c : Cell} {trx ts fn block : Nat} {f : Found} (hp : onPdch c trx ts = false) :
    isCtrl c (.rts trx ts fn block f) = false ∧ isData c (.rts trx ts fn block f) = false ∧ isDummy c (.rts trx ts fn block f) = false := by
  unfold isCtrl isData isDummy
  simp only [hp, Bool.false_and, and_self]

/-- The increments of one event. -/
theorem step_counts {c : Cell} {s s1 : St} {e : Ev} (h : step c s e = some s1) :
    s1.sentControl = s.sentControl + (if isCtrl c e then 1 else 0) ∧
    s1.sent = s.sent + (if isData c e then 1 else 0) ∧
    s1.sentDummy = s.sentDummy + (if isDummy c e then 1 else 0) := by
  rcases step_cases h with ⟨hu, h1, h2, h3⟩ | ⟨trx, ts, fn, block, f, rfl, hr⟩
  · rw [h1, h2, h3]; exact ⟨hu.ctrl, hu.sent, hu.dummy⟩
  · rcases rts_cases hr with ⟨hp, rfl⟩ | ⟨hp, hs, rfl⟩ | ⟨cat, m, d, hp, hs, hu, rfl⟩
    · obtain ⟨h1, h2, h3⟩ := rts_off (fn := fn) (block := block) (f := f) hp
      rw [h1, h2, h3]; exact ⟨rfl, rfl, rfl⟩
    · obtain ⟨h1, h2, h3⟩ := select_kind (fn := fn) (block := block) (f := f) hp
      simp only [hs, Option.map_none, reduceCtorEq, or_self, iff_false, Bool.not_eq_true] at h1 h2 h3
      rw [h1, h2, h3]; exact ⟨rfl, rfl, rfl⟩
    · obtain ⟨h1, h2, h3⟩ := select_kind (fn := fn) (block := block) (f := f) hp
      simp only [hs, Option.map_some, Option.some.injEq] at h1 h2 h3
      simp only [h1, h2, h3, and_self]

/-- **C98, counters.** The counters of control, data and dummy blocks say how many requests of the BTS were answered with such a block: the
scheduler had a control message; only data; or nothing, on a time slot in use or a carrier that must be filled. -/
theorem C98_counts (c : Cell) (es : List Ev) (s : St) (h : run c {} es = some s) :
    s.sentControl = es.countP (isCtrl c) ∧ s.sent = es.countP (isData c) ∧ s.sentDummy = es.countP (isDummy c) := by
  have := run_induct (c := c) (fun s es s2 => s2.sentControl = s.sentControl + es.countP (isCtrl c) ∧
    s2.sent = s.sent + es.countP (isData c) ∧ s2.sentDummy = s.sentDummy + es.countP (isDummy c)) (fun s => ⟨rfl, rfl, rfl⟩)
    (fun s e s1 es s2 hs ih => by
      obtain ⟨h1, h2, h3⟩ := step_counts hs
      obtain ⟨g1, g2, g3⟩ := ih
      simp only [List.countP_cons]
      omega) es {} s h
  simpa using this

/-- The blocks an event sends. -/
theorem step_phy {c : Cell} {s s1 : St} {e : Ev} (h : step c s e = some s1) :
    (s1.blocks = s.blocks ∧ s1.dlBytes = s.dlBytes ∧ s1.sent + s1.sentControl + s1.sentDummy = s.sent + s.sentControl + s.sentDummy ∧
      s1.shown dlCats = s.shown dlCats) ∨
    (∃ r cat ch, cat ∈ dlCats ∧ s1.blocks = s.blocks ++ [r] ∧ s1.dlBytes = s.dlBytes + r.data.length ∧
      s1.sent + s1.sentControl + s1.sentDummy = s.sent + s.sentControl + s.sentDummy + 1 ∧
      s1.shown dlCats = s.shown dlCats ++ (if c.mask.testBit cat.bit then [⟨cat, false, r.arfcn, r.ts, ch, r.fn, r.data⟩] else [])) := by
  rcases step_cases h with ⟨hu, -⟩ | ⟨trx, ts, fn, block, f, rfl, hr⟩
  · left
    obtain ⟨l, hl, hp⟩ := hu.tap
    refine ⟨by unfold St.blocks; rw [hu.phy], hu.bytes, by rw [hu.sent, hu.ctrl, hu.dummy], ?_⟩
    unfold St.shown
    have hn : l.filter (fun f => dlCats.contains f.cat) = [] := by
      rw [List.filter_eq_nil_iff]
      intro x hx
      have := (hp x hx).1
      simpa using this
    rw [hl, List.filter_append, hn, List.append_nil]
  · rcases rts_cases hr with ⟨hp, rfl⟩ | ⟨hp, hs, rfl⟩ | ⟨cat, m, d, hp, hs, hu, rfl⟩
    · exact .inl ⟨rfl, rfl, rfl, rfl⟩
    · left
      refine ⟨?_, rfl, rfl, rfl⟩
      unfold St.blocks txPdtch
      rw [List.filter_append]
      exact List.append_nil _
    · right
      have hc := select_cats hs
      refine ⟨⟨trx, ts, c.arfcn trx, fn, block, d⟩, cat, (dlFrame c cat trx ts fn d).chan, hc, ?_, rfl, ?_, ?_⟩
      · unfold St.blocks
        rw [List.filter_append]
        congr 1
        rw [List.filter_cons_of_pos (by simpa using (setUsf_some hu).1)]
        rfl
      · dsimp only
        cases cat <;> first | (exact absurd hc (by decide)) | (simp; omega)
      · unfold St.shown
        rw [List.filter_append]
        congr 1
        split
        · rw [List.filter_cons_of_pos (by simpa [dlFrame] using hc)]
          rfl
        · rfl

/-- **C98, sums.** Together these counters say how many requests were answered with a block, and the counter of bytes how many bytes were in
these blocks. -/
theorem C98_sums (c : Cell) (es : List Ev) (s : St) (h : run c {} es = some s) :
    s.sent + s.sentControl + s.sentDummy = s.blocks.length ∧ s.dlBytes = (s.blocks.map fun r => r.data.length).sum := by
  refine run_induct (c := c) (fun s _ s2 => s.sent + s.sentControl + s.sentDummy = s.blocks.length ∧
    s.dlBytes = (s.blocks.map fun r => r.data.length).sum → s2.sent + s2.sentControl + s2.sentDummy = s2.blocks.length ∧
    s2.dlBytes = (s2.blocks.map fun r => r.data.length).sum) (fun s h => h) ?_ es {} s h ⟨rfl, rfl⟩
  intro s e s1 es s2 hs ih hi
  apply ih
  rcases step_phy hs with ⟨h1, h2, h3, -⟩ | ⟨r, cat, ch, -, h1, h2, h3, -⟩
  · rw [h1, h2, h3]; exact hi
  · rw [h1, h2, h3]
    simp only [List.length_append, List.length_cons, List.length_nil, List.map_append, List.map_cons, List.map_nil, List.sum_append,
      List.sum_cons, List.sum_nil]
    omega

/-- **C98, GSMTAP of the downlink.** With the categories of the downlink enabled GSMTAP shows every block that goes to the BTS, once, in
this order and with the same ARFCN, time slot, frame number and bytes (the USF included), and nothing else as downlink. -/
theorem C98_dl_tap (c : Cell) (es : List Ev) (s : St) (h : run c {} es = some s) (hm : c.shows dlCats) :
    (s.shown dlCats).map Frame.core = s.blocks.map Req.core := by
  refine run_induct (c := c) (fun s _ s2 => (s.shown dlCats).map Frame.core = s.blocks.map Req.core →
    (s2.shown dlCats).map Frame.core = s2.blocks.map Req.core) (fun s h => h) ?_ es {} s h rfl
  intro s e s1 es s2 hs ih hi
  apply ih
  rcases step_phy hs with ⟨h1, -, -, h4⟩ | ⟨r, cat, ch, hc, h1, -, -, h4⟩
  · rw [h1, h4]; exact hi
  · rw [h1, h4, if_pos (hm cat hc), List.map_append, List.map_append, hi]
    rfl

/-- The frames one event shows in each category of the downlink. -/
theorem step_shown {c : Cell} {s s1 : St} {e : Ev} (h : step c s e = some s1) {k : Cat} (hk : k ∈ dlCats) (hm : c.mask.testBit k.bit = true) :
    (s1.shown [k]).length = (s.shown [k]).length +
      (match e with
       | .rts trx ts _ _ f => if onPdch c trx ts ∧ (select c trx f).map (·.1) = some k then 1 else 0
       | _ => 0) := by
  rcases step_cases h with ⟨hu, h1, h2, h3⟩ | ⟨trx, ts, fn, block, f, rfl, hr⟩
  · obtain ⟨l, hl, hp⟩ := hu.tap
    have h0 : (s1.shown [k]).length = (s.shown [k]).length := by
      unfold St.shown
      have hn : l.filter (fun f => [k].contains f.cat) = [] := by
        rw [List.filter_eq_nil_iff]
        intro x hx hxk
        have hx2 := (hp x hx).1
        rw [List.contains_iff_mem] at hxk
        rw [List.mem_singleton.mp hxk] at hx2
        exact hx2 hk
      rw [hl, List.filter_append, hn, List.append_nil]
    cases e with
    | rts trx ts fn block f =>
      have hr : rts c s trx ts fn block f = some s1 := h
      rcases rts_cases hr with ⟨hp, rfl⟩ | ⟨hp, hs, rfl⟩ | ⟨cat, m, d, hp, hs, hu2, rfl⟩
      · simp [hp]
      · simp [hs, h0]
      · obtain ⟨g1, g2, g3⟩ := select_kind (fn := fn) (block := block) (f := f) hp
        rw [h1, hs] at g1; rw [h2, hs] at g2; rw [h3, hs] at g3
        have hc := select_cats hs
        cases cat <;> first | (exact absurd hc (by decide)) | (simp at g1 g2 g3)
    | ul => exact h0
    | rach => exact h0
  · rcases rts_cases hr with ⟨hp, rfl⟩ | ⟨hp, hs, rfl⟩ | ⟨cat, m, d, hp, hs, hu, rfl⟩
    · simp [hp]
    · simp only [hs, Option.map_none, reduceCtorEq, and_false, if_false]
      rfl
    · simp only [hp, hs, Option.map_some, Option.some.injEq, true_and]
      unfold St.shown
      rw [List.filter_append, List.length_append]
      congr 1
      by_cases hck : cat = k
      · subst hck
        rw [if_pos hm, if_pos rfl, List.filter_cons_of_pos (by simp [dlFrame])]
        rfl
      · rw [if_neg hck]
        split
        · rw [List.filter_cons_of_neg (by simpa [dlFrame] using hck)]
          rfl
        · rfl

/-- **C98, kinds.** What is shown as control, dummy or data is as many blocks as are counted as such. -/
theorem C98_kinds (c : Cell) (es : List Ev) (s : St) (h : run c {} es = some s) (hm : c.shows dlCats) :
    (s.shown [.dlCtrl]).length = s.sentControl ∧ (s.shown [.dlDummy]).length = s.sentDummy ∧
    (s.shown [.dlGprs]).length + (s.shown [.dlEgprs]).length = s.sent := by
  refine run_induct (c := c) (fun s _ s2 => ((s.shown [.dlCtrl]).length = s.sentControl ∧ (s.shown [.dlDummy]).length = s.sentDummy ∧
    (s.shown [.dlGprs]).length + (s.shown [.dlEgprs]).length = s.sent) → (s2.shown [.dlCtrl]).length = s2.sentControl ∧
    (s2.shown [.dlDummy]).length = s2.sentDummy ∧
    (s2.shown [.dlGprs]).length + (s2.shown [.dlEgprs]).length = s2.sent) (fun s h => h) ?_ es {} s h ⟨rfl, rfl, rfl⟩
  intro s e s1 es s2 hs ih hi
  apply ih
  have hx : ∀ k, k ∈ dlCats → _ := fun k hk => step_shown hs hk (hm k hk)
  have a1 := hx .dlCtrl (by decide)
  have a2 := hx .dlDummy (by decide)
  have a3 := hx .dlGprs (by decide)
  have a4 := hx .dlEgprs (by decide)
  obtain ⟨b1, b2, b3⟩ := step_counts hs
  cases e with
  | ul => simp only [isCtrl, isData, isDummy] at *; simp at b1 b2 b3; omega
  | rach => simp only [isCtrl, isData, isDummy] at *; simp at b1 b2 b3; omega
  | rts trx ts fn block f =>
    simp only at a1 a2 a3 a4
    cases hp : onPdch c trx ts with
    | false =>
      obtain ⟨h1, h2, h3⟩ := rts_off (fn := fn) (block := block) (f := f) hp
      rw [h1] at b1; rw [h2] at b2; rw [h3] at b3
      simp [hp] at a1 a2 a3 a4 b1 b2 b3
      omega
    | true =>
      obtain ⟨h1, h2, h3⟩ := select_kind (fn := fn) (block := block) (f := f) hp
      rw [hp] at a1 a2 a3 a4
      simp only [true_and] at a1 a2 a3 a4
      simp only [h1, h2, h3] at b1 b2 b3
      rw [b1, b2, b3, a1, a2]
      refine ⟨by omega, by omega, ?_⟩
      rw [a3, a4]
      by_cases q1 : (select c trx f).map (·.1) = some .dlGprs
      · simp only [q1, Option.some.injEq, reduceCtorEq, or_false, if_true, if_false]; omega
      · by_cases q2 : (select c trx f).map (·.1) = some .dlEgprs
        · simp only [q2, Option.some.injEq, reduceCtorEq, false_or, if_true, if_false]; omega
        · rw [if_neg q1, if_neg q2, if_neg (fun h => h.elim q1 q2)]; omega

/-- **C98, USF.** The only bits of a message that are changed are the lowest three of its first byte. They become the USF of the TBF that may
use the next uplink block, or 7. -/
theorem C98_usf (u : Option Nat) (b : Nat) (l : Bytes) (hb : b < 256) (hu : ∀ x, u = some x → x < 8) :
    ∃ b', setUsf u (b :: l) = some (b' :: l) ∧ b' / 8 = b / 8 ∧ b' % 8 = u.getD 7 := by
  refine ⟨_, rfl, ?_⟩
  have hx : u.getD 7 < 8 := by
    cases u with
    | none => decide
    | some x => exact hu x rfl
  generalize u.getD 7 = x at hx
  have h1 : b &&& 0xf8 = 8 * (b / 8) := by
    have : ∀ b : Fin 256, b.val &&& 0xf8 = 8 * (b.val / 8) := by set_option maxRecDepth 4000 in decide
    exact this ⟨b, hb⟩
  rw [h1]
  have h2 : 8 * (b / 8) ||| x = 8 * (b / 8) + x := by
    have := Nat.two_pow_add_eq_or_of_lt (i := 3) (b := x) hx (b / 8)
    exact this.symm
  rw [h2]
  omega

theorem select_chosen {c : Cell} {trx : Nat} {f : Found} {cat : Cat} {m : Bytes} (h : select c trx f = some (cat, m)) : m = chosen f := by
  unfold select at h
  unfold chosen
  cases hc : f.ctrl with
  | some x => rw [hc] at h; cases h; rfl
  | none =>
    rw [hc] at h
    cases hd : f.data with
    | some p => rw [hd] at h; obtain ⟨x, eg⟩ := p; cases h; rfl
    | none =>
      rw [hd] at h
      dsimp only at h
      split at h
      · cases h
      · cases h; rfl

/-- **C98, contents.** The answer to a request on a packet data time slot is one request to the BTS, for the same TRX, time slot, frame and
block. It carries the message of the scheduler (or a dummy) with the USF of the TBF that may use the next uplink block, or it is empty if
there is no message and no need for a dummy. Requests for other time slots have no effect. -/
theorem C98_contents (c : Cell) (s s1 : St) (trx ts fn block : Nat) (f : Found) (h : step c s (.rts trx ts fn block f) = some s1)
    (hb : ∀ b ∈ chosen f, b < 256) (hu : ∀ x, f.usf = some x → x < 8) :
    if onPdch c trx ts then
      ∃ d, s1.phy = s.phy ++ [⟨trx, ts, c.arfcn trx, fn, block, d⟩] ∧
        if isCtrl c (.rts trx ts fn block f) ∨ isData c (.rts trx ts fn block f) ∨ isDummy c (.rts trx ts fn block f)
        then withUsf f.usf (chosen f) d else d = []
    else s1 = s := by
  rcases rts_cases h with ⟨hp, rfl⟩ | ⟨hp, hs, rfl⟩ | ⟨cat, m, d, hp, hs, hd, rfl⟩
  · rw [if_neg (by rw [hp]; decide)]
  · rw [if_pos hp]
    obtain ⟨h1, h2, h3⟩ := select_kind (fn := fn) (block := block) (f := f) hp
    simp only [h1, h2, h3, hs]
    refine ⟨[], rfl, ?_⟩
    simp
  · rw [if_pos hp]
    obtain ⟨h1, h2, h3⟩ := select_kind (fn := fn) (block := block) (f := f) hp
    refine ⟨d, rfl, ?_⟩
    have hc := select_cats hs
    rw [if_pos]
    · have hm := select_chosen hs
      subst hm
      cases hcf : chosen f with
      | nil => rw [hcf] at hd; cases hd
      | cons b l =>
        rw [hcf] at hd
        obtain ⟨b', g1, g2, g3⟩ := C98_usf f.usf b l (hb b (by rw [hcf]; exact List.mem_cons_self)) hu
        rw [g1] at hd
        cases hd
        exact ⟨b, b', l, rfl, rfl, g2, g3⟩
    · simp only [h1, h2, h3, hs]
      cases cat <;> first | (exact absurd hc (by decide)) | simp

/-- **C98, settings.** Only frames of categories that are enabled are shown. -/
theorem C98_only_enabled (c : Cell) (es : List Ev) (s : St) (h : run c {} es = some s) : ∀ f ∈ s.tap, c.mask.testBit f.cat.bit = true := by
  refine run_induct (c := c) (fun s _ s2 => (∀ f ∈ s.tap, c.mask.testBit f.cat.bit = true) → ∀ f ∈ s2.tap, c.mask.testBit f.cat.bit = true)
    (fun s h => h) ?_ es {} s h (fun f hf => by cases hf)
  intro s e s1 es s2 hs ih hi
  apply ih
  rcases step_cases hs with ⟨hu, -⟩ | ⟨trx, ts, fn, block, f, rfl, hr⟩
  · obtain ⟨l, hl, hp⟩ := hu.tap
    rw [hl]
    intro f hf
    rcases List.mem_append.mp hf with h | h
    · exact hi f h
    · exact (hp f h).2.2.1
  · rcases rts_cases hr with ⟨hp, rfl⟩ | ⟨hp, hs, rfl⟩ | ⟨cat, m, d, hp, hs, hu, rfl⟩
    · exact hi
    · exact hi
    · intro f hf
      rcases List.mem_append.mp hf with h | h
      · exact hi f h
      · split at h
        · cases List.mem_singleton.mp h; assumption
        · cases h

/-- **C98, form.** Frames shown under a category have its direction and its logical channel. -/
theorem C98_form (c : Cell) (es : List Ev) (s : St) (h : run c {} es = some s) :
    ∀ f ∈ s.tap, f.uplink = !dlCats.contains f.cat ∧ f.chan = f.cat.channel := by
  refine run_induct (c := c) (fun s _ s2 => (∀ f ∈ s.tap, f.uplink = !dlCats.contains f.cat ∧ f.chan = f.cat.channel) →
    ∀ f ∈ s2.tap, f.uplink = !dlCats.contains f.cat ∧ f.chan = f.cat.channel) (fun s h => h) ?_ es {} s h (fun f hf => by cases hf)
  intro s e s1 es s2 hs ih hi
  apply ih
  rcases step_cases hs with ⟨hu, -⟩ | ⟨trx, ts, fn, block, f, rfl, hr⟩
  · obtain ⟨l, hl, hp⟩ := hu.tap
    rw [hl]
    intro f hf
    rcases List.mem_append.mp hf with h | h
    · exact hi f h
    · obtain ⟨h1, h2, -, h4⟩ := hp f h
      refine ⟨?_, h4⟩
      rw [h2]
      simpa using h1
  · rcases rts_cases hr with ⟨hp, rfl⟩ | ⟨hp, hse, rfl⟩ | ⟨cat, m, d, hp, hse, hu, rfl⟩
    · exact hi
    · exact hi
    · intro f hf
      rcases List.mem_append.mp hf with h | h
      · exact hi f h
      · split at h
        · cases List.mem_singleton.mp h
          have hc := select_cats hse
          cases cat <;> first | (exact absurd hc (by decide)) | (exact ⟨rfl, rfl⟩)
        · cases h

/-- **C98, names.** The categories are those of the command `gsmtap-category`: the bit that is asked for is the one that the command with this
name sets. -/
theorem C98_names (k : Cat) : Vty.categName k.bit = some k.name ∧ (k.name, k.bit) ∈ Vty.categs := by
  cases k <;> exact ⟨by decide, by decide⟩

theorem egprs_kind {c : Cell} {trx ts fn block : Nat} {f : Found} :
    isEgprsData c (.rts trx ts fn block f) = true ↔ (onPdch c trx ts = true ∧ (select c trx f).map (·.1) = some .dlEgprs) := by
  unfold isEgprsData
  cases hp : onPdch c trx ts with
  | false => simp only [hp, Bool.false_and]; simp
  | true =>
    simp only [hp, Bool.true_and]
    unfold select
    cases f.ctrl with
    | some m => simp
    | none =>
      cases f.data with
      | some p => obtain ⟨m, eg⟩ := p; cases eg <;> simp
      | none => dsimp only; split <;> simp

/-- **C98, GPRS and EGPRS.** What is shown as EGPRS data are the blocks of EGPRS TBFs. -/
theorem C98_egprs (c : Cell) (es : List Ev) (s : St) (h : run c {} es = some s) (hm : c.mask.testBit Cat.dlEgprs.bit = true) :
    (s.shown [.dlEgprs]).length = es.countP (isEgprsData c) := by
  have := run_induct (c := c) (fun s es s2 => (s2.shown [.dlEgprs]).length = (s.shown [.dlEgprs]).length + es.countP (isEgprsData c))
    (fun s => rfl) (fun s e s1 es s2 hs ih => by
      have h1 := step_shown hs (k := .dlEgprs) (by decide) hm
      rw [ih, h1, List.countP_cons]
      cases e with
      | ul => simp only [isEgprsData]; simp
      | rach => simp only [isEgprsData]; simp
      | rts trx ts fn block f =>
        simp only [egprs_kind]
        omega) es {} s h
  rw [this]
  exact Nat.zero_add _

theorem bySize_unknown (n : Nat) : getBySizeUl n = .unknown ↔ ulLengths.contains n = false := by
  unfold getBySizeUl
  split <;> simp_all [ulLengths]

theorem bySize_gprs (n : Nat) : (getBySizeUl n).isGprs = gprsLengths.contains n := by
  unfold getBySizeUl
  split <;> first | rfl | (simp_all [gprsLengths, CS.isGprs, CS.code, isGprsCode])

theorem bySize_edge (n : Nat) (h : ulLengths.contains n = true) (hg : gprsLengths.contains n = false) : (getBySizeUl n).isEdge = true := by
  unfold getBySizeUl
  split <;> first | rfl | (simp_all [gprsLengths, ulLengths])

theorem gprs_ul (n : Nat) (h : gprsLengths.contains n = true) : ulLengths.contains n = true := by
  simp only [gprsLengths, ulLengths, List.contains_iff_mem, List.mem_cons, List.not_mem_nil, or_false] at *
  omega

/-- Reception of a block that is acceptable by its length. -/
theorem rcvBlock_good {c : Cell} {s : St} {trx ts fn mt : Nat} {d : Bytes} {fail : Bool} (h : ulLengths.contains d.length = true) :
    rcvBlock c s trx ts fn d mt fail =
      if gprsLengths.contains d.length then rcvGprs c { s with ulBytes := s.ulBytes + d.length } trx ts fn d mt fail
      else rcvData c { s with ulBytes := s.ulBytes + d.length } trx ts fn d true fail := by
  unfold rcvBlock
  have h0 : ¬ d.length = 0 := by intro h0; rw [h0] at h; exact absurd h (by decide)
  have h1 : ¬ getBySizeUl d.length = .unknown := by rw [bySize_unknown, h]; decide
  rw [if_neg h0]
  dsimp only
  rw [if_neg h1, bySize_gprs]
  cases hg : gprsLengths.contains d.length with
  | true => rfl
  | false =>
    rw [if_neg Bool.false_ne_true, if_pos (bySize_edge _ h hg), if_neg Bool.false_ne_true]

theorem rcvData_ctr {c : Cell} {s s1 : St} {trx ts fn : Nat} {d : Bytes} {edge fail bad : Bool}
    (h : rcvData c s trx ts fn d edge fail = some (s1, bad)) : s1.ulBytes = s.ulBytes ∧ s1.recvControl = s.recvControl := by
  unfold rcvData at h
  cases hs : sendGsmtap c s (if edge then .ulEgprs else .ulGprs) true trx ts .pdtch fn d with
  | none => rw [hs] at h; cases h
  | some s2 =>
    rw [hs] at h
    cases h
    rw [send_cases hs]
    exact ⟨rfl, rfl⟩

theorem rcvControl_ctr {c : Cell} {s s1 : St} {trx ts fn mt : Nat} {d : Bytes} {fail bad : Bool}
    (h : rcvControl c s trx ts fn d mt fail = some (s1, bad)) :
    s1.ulBytes = s.ulBytes ∧ s1.recvControl = s.recvControl + (if fail then 0 else 1) := by
  unfold rcvControl at h
  cases hs : sendGsmtap c s (if mt = 3 then .ulDummy else .ulCtrl) true trx ts .pacch fn d with
  | none => rw [hs] at h; cases h
  | some s2 =>
    rw [hs] at h
    have h2 := send_cases hs
    cases fail <;> (cases h; rw [h2]; exact ⟨rfl, rfl⟩)

theorem rcvGprs_ctr {c : Cell} {s s1 : St} {trx ts fn mt : Nat} {d : Bytes} {fail bad : Bool}
    (h : rcvGprs c s trx ts fn d mt fail = some (s1, bad)) :
    s1.ulBytes = s.ulBytes ∧ s1.recvControl = s.recvControl + (if d.headD 0 / 64 == 1 && !fail then 1 else 0) := by
  unfold rcvGprs at h
  generalize d.headD 0 / 64 = k at h
  split at h
  · exact rcvData_ctr h
  · have := rcvControl_ctr h
    cases fail <;> exact this
  · cases h; exact ⟨rfl, rfl⟩
  · next h1 h2 h3 =>
    cases h
    refine ⟨rfl, ?_⟩
    have : (k == 1) = false := by simpa using h2
    rw [this]; rfl

theorem rcvBlock_ctr {c : Cell} {s s1 : St} {trx ts fn mt : Nat} {d : Bytes} {fail bad : Bool}
    (h : rcvBlock c s trx ts fn d mt fail = some (s1, bad)) :
    s1.ulBytes = s.ulBytes + (if ulLengths.contains d.length then d.length else 0) ∧ s1.recvControl = s.recvControl +
    (if gprsLengths.contains d.length && d.headD 0 / 64 == 1 && !fail then 1 else 0) := by
  cases hg : ulLengths.contains d.length with
  | true =>
    rw [rcvBlock_good hg] at h
    cases hq : gprsLengths.contains d.length with
    | true => rw [hq, if_pos rfl] at h; exact rcvGprs_ctr h
    | false => rw [hq, if_neg (by decide)] at h; exact rcvData_ctr h
  | false =>
    have hq : gprsLengths.contains d.length = false := by
      cases hq : gprsLengths.contains d.length with
      | true => rw [gprs_ul _ hq] at hg; cases hg
      | false => rfl
    unfold rcvBlock at h
    dsimp only at h
    rw [if_pos ((bySize_unknown _).mpr hg)] at h
    have : s1 = s := by split at h <;> (cases h; rfl)
    subst this
    rw [hq]
    exact ⟨rfl, rfl⟩

theorem rxPdtch_ctr {c : Cell} {s s1 : St} {trx ts arfcn fn mt : Nat} {d : Bytes} {fail bad : Bool}
    (h : rxPdtch c s trx ts fn d mt fail = some (s1, bad)) :
    s1.ulBytes = s.ulBytes + goodBytes c (.ul trx ts arfcn fn d mt fail) ∧
    s1.recvControl = s.recvControl + (if isGoodCtrl c (.ul trx ts arfcn fn d mt fail) then 1 else 0) := by
  show s1.ulBytes = s.ulBytes + (if onPdch c trx ts && ulLengths.contains d.length then d.length else 0) ∧ s1.recvControl = s.recvControl +
    (if onPdch c trx ts && gprsLengths.contains d.length && d.headD 0 / 64 == 1 && !fail then 1 else 0)
  rcases rxPdtch_cases h with ⟨hp, rfl, -⟩ | ⟨hp, h⟩
  · rw [hp]; exact ⟨rfl, rfl⟩
  · rw [hp]
    simp only [Bool.true_and]
    exact rcvBlock_ctr h

theorem step_up {c : Cell} {s s1 : St} {e : Ev} (h : step c s e = some s1) :
    s1.ulBytes = s.ulBytes + goodBytes c e ∧ s1.recvControl = s.recvControl + (if isGoodCtrl c e then 1 else 0) := by
  cases e with
  | rts trx ts fn block f =>
    rcases rts_cases h with ⟨hp, rfl⟩ | ⟨hp, hs, rfl⟩ | ⟨cat, m, d, hp, hs, hu, rfl⟩ <;> exact ⟨rfl, rfl⟩
  | rach p trx ts fn ra is11 => rw [send_cases h]; exact ⟨rfl, rfl⟩
  | ul trx ts arfcn fn d mt fail =>
    have h : rxData c s trx ts arfcn fn d mt fail = some s1 := h
    unfold rxData at h
    cases hb : rxPdtch c s trx ts fn d mt fail with
    | none => rw [hb] at h; cases h
    | some p =>
      obtain ⟨s2, bad⟩ := p
      rw [hb] at h
      simp only [Option.map_some, Option.some.injEq] at h
      have h2 := rxPdtch_ctr (arfcn := arfcn) hb
      split at h <;> (subst h; exact h2)

/-- **C98, uplink counters.** The counter of bytes received is the sum of the lengths of the blocks on packet data time slots that have the
length of an uplink block;
that of control blocks the number of control blocks that could be decoded. -/
theorem C98_ul_counts (c : Cell) (es : List Ev) (s : St) (h : run c {} es = some s) :
    s.ulBytes = (es.map (goodBytes c)).sum ∧ s.recvControl = es.countP (isGoodCtrl c) := by
  have := run_induct (c := c) (fun s es s2 => s2.ulBytes = s.ulBytes + (es.map (goodBytes c)).sum ∧
    s2.recvControl = s.recvControl + es.countP (isGoodCtrl c)) (fun s => ⟨rfl, rfl⟩)
    (fun s e s1 es s2 hs ih => by
      obtain ⟨h1, h2⟩ := step_up hs
      obtain ⟨g1, g2⟩ := ih
      simp only [List.countP_cons, List.map_cons, List.sum_cons]
      omega) es {} s h
  simpa using this

/-- **C98, uplink (partial).** A block that is processed without failure is shown once, with the ARFCN of its TRX, its time slot, frame number
and bytes. Missing: blocks that fail or have a payload type that is not supported (`C98_ul_fails`). -/
theorem C98_ul_tap_partial (c : Cell) (s : St) (trx ts arfcn fn mt : Nat) (d : Bytes) (hon : onPdch c trx ts = true)
    (hm : c.shows [.ulDummy, .ulCtrl, .ulGprs, .ulEgprs]) (hl : ulLengths.contains d.length = true)
    (hp : gprsLengths.contains d.length = true → d.headD 0 < 128) :
    ∃ s1 f, step c s (.ul trx ts arfcn fn d mt false) = some s1 ∧ s1.tap = s.tap ++ [f] ∧ f.core = (true, c.arfcn trx, ts, fn, d) ∧
      f.cat = (if gprsLengths.contains d.length then if d.headD 0 < 64 then .ulGprs else if mt = 3 then .ulDummy else .ulCtrl else .ulEgprs) := by
  have ht : trx < 8 := by
    unfold onPdch at hon
    simp only [Bool.and_eq_true, decide_eq_true_eq] at hon
    exact hon.1.1
  have hsend : ∀ s cat ch, cat ∈ [Cat.ulDummy, .ulCtrl, .ulGprs, .ulEgprs] → sendGsmtap c s cat true trx ts ch fn d =
      some { s with tap := s.tap ++ [⟨cat, true, c.arfcn trx, ts, ch, fn, d⟩] } := by
    intro s cat ch hc
    unfold sendGsmtap
    rw [if_neg (by rw [hm cat hc]; decide), if_neg (by omega)]
  have hstep : step c s (.ul trx ts arfcn fn d mt false) = rxData c s trx ts arfcn fn d mt false := rfl
  rw [hstep]
  unfold rxData
  rw [rxPdtch_on hon, rcvBlock_good hl]
  cases hg : gprsLengths.contains d.length with
  | false =>
    rw [if_neg (by decide)]
    unfold rcvData
    rw [hsend _ _ _ (by decide)]
    exact ⟨_, _, rfl, rfl, rfl, rfl⟩
  | true =>
    have hp := hp hg
    rw [if_pos rfl]
    unfold rcvGprs
    by_cases h6 : d.headD 0 < 64
    · have : d.headD 0 / 64 = 0 := by omega
      rw [this]
      dsimp only
      unfold rcvData
      rw [hsend _ _ _ (by decide)]
      refine ⟨_, _, rfl, rfl, rfl, ?_⟩
      rw [if_pos rfl, if_pos h6]
      rfl
    · have : d.headD 0 / 64 = 1 := by omega
      rw [this]
      dsimp only
      unfold rcvControl
      rw [hsend _ _ _ (by split <;> decide)]
      refine ⟨_, _, rfl, rfl, rfl, ?_⟩
      rw [if_pos rfl, if_neg h6]

theorem rcvBlock_times (c : Cell) (s : St) (trx ts fn mt : Nat) (d : Bytes) (fail : Bool) (ht : trx < 8)
    (hm : c.shows [.ulDummy, .ulCtrl, .ulGprs, .ulEgprs]) :
    ∃ s1 bad l, rcvBlock c s trx ts fn d mt fail = some (s1, bad) ∧ s1.tap = s.tap ++ l ∧
      l.length + (if bad then 1 else 0) = timesShown d fail ∧ ∀ f ∈ l, f.core = (true, c.arfcn trx, ts, fn, d) := by
  have hsend : ∀ s cat ch, cat ∈ [Cat.ulDummy, .ulCtrl, .ulGprs, .ulEgprs] → sendGsmtap c s cat true trx ts ch fn d =
      some { s with tap := s.tap ++ [⟨cat, true, c.arfcn trx, ts, ch, fn, d⟩] } := by
    intro s cat ch hc
    unfold sendGsmtap
    rw [if_neg (by rw [hm cat hc]; decide), if_neg (by omega)]
  have hone : ∀ cat ch, ∀ f ∈ [(⟨cat, true, c.arfcn trx, ts, ch, fn, d⟩ : Frame)], f.core = (true, c.arfcn trx, ts, fn, d) := by
    intro cat ch f hf
    rw [List.mem_singleton.mp hf]; rfl
  unfold timesShown
  by_cases h0 : d = []
  · subst h0
    exact ⟨s, false, [], rfl, (List.append_nil _).symm, rfl, fun f hf => by cases hf⟩
  rw [if_neg h0]
  cases hg : ulLengths.contains d.length with
  | false =>
    refine ⟨s, true, [], ?_, (List.append_nil _).symm, rfl, fun f hf => by cases hf⟩
    unfold rcvBlock
    rw [if_neg (fun h => h0 (List.length_eq_zero_iff.mp h))]
    dsimp only
    rw [if_pos ((bySize_unknown _).mpr hg)]
  | true =>
    rw [rcvBlock_good hg, if_neg (show ¬ (true = false) by decide)]
    cases hq : gprsLengths.contains d.length with
    | false =>
      simp only [Bool.false_eq_true, false_and, if_false]
      unfold rcvData
      rw [hsend _ _ _ (by decide)]
      refine ⟨_, _, _, rfl, rfl, ?_, hone _ _⟩
      cases fail <;> rfl
    | true =>
      simp only [true_and, if_true]
      unfold rcvGprs
      have hk : d.headD 0 / 64 = 0 ∨ d.headD 0 / 64 = 1 ∨ d.headD 0 / 64 = 2 ∨ ∃ j, d.headD 0 / 64 = j + 3 := by
        by_cases h3 : 3 ≤ d.headD 0 / 64
        · exact .inr (.inr (.inr ⟨d.headD 0 / 64 - 3, by omega⟩))
        · omega
      rcases hk with h | h | h | ⟨j, h⟩ <;> rw [h]
      · unfold rcvData
        rw [hsend _ _ _ (by decide)]
        refine ⟨_, _, _, rfl, rfl, ?_, hone _ _⟩
        cases fail <;> rfl
      · unfold rcvControl
        rw [hsend _ _ _ (by split <;> decide)]
        cases fail
        · exact ⟨_, _, _, rfl, rfl, rfl, hone _ _⟩
        · exact ⟨_, _, _, rfl, rfl, rfl, hone _ _⟩
      · exact ⟨_, false, [], rfl, (List.append_nil _).symm, rfl, fun f hf => by cases hf⟩
      · refine ⟨_, true, [], rfl, (List.append_nil _).symm, ?_, fun f hf => by cases hf⟩
        rw [if_neg (show ¬ (j + 3 = 2) by omega), if_pos (show 3 ≤ j + 3 by omega)]
        rfl

/-- **C98, uplink, what happens.** With all categories of uplink blocks enabled every block on a packet data time slot is shown as often
as `timesShown` says, on another time slot once (as unknown), always with its time slot, frame number and bytes, as uplink and with the ARFCN of the TRX (if the BTS indicates it). -/
theorem C98_ul_times (c : Cell) (s : St) (trx ts fn mt : Nat) (d : Bytes) (fail : Bool) (ht : trx < 8) (hts : ts < 8)
    (hm : c.shows [.ulUnknown, .ulDummy, .ulCtrl, .ulGprs, .ulEgprs]) :
    ∃ s1 l, step c s (.ul trx ts (c.arfcn trx) fn d mt fail) = some s1 ∧ s1.tap = s.tap ++ l ∧ l.length = (if onPdch c trx ts then timesShown d fail else 1) ∧
      ∀ f ∈ l, f.core = (true, c.arfcn trx, ts, fn, d) := by
  have hx : ∃ s1 bad l, rxPdtch c s trx ts fn d mt fail = some (s1, bad) ∧ s1.tap = s.tap ++ l ∧
      l.length + (if bad then 1 else 0) = (if onPdch c trx ts then timesShown d fail else 1) ∧
      ∀ f ∈ l, f.core = (true, c.arfcn trx, ts, fn, d) := by
    cases hp : onPdch c trx ts with
    | true =>
      rw [rxPdtch_on hp, if_pos rfl]
      exact rcvBlock_times c s trx ts fn mt d fail ht (fun k hk => hm k (List.mem_cons_of_mem _ hk))
    | false =>
      refine ⟨s, true, [], ?_, (List.append_nil _).symm, rfl, fun f hf => by cases hf⟩
      unfold onPdch at hp
      rw [decide_eq_true ht, decide_eq_true hts] at hp
      unfold rxPdtch
      rw [if_neg (by omega), if_pos (show c.enabled trx ts = false from hp)]
  obtain ⟨s1, bad, l, h1, h2, h3, h4⟩ := hx
  have hstep : step c s (.ul trx ts (c.arfcn trx) fn d mt fail) = rxData c s trx ts (c.arfcn trx) fn d mt fail := rfl
  rw [hstep]
  unfold rxData
  rw [h1]
  have hu : c.mask.testBit Cat.ulUnknown.bit = true := hm _ List.mem_cons_self
  cases bad with
  | false => exact ⟨s1, l, rfl, h2, h3, h4⟩
  | true =>
    refine ⟨{ s1 with tap := s1.tap ++ [⟨.ulUnknown, true, c.arfcn trx, ts, .pdtch, fn, d⟩] },
      l ++ [⟨.ulUnknown, true, c.arfcn trx, ts, .pdtch, fn, d⟩], ?_, ?_, ?_, ?_⟩
    · simp only [Option.map_some, hu, Bool.and_self, if_true]
    · rw [h2, List.append_assoc]
    · rw [← h3, List.length_append]; rfl
    · intro f hf
      rcases List.mem_append.mp hf with h | h
      · exact h4 f h
      · rw [List.mem_singleton.mp h]; rfl

/-- **C98, access bursts.** The bits of a burst can be read from what is shown of it: 11 bits from two bytes, 8 bits from one. -/
theorem C98_rach (c : Cell) (s : St) (p : Bool) (trx ts fn ra : Nat) (is11 : Bool) (ht : trx < 8) (hm : c.shows [.ulRach, .ulPtcch]) :
    ∃ s1 f, step c s (.rach p trx ts fn ra is11) = some s1 ∧ s1.tap = s.tap ++ [f] ∧
      f.uplink = true ∧ f.arfcn = c.arfcn trx ∧ f.ts = ts ∧ f.fn = fn ∧ f.chan = (if p then .ptcch else .rach) ∧
      (is11 = true → ∃ x y, f.data = [x, y] ∧ x < 256 ∧ y < 256 ∧ x * 8 + y / 32 = ra % 2048 ∧ y % 32 = 0) ∧
      (is11 = false → f.data = [ra % 256]) := by
  have hstep : step c s (.rach p trx ts fn ra is11) = rxRach c s p trx ts fn ra is11 := rfl
  rw [hstep]
  unfold rxRach sendGsmtap
  rw [if_neg (by rw [hm _ (by split <;> decide)]; decide), if_neg (by omega)]
  refine ⟨_, _, rfl, rfl, rfl, rfl, rfl, rfl, rfl, ?_, ?_⟩
  · rintro rfl
    refine ⟨_, _, rfl, ?_, ?_, ?_, ?_⟩ <;> omega
  · rintro rfl
    rfl

/-- A cell that shows everything. -/
def exCell : Cell := { mask := 2 ^ 32 - 1, arfcn := fun t => 100 + t, enabled := fun _ ts => ts == 7, idleC0 := false }

/-- **C98 does not hold for every uplink block.** Although every category is enabled, a control block that cannot be decoded is shown twice
and a block with the payload type for control blocks with optional octets is not shown at all. -/
theorem C98_ul_fails :
    (∃ s, run exCell {} [.ul 0 7 100 4 (64 :: List.replicate 22 0x2b) 9 true] = some s ∧ s.tap.map (fun f => (f.cat, f.data.length)) = [(.ulCtrl, 23), (.ulUnknown, 23)]) ∧
    (∃ s, run exCell {} [.ul 0 7 100 4 (128 :: List.replicate 22 0x2b) 9 false] = some s ∧ s.tap = [] ∧ s.ulBytes = 23) :=
  ⟨⟨_, rfl, rfl⟩, ⟨_, rfl, rfl, rfl⟩⟩

/-- **C98, access burst on a TRX that does not exist.** If access bursts are shown, the number of the TRX is used before it is checked: the
array of TRX is read behind its end. It is not if they are not shown. -/
theorem C98_trx_fails (c : Cell) (s : St) (p : Bool) (trx ts fn ra : Nat) (is11 : Bool) (ht : 8 ≤ trx) :
    step c s (.rach p trx ts fn ra is11) = none ↔ c.mask.testBit (if p then Cat.ulPtcch else Cat.ulRach).bit = true := by
  have hstep : step c s (.rach p trx ts fn ra is11) = rxRach c s p trx ts fn ra is11 := rfl
  rw [hstep]
  unfold rxRach sendGsmtap
  cases c.mask.testBit (if p then Cat.ulPtcch else Cat.ulRach).bit with
  | true => simp [ht]
  | false => simp

/-- **C98, block on a TRX that does not exist.** A block indicated for a TRX or time slot above 7 makes the PCU use memory behind its arrays,
whatever is enabled. -/
theorem C98_block_fails (c : Cell) (s : St) (trx ts arfcn fn mt : Nat) (d : Bytes) (fail : Bool) (h : 8 ≤ trx ∨ 8 ≤ ts) :
    step c s (.ul trx ts arfcn fn d mt fail) = none := by
  show rxData c s trx ts arfcn fn d mt fail = none
  unfold rxData rxPdtch
  rw [if_pos h]
  rfl

/-- **C98, safety of the uplink (partial).** Blocks and bursts on a TRX and time slot that exist do no harm, whatever they contain. -/
theorem C98_ul_safe_partial (c : Cell) (s : St) (trx ts arfcn fn mt ra : Nat) (d : Bytes) (fail p is11 : Bool) (ht : trx < 8) (hts : ts < 8) :
    (step c s (.ul trx ts arfcn fn d mt fail)).isSome = true ∧ (step c s (.rach p trx ts fn ra is11)).isSome = true := by
  have hsend : ∀ s cat ch d, (sendGsmtap c s cat true trx ts ch fn d).isSome = true := by
    intro s cat ch d
    unfold sendGsmtap
    split
    · rfl
    · rw [if_neg (by omega)]; rfl
  refine ⟨?_, hsend _ _ _ _⟩
  show (rxData c s trx ts arfcn fn d mt fail).isSome = true
  unfold rxData rxPdtch
  rw [if_neg (by omega), Option.isSome_map]
  split
  · rfl
  · unfold rcvBlock
    have hd : ∀ s e, (rcvData c s trx ts fn d e fail).isSome = true := by
      intro s e; unfold rcvData; rw [Option.isSome_map]; exact hsend _ _ _ _
    split
    · rfl
    · dsimp only
      split
      · rfl
      · split
        · unfold rcvGprs
          split
          · exact hd _ _
          · unfold rcvControl; rw [Option.isSome_map]; exact hsend _ _ _ _
          · rfl
          · rfl
        · split
          · exact hd _ _
          · rfl

/-- **C98, safety of the downlink.** Requests of the BTS for any TRX, time slot and frame do no harm if the scheduler's messages are not empty. -/
theorem C98_rts_safe (c : Cell) (s : St) (trx ts fn block : Nat) (f : Found) (h1 : f.ctrl ≠ some []) (h2 : ∀ e, f.data ≠ some ([], e)) :
    (step c s (.rts trx ts fn block f)).isSome = true := by
  have hstep : step c s (.rts trx ts fn block f) = rts c s trx ts fn block f := rfl
  rw [hstep]
  unfold rts
  split
  · rfl
  · next h8 =>
    split
    · rfl
    · cases hs : select c trx f with
      | none => rfl
      | some q =>
        obtain ⟨cat, m⟩ := q
        have hm : m ≠ [] := by
          rintro rfl
          unfold select at hs
          split at hs
          · next hc => cases hs; exact h1 hc
          · split at hs
            · next hd => cases hs; exact h2 _ hd
            · split at hs
              · cases hs
              · cases hs
        cases m with
        | nil => exact absurd rfl hm
        | cons b l =>
          have hc := select_cats hs
          have hsend : ∀ s cat ch d, (sendGsmtap c s cat false trx ts ch fn d).isSome = true := by
            intro s cat ch d
            unfold sendGsmtap
            split
            · rfl
            · rw [if_neg (by omega)]; rfl
          simp only [setUsf, Option.bind_some, Option.isSome_map]
          cases cat <;> first | (exact absurd hc (by decide)) | (exact hsend _ _ _ _)

/-- A history with all kinds of blocks. -/
def exEvs : List Ev :=
  [.rts 0 7 4 0 ⟨some (0x47 :: List.replicate 22 0x2b), none, 1, some 2⟩,
   .rts 0 7 8 1 ⟨none, some (7 :: List.replicate 53 1, false), 1, none⟩,
   .rts 0 7 13 2 ⟨none, some (7 :: List.replicate 60 1, true), 1, none⟩,
   .ul 0 7 100 4 (64 :: List.replicate 22 0x2b) 3 false,
   .ul 0 7 100 8 (List.replicate 22 0x2b) 0 false,
   .rts 0 7 17 3 ⟨none, none, 1, none⟩,
   .rts 0 7 21 4 ⟨none, none, 0, none⟩,
   .rts 0 6 21 4 ⟨none, none, 1, none⟩,
   .rach false 0 0 30 0x7f5 true]

/-- The hypotheses can be met: a history with blocks of every kind. -/
example : exCell.shows dlCats ∧ exCell.shows [.ulRach, .ulPtcch] ∧ exCell.shows [.ulDummy, .ulCtrl, .ulGprs, .ulEgprs] := by
  refine ⟨?_, ?_, ?_⟩ <;> (intro k hk; cases k <;> first | rfl | (exact absurd hk (by decide)))

example : ∃ s, run exCell {} exEvs = some s ∧ s.sentControl = 1 ∧ s.sent = 2 ∧ s.sentDummy = 1 ∧ s.dlBytes = 161 ∧ s.ulBytes = 23 ∧
    s.recvControl = 1 ∧ s.phy.length = 5 ∧ s.blocks.length = 4 ∧ s.tap.map (·.cat) =
      [.dlCtrl, .dlGprs, .dlEgprs, .ulDummy, .ulUnknown, .dlDummy, .ulRach] ∧
    s.blocks.map (fun r => r.data.headD 0) = [0x42, 7, 7, 0x47] :=
  ⟨_, rfl, rfl, rfl, rfl, rfl, rfl, rfl, rfl, rfl, rfl, rfl⟩

example : exCell.shows [.ulUnknown, .ulDummy, .ulCtrl, .ulGprs, .ulEgprs] ∧ timesShown (64 :: List.replicate 22 0x2b) true = 2 ∧
    timesShown (64 :: List.replicate 22 0x2b) false = 1 ∧ timesShown [1, 2, 3] false = 1 := by
  refine ⟨?_, rfl, rfl, rfl⟩
  intro k hk
  cases k <;> first | rfl | (exact absurd hk (by decide))

example : let f : Found := ⟨some (0x47 :: List.replicate 22 0x2b), none, 1, some 2⟩
    (∀ b ∈ chosen f, b < 256) ∧ (∀ x, f.usf = some x → x < 8) ∧ (step exCell {} (.rts 0 7 4 0 f)).isSome = true :=
  ⟨by decide, by rintro x ⟨⟩; decide, rfl⟩

end Verif.Tap
