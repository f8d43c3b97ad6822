import Verif.Spec.ReqAnswer
import Verif.Lemmas.BitField
import Verif.Lemmas.MsStore
import Verif.Props.C33
/-!
# C82: the answer to a Packet Resource Request
-/

namespace Verif.Req

open Verif.Bits Verif.Store

theorem length_rejectBits (tlli ms : Nat) : (rejectBits tlli ms).length = 59 := by
  unfold rejectBits
  split <;> simp only [List.length_append, length_put]

theorem rest_more : more 6 (dummyVec.drop 59) = some [] := by decide +kernel

theorem read_struct {tlli n z : Nat} (ht : tlli < 2 ^ 32) (hn : n < 2 ^ 8) (hz : z < 2 ^ 1) (l : List Bool) :
    rejectStruct (put 1 0 ++ (put 32 tlli ++ (put 1 1 ++ (put 8 n ++ (put 1 z ++ l))))) =
      some (⟨tlli, some (if z = 0 then n * 1000 else n * 20)⟩, l) := by
  unfold rejectStruct
  simp only [get_put' ht, get_put' hn, get_put' hz, get_put' (show 0 < 2 ^ 1 by decide), get_put' (show 1 < 2 ^ 1 by decide),
    Option.bind_eq_bind, Option.bind_some, ne_eq, not_true_eq_false, if_false, Nat.one_ne_zero]
  rfl

theorem read_block {tlli n z : Nat} (ht : tlli < 2 ^ 32) (hn : n < 2 ^ 8) (hz : z < 2 ^ 1) :
    readReject (put 2 1 ++ (put 2 0 ++ (put 1 0 ++ (put 3 0 ++ (put 6 0x21 ++ (put 2 0 ++ (put 1 0 ++ (put 32 tlli ++ (put 1 1 ++
      (put 8 n ++ (put 1 z ++ dummyVec.drop 59))))))))))) =
      some [⟨tlli, some (if z = 0 then n * 1000 else n * 20)⟩] := by
  unfold readReject
  simp only [get_put' (show 1 < 2 ^ 2 by decide), get_put' (show 0 < 2 ^ 2 by decide), get_put' (show 0 < 2 ^ 1 by decide),
    get_put' (show 0 < 2 ^ 3 by decide), get_put' (show 0x21 < 2 ^ 6 by decide), read_struct ht hn hz, rest_more,
    Option.bind_eq_bind, Option.bind_some, ne_eq, not_true_eq_false, if_false]
  rfl

theorem reject_eq (tlli ms : Nat) : ∃ n z, n = (if ms / 20 ≤ 255 then ms / 20 else ms / 1000) ∧ z = (if ms / 20 ≤ 255 then 1 else 0) ∧
    rejectBlock tlli ms = put 2 1 ++ (put 2 0 ++ (put 1 0 ++ (put 3 0 ++ (put 6 0x21 ++ (put 2 0 ++ (put 1 0 ++ (put 32 tlli ++ (put 1 1 ++
      (put 8 n ++ (put 1 z ++ dummyVec.drop 59)))))))))) := by
  refine ⟨_, _, rfl, rfl, ?_⟩
  unfold rejectBlock
  rw [length_rejectBits]
  unfold rejectBits
  split <;> simp only [List.append_assoc]

/-- **C82**, reject: for every TLLI and every value of timer T3172 that can be configured, the block has 23 octets and a
mobile reads in it that this TLLI, and no other, is rejected, and for how long: in units of 20 ms if the time is less than
5.12 seconds and else in seconds, never longer than configured, and less than one unit shorter. -/
theorem C82_reject {tlli ms : Nat} (ht : tlli < 2 ^ 32) (hm : ms ≤ 255000) :
    (rejectBlock tlli ms).length = 184 ∧
    ∃ w u, readReject (rejectBlock tlli ms) = some [⟨tlli, some w⟩] ∧ u = (if ms < 5120 then 20 else 1000) ∧
      u ∣ w ∧ w ≤ ms ∧ ms < w + u := by
  constructor
  · unfold rejectBlock
    rw [List.length_append, List.length_drop, length_rejectBits]
    unfold dummyVec
    rw [length_putOctets, List.length_replicate]
  · obtain ⟨n, z, hn, hz, h⟩ := reject_eq tlli ms
    rw [h]
    by_cases hc : ms / 20 ≤ 255
    · rw [if_pos hc] at hn hz
      subst hz
      rw [read_block ht (by omega) (by decide)]
      refine ⟨n * 20, 20, rfl, ?_, ⟨n, Nat.mul_comm ..⟩, ?_, ?_⟩
      · rw [if_pos (by omega)]
      · omega
      · omega
    · rw [if_neg hc] at hn hz
      subst hz
      rw [read_block ht (by omega) (by decide)]
      refine ⟨n * 1000, 1000, rfl, ?_, ⟨n, Nat.mul_comm ..⟩, ?_, ?_⟩
      · rw [if_neg (by omega)]
      · omega
      · omega

/-- **C82**, which requests are answered: those in a block that was given to the mobile that asks, and no other; the
answer is for the mobile that asks and is sent on the slot on which it asked, assignment or reject as there are
resources. -/
theorem C82_answered (codel : Nat) (s : St) (p : Pdch) (ts fn : Nat) (who : Csn1.Who) (ok : Bool) {s1 : St} {i : Nat} {m : Mob}
    (hm : mobile codel s p who = some (s1, i)) (hg : get? s1 i = some m) :
    ((∃ a, (request codel s p ts fn who ok).2 = some a) ↔ ∃ n, p.node fn = some n ∧ May i n) ∧
    ∀ a, (request codel s p ts fn who ok).2 = some a → a.ms = i ∧ a.ts = ts ∧ a.assigned = ok := by
  have hacc : ∀ n, accepts i n = true ↔ May i n := by
    intro n
    cases n with
    | usf t =>
      simp only [accepts, Bool.not_eq_true', bne_eq_false_iff_eq]
      exact ⟨.granted, fun h => by cases h; assumption⟩
    | sba => exact ⟨fun _ => .sba, fun _ => rfl⟩
    | poll t r =>
      simp only [accepts, Bool.and_eq_true, Bool.not_eq_true', bne_eq_false_iff_eq]
      constructor
      · rintro ⟨⟨a, rfl⟩, b⟩; exact .final b a
      · intro h; cases h; exact ⟨⟨by assumption, rfl⟩, by assumption⟩
  unfold request
  cases hn : p.node fn with
  | none =>
    exact ⟨⟨fun ⟨_, h⟩ => (nomatch h), fun ⟨_, h, _⟩ => (nomatch h)⟩, fun _ h => (nomatch h)⟩
  | some n =>
    simp only [hm, hg]
    split
    · rename_i ha
      refine ⟨⟨fun _ => ⟨n, rfl, (hacc n).1 ha⟩, fun _ => ⟨_, rfl⟩⟩, ?_⟩
      intro a h
      cases h
      exact ⟨rfl, rfl, rfl⟩
    · rename_i ha
      refine ⟨⟨fun ⟨_, h⟩ => (nomatch h), fun ⟨n', h, hmay⟩ => ?_⟩, fun _ h => (nomatch h)⟩
      cases h
      exact absurd ((hacc n).2 hmay) ha

/-- **C82**, who asks: the mobile that has the TLLI of the request, else a new one with this TLLI. Partial: for histories in
which the SGSN does not name two mobiles in one PDU (C33). -/
theorem C82_who_partial {codel : Nat} {s : St} (h : Hist codel Orderly s) (p : Pdch) {t : Nat} (ht : t ≠ noTlli) :
    (∀ q ∈ s.ms, q.2.check t = true → mobile codel s p (.tlli t) = some (s, q.1) ∧ get? s q.1 = some q.2) ∧
    ((∀ q ∈ s.ms, q.2.check t = false) → ∃ s1 i m, mobile codel s p (.tlli t) = some (s1, i) ∧ get? s1 i = some m ∧
      m.anyTlli = t ∧ m.check t = true ∧ ∀ q ∈ s.ms, q.1 ≠ i) := by
  constructor
  · intro q hq hc
    have hb := (byTlli_iff h.ok.2 t q.1).2 ⟨q.2, hq, hc⟩
    refine ⟨?_, get_of_mem h.ok.1.1 hq⟩
    simp only [mobile, reqMs, hb]
  · intro hn
    have hb : byTlli s t = none := by
      cases hb : byTlli s t with
      | none => rfl
      | some i =>
        obtain ⟨m, hm, hc⟩ := byTlli_some hb
        exact absurd hc (by rw [hn _ hm]; decide)
    refine ⟨modify (alloc s codel 0).1 (alloc s codel 0).2 (·.setTlli t), s.next, { newMob codel 0 with newUl := t }, ?_, ?_, ?_, ?_, ?_⟩
    · simp only [mobile, reqMs, hb]
      rfl
    · simp [get?, Store.modify, alloc, Mob.setTlli, newMob, ht]
    · simp only [Mob.anyTlli, ht, ne_eq, not_false_eq_true, if_true]
    · simp only [Mob.check, ht, ne_eq, not_false_eq_true, decide_true, Bool.or_true, Bool.true_or, Bool.and_true]
    · intro q hq
      exact Nat.ne_of_lt (h.ok.1.2 q hq)

theorem request_mobile {codel : Nat} {s : St} {p : Pdch} {ts fn : Nat} {who : Csn1.Who} {ok : Bool} {a : Answer}
    (h : (request codel s p ts fn who ok).2 = some a) : ∃ s1, mobile codel s p who = some (s1, a.ms) := by
  unfold request at h
  cases hn : p.node fn with
  | none => rw [hn] at h; cases h
  | some n =>
    rw [hn] at h
    cases hm : mobile codel s p who with
    | none => rw [hm] at h; cases h
    | some x =>
      obtain ⟨s1, i⟩ := x
      simp only [hm] at h
      split at h
      · cases h
      · split at h
        · cases h; exact ⟨s1, rfl⟩
        · cases h

/-- **C82**, who asks by a TFI: the mobile of the downlink or uplink TBF that has the TFI on the PDCH; without such a TBF
nothing is answered. -/
theorem C82_tfi (codel : Nat) (s : St) (p : Pdch) (i ts fn : Nat) (ok : Bool) (a : Answer) :
    ((request codel s p ts fn (.dlTfi i) ok).2 = some a → ∃ t, p.dl i = some t ∧ a.ms = t.ms) ∧
    ((request codel s p ts fn (.ulTfi i) ok).2 = some a → ∃ t, p.ul i = some t ∧ a.ms = t.ms) ∧
    (∀ t, p.dl i = some t → mobile codel s p (.dlTfi i) = some (s, t.ms)) ∧
    ∀ t, p.ul i = some t → mobile codel s p (.ulTfi i) = some (s, t.ms) := by
  refine ⟨fun h => ?_, fun h => ?_, fun t h => ?_, fun t h => ?_⟩
  · obtain ⟨s1, h⟩ := request_mobile h
    obtain ⟨t, ht, he⟩ := Option.map_eq_some_iff.mp (show (p.dl i).map _ = _ from h)
    exact ⟨t, ht, (congrArg Prod.snd he).symm⟩
  · obtain ⟨s1, h⟩ := request_mobile h
    obtain ⟨t, ht, he⟩ := Option.map_eq_some_iff.mp (show (p.ul i).map _ = _ from h)
    exact ⟨t, ht, (congrArg Prod.snd he).symm⟩
  · simp only [mobile, h, Option.map_some]
  · simp only [mobile, h, Option.map_some]

/-- What the mobile used last, as far as the record tells: a TLLI that only it has used so far, else the one that both
sides have used, else the one that the SGSN has used. -/
def Last (m : Mob) (t : Nat) : Prop :=
  m.newUl = t ∨ (m.newUl = noTlli ∧ (m.tlli = t ∨ (m.tlli = noTlli ∧ m.newDl = t)))

/-- **C82**, name: a mobile that asks by a TLLI is answered by the same TLLI (else it takes the answer as not meant for
it, 3GPP TS 44.060 clause 7.1.3.3) exactly if the TLLI is the one it used last. Partial: a mobile that begins to use
a TLLI that the SGSN has used already is answered by the former one (`C82_fails`). -/
theorem C82_named_partial {codel : Nat} {s : St} (h : Hist codel Orderly s) (p : Pdch) {ts fn t : Nat} (ok : Bool)
    (ht : t ≠ noTlli) {a : Answer} (ha : (request codel s p ts fn (.tlli t) ok).2 = some a) :
    ((∀ q ∈ s.ms, q.2.check t = false) → a.name = some t ∧ ∀ q ∈ s.ms, q.1 ≠ a.ms) ∧
    ∀ q ∈ s.ms, q.2.check t = true → a.ms = q.1 ∧ (a.name = some t ↔ Last q.2 t) := by
  have hname : ∀ {s1 i m}, mobile codel s p (.tlli t) = some (s1, i) → get? s1 i = some m →
      a.ms = i ∧ a.name = if ok && m.anyTlli == noTlli then none else some m.anyTlli := by
    intro s1 i m hm hg
    unfold request at ha
    cases hn : p.node fn with
    | none => rw [hn] at ha; cases ha
    | some n =>
      simp only [hn, hm, hg] at ha
      split at ha
      · cases ha; exact ⟨rfl, rfl⟩
      · cases ha
  obtain ⟨h1, h2⟩ := C82_who_partial h p ht
  constructor
  · intro hn
    obtain ⟨s1, i, m, hm, hg, hany, -, hne⟩ := h2 hn
    obtain ⟨e1, e2⟩ := hname hm hg
    rw [hany] at e2
    rw [e1, e2]
    refine ⟨?_, hne⟩
    simp [ht]
  · intro q hq hc
    obtain ⟨hm, hg⟩ := h1 q hq hc
    obtain ⟨e1, e2⟩ := hname hm hg
    refine ⟨e1, ?_⟩
    rw [e2]
    have key : q.2.anyTlli = t ↔ Last q.2 t := by
      unfold Mob.anyTlli Last
      by_cases a1 : q.2.newUl = noTlli
      · by_cases a2 : q.2.tlli = noTlli
        · simp only [a1, a2, ne_eq, not_true_eq_false, if_false, true_and]
          exact ⟨fun h => .inr (.inr h), fun h => h.elim (fun h => absurd h.symm ht) fun h => h.elim (fun h => absurd h.symm ht) id⟩
        · simp only [a1, a2, ne_eq, not_true_eq_false, if_false, not_false_eq_true, if_true, true_and, false_and, or_false]
          exact ⟨.inr, fun h => h.elim (fun h => absurd h.symm ht) id⟩
      · simp only [a1, ne_eq, not_false_eq_true, if_true, false_and, or_false]
    split
    · rename_i hx
      simp only [Bool.and_eq_true, beq_iff_eq] at hx
      constructor
      · intro h; cases h
      · intro h
        exact absurd (hx.2.symm.trans (key.2 h)).symm ht
    · rw [Option.some.injEq]
      exact key

/-- **C82**, until the answer is sent: whatever the SGSN sends to the mobile in the meantime, the mobile is named by the TLLI
by which it asked, if this was used by the mobile before or by both sides. -/
theorem C82_stable {m : Mob} {t : Nat} (ht : t ≠ noTlli) (hm : m.newUl = t ∨ (m.newUl = noTlli ∧ m.tlli = t))
    (evs : List Ev) (hp : Proper evs) (hd : ∀ e ∈ evs, e.isUl = false) : (m.run evs).anyTlli = t := by
  have key : ∀ (evs : List Ev) (m : Mob), Proper evs → (∀ e ∈ evs, e.isUl = false) → (m.newUl = t ∨ (m.newUl = noTlli ∧ m.tlli = t)) →
      (m.run evs).newUl = t ∨ ((m.run evs).newUl = noTlli ∧ (m.run evs).tlli = t) := by
    intro evs
    induction evs with
    | nil => intro m _ _ h; exact h
    | cons e evs ih =>
      intro m hp hd h
      refine ih (m.on e) (fun e' h' => hp e' (List.mem_cons_of_mem _ h')) (fun e' h' => hd e' (List.mem_cons_of_mem _ h')) ?_
      cases e with
      | ul x => have := hd _ (List.mem_cons_self ..); cases this
      | dl x =>
        simp only [Mob.on, Mob.confirmTlli]
        split
        · exact h
        · rename_i h1
          split
          · exact h
          · rename_i h2
            have hx : x = m.newUl := Decidable.not_not.mp h2
            refine .inr ⟨rfl, ?_⟩
            show x = t
            rcases h with h | ⟨h, h'⟩
            · rw [hx, h]
            · exact absurd (hx.trans h) (hp _ (List.mem_cons_self ..))
  have := key evs m hp hd hm
  unfold Mob.anyTlli
  rcases this with h | ⟨h, h'⟩
  · rw [h, if_pos ht]
  · rw [h, if_neg (by simp), h', if_pos ht]

/-- A PDCH with a single block assigned in frame 4. -/
def single : Pdch := ⟨fun f => if f = 4 then some .sba else none, fun _ => none, fun _ => none⟩

/-- **C82** fails: a mobile is known by TLLI 1 to both sides, and the SGSN has then sent to it by TLLI 2. It asks by
TLLI 2, and the answer,
assignment or reject, names TLLI 1. -/
theorem C82_fails (ok : Bool) : ∃ s q a, Hist 0 Orderly s ∧ q ∈ s.ms ∧ q.2.check 2 = true ∧
    (request 0 s single 3 4 (.tlli 2) ok).2 = some a ∧ a.ms = q.1 ∧ a.name = some 1 := by
  have h1 : Hist 0 Orderly _ := .step ⟨0, 60⟩ (.resource 1 (some true)) .init trivial rfl
  have h2 : Hist 0 Orderly _ := .step ⟨0, 60⟩ (.pdu { tlli := 1, imsi := some [2, 6, 2] }) h1
    ⟨by decide, by decide +kernel⟩ rfl
  have h3 : Hist 0 Orderly _ := .step ⟨0, 60⟩ (.pdu { tlli := 2, imsi := some [2, 6, 2] }) h2
    ⟨by decide, by decide +kernel⟩ rfl
  cases ok
  all_goals exact ⟨_, _, _, h3, List.mem_cons_self .., by decide +kernel, rfl, rfl, by decide +kernel⟩

/-! Instances: a reject with the default of T3172 and one in seconds; a request in a single block, one that is not
answered, and one by TFI in a block granted to the mobile. -/

example : readReject (rejectBlock 0xc0ffee01 5000) = some [⟨0xc0ffee01, some 5000⟩] ∧
    readReject (rejectBlock 0xc0ffee01 255000) = some [⟨0xc0ffee01, some 255000⟩] ∧
    readReject (rejectBlock 0xc0ffee01 5130) = some [⟨0xc0ffee01, some 5000⟩] := by decide +kernel

example : ∃ s, Hist 0 Orderly s ∧ (request 0 s single 3 4 (.tlli 1) false).2 = some ⟨0, some 1, false, 3⟩ ∧
    (request 0 s single 3 4 (.tlli 7) true).2 = some ⟨1, some 7, true, 3⟩ ∧ (request 0 s single 3 8 (.tlli 1) true).2 = none :=
  ⟨_, .step ⟨0, 60⟩ (.resource 1 (some true)) .init trivial rfl, by decide +kernel, by decide +kernel, by decide +kernel⟩

example : let s : St := ⟨[(5, { newMob 0 0 with tlli := 1 })], 6⟩
    let p : Pdch := ⟨fun f => if f = 4 then some (.usf ⟨true, 5⟩) else if f = 8 then some (.poll ⟨true, 5⟩ false) else none,
      fun i => if i = 2 then some ⟨true, 5⟩ else none, fun _ => none⟩
    (request 0 s p 3 4 (.ulTfi 2) true).2 = some ⟨5, some 1, true, 3⟩ ∧ (request 0 s p 3 8 (.ulTfi 2) true).2 = none ∧
    (request 0 s p 3 4 (.dlTfi 2) true).2 = none ∧ (request 0 s p 3 4 (.tlli 9) true).2 = none := by decide +kernel

example : (({ newMob 0 0 with tlli := 1 } : Mob).run [.dl 5, .dl 1, .dl 6]).anyTlli = 1 := by decide +kernel

end Verif.Req
