import Verif.Spec.PtcchTx
import Verif.Props.C40
import Verif.Props.C98
/-!
# C99: Requests for the PTCCH are answered with the latest timing advance
-/

namespace Verif.PtcchTx

open Verif.Tap (Cell Req)

theorem advance_eq (q : Int) : Rach.qta2ta q = advance q := by
  unfold Rach.qta2ta advance
  split
  · omega
  · split <;> omega

theorem lastTa_append (trx ts i : Nat) (es : List Ev) (e : Ev) :
    lastTa trx ts i (es ++ [e]) = (inSlot trx ts i e).getD (lastTa trx ts i es) := by
  unfold lastTa
  rw [List.filterMap_append]
  cases h : inSlot trx ts i e with
  | none => simp [h]
  | some v => simp [h]

theorem message_rts (trx ts : Nat) (es : List Ev) (a b fn blk n : Nat) : message trx ts (es ++ [.rts a b fn blk n]) = message trx ts es := by
  unfold message
  congr 1
  apply List.map_congr_left
  intro i _
  rw [lastTa_append]; rfl

theorem message_other (trx ts : Nat) (es : List Ev) (a b rfn : Nat) (q : Int) (h : ¬ (a = trx ∧ b = ts)) :
    message trx ts (es ++ [.burst a b rfn q]) = message trx ts es := by
  unfold message
  congr 1
  apply List.map_congr_left
  intro i _
  rw [lastTa_append]
  have : inSlot trx ts i (.burst a b rfn q) = none := if_neg (fun hh => h ⟨hh.1, hh.2.1⟩)
  rw [this]; rfl

/-- What a burst does to the message. -/
theorem message_burst (trx ts : Nat) (es : List Ev) (rfn : Nat) (q : Int) :
    Ta.ptcchRach (message trx ts es) rfn q = some (message trx ts (es ++ [.burst trx ts rfn q])) := by
  unfold Ta.ptcchRach
  have hin : ∀ i, inSlot trx ts i (.burst trx ts rfn q) = if rfn % 416 = 12 + 26 * i then some (advance q) else none := by
    intro i
    show (if _ then _ else _) = _
    simp
  by_cases h16 : Ta.subSlot rfn = 16
  · rw [if_pos h16]
    congr 1
    unfold message
    congr 1
    apply List.map_congr_left
    intro i hi
    rw [lastTa_append, hin, if_neg]
    · rfl
    · intro h
      have hi := List.mem_range.mp hi
      have := (Ta.subSlot_lt rfn i hi).2 h
      omega
  · rw [if_neg h16]
    have hlt : Ta.subSlot rfn < 16 := by have := Ta.subSlot_le rfn; omega
    unfold Ta.updateTa
    rw [if_pos hlt]
    congr 1
    unfold message
    rw [List.set_append_left _ _ (by simpa using hlt)]
    congr 1
    apply List.ext_getElem
    · simp
    · intro i h1 h2
      simp only [List.length_set, List.length_map, List.length_range] at h1
      rw [List.getElem_set]
      simp only [List.getElem_map, List.getElem_range]
      rw [lastTa_append, hin]
      by_cases hi : Ta.subSlot rfn = i
      · rw [if_pos hi, if_pos ((Ta.subSlot_lt rfn i h1).1 hi), advance_eq]; rfl
      · rw [if_neg hi, if_neg (fun h => hi ((Ta.subSlot_lt rfn i h1).2 h))]; rfl

theorem on_iff {c : Cell} {trx ts : Nat} : onPdch c trx ts = true ↔ ¬ (8 ≤ trx ∨ 8 ≤ ts) ∧ ¬ c.enabled trx ts = false := by
  unfold onPdch
  simp only [Bool.and_eq_true, decide_eq_true_eq, Bool.not_eq_false]
  exact ⟨fun h => ⟨by omega, h.2⟩, fun h => ⟨by omega, h.2⟩⟩

theorem message_len (trx ts : Nat) (es : List Ev) : (message trx ts es).length = 23 := by
  unfold message; simp

/-- The state after a history. -/
structure Inv (c : Cell) (s : St) (before : List Ev) : Prop where
  msg : ∀ trx ts, onPdch c trx ts = true → s.msg trx ts = message trx ts before
  tap : s.tap = if c.mask.testBit 5 then frames s.phy else []

theorem inv_tx {c : Cell} {s : St} {before : List Ev} {e : Ev} (trx ts fn block : Nat) (d : List Nat) (h : Inv c s before)
    (he : ∀ a b, message a b (before ++ [e]) = message a b before) : Inv c (tx c s trx ts fn block d) (before ++ [e]) := by
  refine ⟨fun a b hab => (h.msg a b hab).trans (he a b).symm, ?_⟩
  have htap := h.tap
  unfold tx
  simp only
  rw [htap]
  unfold frames
  rw [List.filter_append, List.map_append]
  cases c.mask.testBit 5 with
  | false => simp
  | true =>
    cases d with
    | nil => simp
    | cons x l => simp

theorem step_inv {c : Cell} {s : St} {before : List Ev} (e : Ev) (h : Inv c s before) :
    ∃ s1, step c s e = some s1 ∧ Inv c s1 (before ++ [e]) ∧ s1.phy = s.phy ++ (answer c before e).toList := by
  cases e with
  | rts trx ts fn block tbfs =>
    refine ⟨_, rfl, ?_⟩
    have hm : ∀ a b, message a b (before ++ [.rts trx ts fn block tbfs]) = message a b before := fun a b => message_rts a b before _ _ _ _ _
    have ha : answer c before (.rts trx ts fn block tbfs) = if onPdch c trx ts then
      some ⟨trx, ts, c.arfcn trx, fn, block, if tbfs = 0 ∧ ¬ (c.idleC0 = true ∧ trx = 0) then [] else message trx ts before⟩ else none := rfl
    rw [ha]
    cases hp : onPdch c trx ts with
    | false =>
      have hr : rts c s trx ts fn block tbfs = s := by
        unfold rts
        by_cases h8 : 8 ≤ trx ∨ 8 ≤ ts
        · rw [if_pos h8]
        · rw [if_neg h8]
          by_cases he : c.enabled trx ts = false
          · rw [if_pos he]
          · exact absurd (on_iff.mpr ⟨h8, he⟩) (by rw [hp]; decide)
      rw [hr]
      exact ⟨⟨fun a b hab => (h.msg a b hab).trans (hm a b).symm, h.tap⟩, (List.append_nil _).symm⟩
    | true =>
      obtain ⟨h8, he⟩ := on_iff.mp hp
      unfold rts
      rw [if_neg h8, if_neg he]
      by_cases hi : tbfs = 0 ∧ (c.idleC0 = true → trx ≠ 0)
      · rw [if_pos hi]
        refine ⟨inv_tx _ _ _ _ _ h hm, ?_⟩
        have : tbfs = 0 ∧ ¬ (c.idleC0 = true ∧ trx = 0) := ⟨hi.1, fun hh => hi.2 hh.1 hh.2⟩
        rw [if_pos rfl, if_pos this]
        rfl
      · rw [if_neg hi]
        refine ⟨inv_tx _ _ _ _ _ h hm, ?_⟩
        have : ¬ (tbfs = 0 ∧ ¬ (c.idleC0 = true ∧ trx = 0)) := fun hh => hi ⟨hh.1, fun h1 h2 => hh.2 ⟨h1, h2⟩⟩
        rw [if_pos rfl, if_neg this, ← h.msg trx ts hp]
        rfl
  | burst trx ts rfn q =>
    show ∃ s1, burst c s trx ts rfn q = some s1 ∧ _
    unfold burst
    cases hp : onPdch c trx ts with
    | false =>
      have hr : burst c s trx ts rfn q = some s := by
        unfold burst
        by_cases h8 : 8 ≤ trx ∨ 8 ≤ ts
        · rw [if_pos h8]
        · rw [if_neg h8]
          by_cases he : c.enabled trx ts = false
          · rw [if_pos he]
          · exact absurd (on_iff.mpr ⟨h8, he⟩) (by rw [hp]; decide)
      refine ⟨s, hr, ⟨fun a b hab => ?_, h.tap⟩, (List.append_nil _).symm⟩
      rw [h.msg a b hab, message_other]
      rintro ⟨rfl, rfl⟩
      rw [hp] at hab; cases hab
    | true =>
      obtain ⟨h8, he⟩ := on_iff.mp hp
      rw [if_neg h8, if_neg he, h.msg trx ts hp, message_burst]
      refine ⟨_, rfl, ⟨fun a b hab => ?_, h.tap⟩, (List.append_nil _).symm⟩
      by_cases hab2 : a = trx ∧ b = ts
      · obtain ⟨rfl, rfl⟩ := hab2
        exact if_pos ⟨rfl, rfl⟩
      · rw [message_other _ _ _ _ _ _ _ (fun hh => hab2 ⟨hh.1.symm, hh.2.symm⟩), ← h.msg a b hab]
        exact if_neg hab2

theorem run_inv {c : Cell} : ∀ (es : List Ev) (s : St) (before : List Ev), Inv c s before →
    ∃ s1, run c s es = some s1 ∧ Inv c s1 (before ++ es) ∧ s1.phy = s.phy ++ answers c before es
  | [], s, before, h => ⟨s, rfl, by rw [List.append_nil]; exact h, (List.append_nil _).symm⟩
  | e :: es, s, before, h => by
    obtain ⟨s1, h1, h2, h3⟩ := step_inv e h
    obtain ⟨s2, g1, g2, g3⟩ := run_inv es s1 (before ++ [e]) h2
    refine ⟨s2, ?_, ?_, ?_⟩
    · unfold run; rw [h1]; exact g1
    · rw [List.append_assoc] at g2; exact g2
    · rw [g3, h3, List.append_assoc]; rfl

theorem inv_init (c : Cell) : Inv c {} [] := ⟨fun _ _ _ => by rfl, by cases c.mask.testBit 5 <;> rfl⟩

/-- **C99.** In every history of bursts and requests, each request for the PTCCH of a packet data time slot is answered once, in order: with
the timing advance of the last burst in each of the 16 sub-slots, or with nothing if no TBF is there and the carrier need not be filled.
Nothing else is sent. No history makes the PCU fail. -/
theorem C99_answers (c : Cell) (es : List Ev) : ∃ s, run c {} es = some s ∧ s.phy = answers c [] es := by
  obtain ⟨s, h1, _, h3⟩ := run_inv es {} [] (inv_init c)
  exact ⟨s, h1, h3⟩

/-- **C99, GSMTAP.** With `gsmtap-category dl-ptcch` exactly the messages sent are shown, with ARFCN, time slot, frame number and bytes; without
it nothing is. -/
theorem C99_tap (c : Cell) (es : List Ev) (s : St) (h : run c {} es = some s) :
    s.tap = if c.mask.testBit 5 then frames s.phy else [] := by
  obtain ⟨s', h1, h2, _⟩ := run_inv es {} [] (inv_init c)
  rw [h] at h1
  cases h1
  exact h2.tap

/-- **C99, range.** Messages have 23 octets; each sub-slot is announced with 0 to 63, or with 127 if there was no burst. -/
theorem C99_range (trx ts : Nat) (es : List Ev) : (message trx ts es).length = 23 ∧ ∀ i, lastTa trx ts i es ≤ 63 ∨ lastTa trx ts i es = 127 := by
  refine ⟨message_len trx ts es, fun i => ?_⟩
  unfold lastTa
  cases h : (es.filterMap (inSlot trx ts i)).getLast? with
  | none => exact .inr rfl
  | some v =>
    left
    have hv := List.mem_of_getLast? h
    obtain ⟨e, _, he⟩ := List.mem_filterMap.mp hv
    show v ≤ 63
    cases e with
    | rts => cases he
    | burst a b rfn q =>
      unfold inSlot at he
      dsimp only at he
      split at he
      · cases he; unfold advance; omega
      · cases he

/-- A history with two bursts in sub-slot 1. -/
example : ∃ s, run Tap.exCell {} [.burst 0 7 38 40, .rts 0 7 50 12 1, .burst 0 7 (416 + 38) 44, .rts 0 7 466 12 1, .rts 0 7 882 12 0, .rts 0 6 882 12 1] = some s ∧
    s.phy.map (fun r => r.data.take 3) = [[127, 10, 127], [127, 11, 127], []] ∧ s.tap.length = 2 :=
  ⟨_, rfl, rfl, rfl⟩

end Verif.PtcchTx
