import Verif.Spec.Paging
import Verif.Lemmas.BitField
/-!
# C35: paging on the PACCH

`request q` is `packet_paging_request` on a PDCH with paging records `q`. Before it is sent, the
message is decoded, and it is dropped with its records if this fails. This happens if the entries fill
the block exactly, or if there are more than five (`C35_dropped`), which needs identities of fewer than
six octets (`C35_sent_partial`).
-/

namespace Verif.Paging

open Verif.Bits

theorem field_put (w v : Nat) : field w v = put w v := by
  induction w with
  | zero => rfl
  | succ w ih =>
    unfold field at *
    rw [List.range_succ_eq_map, List.map_cons, List.map_map, put, Nat.testBit_eq_decide_div_mod_eq]
    refine congr (congrArg _ ?_) ?_
    · simp
    · rw [← ih]
      refine List.map_congr_left fun i _ => ?_
      simp only [Function.comp_apply]
      rw [show w + 1 - 1 - (i + 1) = w - 1 - i by omega]

theorem headD_take {l : List Nat} {n : Nat} (h : 1 ≤ n) : (l.take n).headD 0 = l.headD 0 := by
  cases l with
  | nil => simp
  | cons a l =>
    cases n with
    | zero => omega
    | succ n => rfl

theorem length_identity {r : Rec} (h : r.Ok) : r.identity.length = r.len := by
  obtain ⟨_, h2, h3, _⟩ := h
  unfold Rec.identity
  rw [List.length_take]
  omega

theorem flatMap_octets (l : List Nat) : l.flatMap (field 8) = putOctets l := by
  unfold putOctets
  congr 1
  funext v
  exact field_put 8 v

theorem put2 (v : Nat) : put 2 v = put 2 (v % 4) := by
  simp only [put, Nat.testBit_eq_decide_div_mod_eq, List.cons.injEq, and_true, decide_eq_decide]
  constructor <;> simp only [Nat.pow_zero, Nat.pow_one, Nat.div_one] <;> omega

/-- The entry written for a record is the one of the standard, or the record is malformed. -/
theorem rec_cases {r : Rec} (h : r.Ok) :
    (recLen r = none ∧ r.wellFormed = false) ∨
    (recLen r = some r.size ∧ r.wellFormed = true ∧ pageInfo r = r.page.code ∧ r.page.Valid ∧ r.page.octets.length ≤ 8) := by
  have hl := length_identity h
  have hh : r.identity.headD 0 = r.id.headD 0 := headD_take h.1
  obtain ⟨h1, h2, h3, h4⟩ := h
  have hoct : ∀ o ∈ r.identity, o < 256 := fun o ho => h4 o (List.mem_of_mem_take ho)
  unfold recLen pageInfo Rec.size Rec.wellFormed Rec.page Rec.isTmsi Page.code Page.Valid
  rw [hh, hl]
  by_cases ht : r.id.headD 0 % 8 = 4
  · simp only [ht, decide_true, if_true]
    by_cases h5 : r.len = 5
    · right
      have hd : (r.id.drop 1).take (r.len - 1) = r.identity.drop 1 := by
        unfold Rec.identity
        rw [List.drop_take]
      rw [if_neg (by omega), hd, flatMap_octets, field_put]
      refine ⟨?_, by simp [h5], ?_, ⟨?_, ?_, Nat.mod_lt _ (by omega)⟩, ?_⟩
      · simp [hl, h5]
      · rw [← put2]; simp [put]
      · simp [hl, h5]
      · exact fun o ho => hoct o (List.mem_of_mem_drop ho)
      · simp [hl, h5]
    · left
      simp [h5]
  · right
    simp only [ht, decide_false, Bool.false_eq_true, if_false]
    rw [if_neg (by omega), flatMap_octets, field_put, field_put]
    refine ⟨?_, by simp, ?_, ⟨?_, hoct, Nat.mod_lt _ (by omega)⟩, ?_⟩
    · simp [hl]; omega
    · rw [← put2]
      have hmin : min r.len r.id.length = r.len := by omega
      simp [put, hmin, show r.identity = r.id.take r.len from rfl]
    · omega
    · omega

/-- The records that make it into a message, as pages. -/
def pages (l : List Rec) : List Page := (l.filter (·.wellFormed)).map (·.page)

theorem fill_spec (q : List Rec) (hq : ∀ r ∈ q, r.Ok) : ∀ w : List Bool, w.length ≤ 184 →
    ∃ taken, q = taken ++ (fill q w).2 ∧ (fill q w).1 = w ++ (pages taken).flatMap Page.code ∧ (fill q w).1.length ≤ 184 ∧
      ((fill q w).2 = [] ∨ ∃ r t, (fill q w).2 = r :: t ∧ r.wellFormed = true ∧ (fill q w).1.length + r.size > 184) := by
  induction q with
  | nil => intro w hw; exact ⟨[], rfl, by simp [fill, pages], hw, .inl rfl⟩
  | cons r q ih =>
    intro w hw
    have ih := ih fun r hr => hq r (List.mem_cons_of_mem _ hr)
    unfold fill
    rcases rec_cases (hq r List.mem_cons_self) with ⟨e1, e2⟩ | ⟨e1, e2, e3, e4, e5⟩
    · rw [e1]
      obtain ⟨t, h1, h2, h3⟩ := ih w hw
      refine ⟨r :: t, by rw [List.cons_append, ← h1], ?_, h3⟩
      simp only
      rw [h2]
      simp [pages, e2]
    · rw [e1]
      dsimp only
      split
      · exact ⟨[], rfl, by simp [pages], hw, .inr ⟨r, q, rfl, e2, ‹_›⟩⟩
      · rename_i hn
        have hlen : (w ++ pageInfo r).length ≤ 184 := by
          rw [List.length_append, e3]; unfold Rec.size at hn; omega
        obtain ⟨t, h1, h2, h3⟩ := ih _ hlen
        refine ⟨r :: t, by rw [List.cons_append, ← h1], ?_, h3⟩
        rw [h2, e3]
        simp [pages, e2]

/-- What the decoder reads from an entry. -/
def Page.dec (p : Page) : Dec := .rr (if p.tmsi then some p.octets else none) (if p.tmsi then [] else p.octets) p.chan none

theorem getOctets_put' {l : List Nat} {n : Nat} (hn : l.length = n) (h : ∀ o ∈ l, o < 256) (r : List Bool) :
    getOctets n (putOctets l ++ r) = some (l, r) := by subst hn; exact getOctets_put l h r

/-- An entry for an RR connection without priority. -/
theorem decEntry_rr {i : Option (List Nat) × List Nat} {c : Nat} {l r : List Bool} (hi : decIdentity l = some (i, put 2 c ++ false :: r))
    (hc : c < 4) : decEntry (true :: l) = some (.rr i.1 i.2 c none, r) := by
  show (match decIdentity l with
    | none => none
    | some (i, l) =>
      match get 2 l with
      | none => none
      | some (c, l) =>
        match get 1 l with
        | none => none
        | some (0, l) => some (Dec.rr i.1 i.2 c none, l)
        | some (_, l) => (get 3 l).map fun (x : Nat × List Bool) => (Dec.rr i.1 i.2 c (some x.1), x.2)) = _
  rw [hi]
  dsimp only
  rw [get_put' (show c < 2 ^ 2 from hc)]
  rfl

theorem decIdentity_tmsi {o : List Nat} (h : o.length = 4) (ho : ∀ x ∈ o, x < 256) (r : List Bool) :
    decIdentity (false :: (putOctets o ++ r)) = some ((some o, []), r) := by
  show (getOctets 4 (putOctets o ++ r)).map _ = _
  rw [getOctets_put' h ho]
  rfl

theorem decIdentity_mi {o : List Nat} (h : o.length ≤ 8) (ho : ∀ x ∈ o, x < 256) (r : List Bool) :
    decIdentity (true :: (put 4 o.length ++ (putOctets o ++ r))) = some ((none, o), r) := by
  show (match get 4 (put 4 o.length ++ (putOctets o ++ r)) with
    | none => none
    | some (n, l) => if n > 8 then none else (getOctets n l).map fun (x : List Nat × List Bool) => ((none, x.1), x.2)) = _
  rw [get_put' (show o.length < 2 ^ 4 by omega)]
  dsimp only
  rw [if_neg (by omega), getOctets_put' rfl ho]
  rfl

theorem decEntry_code (p : Page) (hv : p.Valid) (h8 : p.octets.length ≤ 8) (l : List Bool) :
    ∃ x, p.code = true :: x ∧ decEntry (x ++ l) = some (p.dec, l) := by
  obtain ⟨v1, v2, v3⟩ := hv
  refine ⟨[true, !p.tmsi] ++ (if p.tmsi then [] else put 4 p.octets.length) ++ putOctets p.octets ++ put 2 p.chan ++ [false], ?_, ?_⟩
  · unfold Page.code
    rw [flatMap_octets, field_put, field_put]
    rfl
  cases ht : p.tmsi with
  | true =>
    rw [ht] at v1
    simp only [if_true] at v1
    simp only [if_true, Bool.not_true, List.nil_append, List.cons_append, List.append_assoc]
    rw [decEntry_rr (decIdentity_tmsi v1 v2 _) v3]
    simp [Page.dec, ht]
  | false =>
    rw [ht] at v1
    simp only [Bool.false_eq_true, if_false] at v1
    simp only [Bool.false_eq_true, if_false, Bool.not_false, List.nil_append, List.cons_append, List.append_assoc]
    rw [decEntry_rr (decIdentity_mi h8 v2 _) v3]
    simp [Page.dec, ht]

theorem decList_spec : ∀ (ps : List Page) (_ : ∀ p ∈ ps, p.Valid ∧ p.octets.length ≤ 8) (n k : Nat),
    decList n (ps.flatMap Page.code ++ List.replicate k false) =
      if ps.length ≤ n ∧ 0 < k then some (ps.map Page.dec) else none
  | [], _, n, 0 => by simp [decList]
  | [], _, n, k + 1 => by simp [decList, List.replicate_succ]
  | p :: ps, h, 0, k => by
    obtain ⟨x, e, -⟩ := decEntry_code p (h p List.mem_cons_self).1 (h p List.mem_cons_self).2 []
    rw [List.flatMap_cons, e]
    simp [decList]
  | p :: ps, h, n + 1, k => by
    have hp := h p List.mem_cons_self
    obtain ⟨x, e, hd⟩ := decEntry_code p hp.1 hp.2 (ps.flatMap Page.code ++ List.replicate k false)
    rw [List.flatMap_cons, e, List.cons_append, List.cons_append, List.append_assoc, decList, hd]
    dsimp only
    rw [decList_spec ps (fun p hp => h p (List.mem_cons_of_mem _ hp)) n k]
    by_cases hc : ps.length ≤ n ∧ 0 < k
    · rw [if_pos hc, if_pos ⟨by simpa using hc.1, hc.2⟩]; rfl
    · rw [if_neg hc, if_neg (by simpa using hc)]; rfl

theorem header_start : header = start := by decide

theorem decode_start (l : List Bool) : decode (start ++ l) = decList 5 l := rfl

theorem pack_eq {w : List Bool} (h : w.length ≤ 184) : pack w = w ++ List.replicate (184 - w.length) false := by
  unfold pack
  rw [List.take_of_length_le]
  rw [List.length_append, List.length_replicate]
  omega

theorem Hist.ok {q : List Rec} (h : Hist q) : ∀ r ∈ q, r.Ok := by
  induction h with
  | init => nofun
  | add chan mi hm _ ih =>
    unfold addPaging
    cases mi with
    | none => exact ih
    | some l =>
      dsimp only
      split
      · exact ih
      · rename_i hl
        rw [not_or] at hl
        intro r hr
        rcases List.mem_cons.1 hr with rfl | hr
        · refine ⟨?_, by show l.length ≤ 8; omega, ?_, ?_⟩
          · show 1 ≤ l.length
            have := List.length_pos_iff.2 hl.2
            omega
          · simp only [List.length_append, List.length_replicate]; omega
          · intro o ho
            rcases List.mem_append.1 ho with ho | ho
            · exact hm l rfl o ho
            · rw [(List.mem_replicate.1 ho).2]; omega
        · exact ih r hr
  | @request q _ ih =>
    unfold Paging.request
    split
    · nofun
    · obtain ⟨t, h1, -⟩ := fill_spec q ih header (by decide)
      dsimp only
      intro r hr
      refine ih r ?_
      rw [h1]
      exact List.mem_append_right _ hr

/-- All there is to know about a request. -/
theorem request_spec {q : List Rec} (hq : ∀ r ∈ q, r.Ok) (hne : q ≠ []) :
    ∃ taken, q = taken ++ (request q).2 ∧ taken ≠ [] ∧
      18 + ((pages taken).flatMap Page.code).length ≤ 184 ∧
      ((request q).2 = [] ∨ ∃ r t, (request q).2 = r :: t ∧ r.wellFormed = true ∧ 18 + ((pages taken).flatMap Page.code).length + r.size > 184) ∧
      (request q).1 = if (pages taken).length ≤ 5 ∧ 18 + ((pages taken).flatMap Page.code).length < 184 then
        some (start ++ (pages taken).flatMap Page.code ++ List.replicate (184 - (18 + ((pages taken).flatMap Page.code).length)) false)
      else none := by
  obtain ⟨t, h1, h2, h3, h4⟩ := fill_spec q hq header (by decide)
  have hl : (fill q header).1.length = 18 + ((pages t).flatMap Page.code).length := by
    rw [h2, List.length_append]; rfl
  have hr2 : (request q).2 = (fill q header).2 := by
    unfold request
    cases q with
    | nil => exact absurd rfl hne
    | cons r q => rfl
  have hr1 : (request q).1 = if (decode (pack (fill q header).1)).isSome then some (pack (fill q header).1) else none := by
    unfold request
    cases q with
    | nil => exact absurd rfl hne
    | cons r q => rfl
  have hval : ∀ p ∈ pages t, p.Valid ∧ p.octets.length ≤ 8 := by
    intro p hp
    unfold pages at hp
    obtain ⟨r, hr, rfl⟩ := List.mem_map.1 hp
    obtain ⟨hr, hw⟩ := List.mem_filter.1 hr
    rcases rec_cases (hq r (by rw [h1]; exact List.mem_append_left _ hr)) with ⟨_, e⟩ | ⟨_, _, _, e⟩
    · rw [hw] at e; cases e
    · exact e
  rw [hl] at h3 h4
  rw [hr2]
  refine ⟨t, h1, ?_, h3, h4, ?_⟩
  · rintro rfl
    -- the first record of an empty message always fits
    rcases h4 with h4 | ⟨r, t, e, hw, hs⟩
    · rw [h4] at h1; exact hne h1
    · have hr := hq r (by rw [h1, e]; simp)
      rcases rec_cases hr with ⟨_, e⟩ | ⟨_, _, _, e4, e5⟩
      · rw [hw] at e; cases e
      · have : r.size ≤ 74 := by
          unfold Rec.size Page.code
          rw [flatMap_octets, field_put, field_put]
          simp only [List.length_append, length_putOctets, length_put, List.length_cons, List.length_nil]
          split
          · simp only [List.length_nil]; omega
          · rw [length_put]; omega
        simp [pages] at hs
        omega
  · rw [hr1, pack_eq (by omega), hl, h2, header_start, List.append_assoc, decode_start, decList_spec _ hval]
    by_cases hc : (pages t).length ≤ 5 ∧ 18 + ((pages t).flatMap Page.code).length < 184
    · have hc' : (pages t).length ≤ 5 ∧ 0 < 184 - (18 + ((pages t).flatMap Page.code).length) := ⟨hc.1, by omega⟩
      simp only [if_pos hc, if_pos hc', Option.isSome_some, if_true]
    · have hc' : ¬ ((pages t).length ≤ 5 ∧ 0 < 184 - (18 + ((pages t).flatMap Page.code).length)) := by omega
      simp only [if_neg hc, if_neg hc', Option.isSome_none, Bool.false_eq_true, if_false]

/-- C35, a message that is sent: it is 23 octets long and says exactly the pages of the records taken
from the queue, malformed ones left out; the other records stay in the queue, in order, and the first
of them did not fit. At least one record is taken. -/
theorem C35_message {q : List Rec} (h : Hist q) {m : List Bool} {rest : List Rec} (hr : request q = (some m, rest)) :
    ∃ taken, q = taken ++ rest ∧ taken ≠ [] ∧ Carries m ((taken.filter (·.wellFormed)).map (·.page)) ∧
      (rest = [] ∨ ∃ r t, rest = r :: t ∧ (start ++ ((taken.filter (·.wellFormed)).map (·.page)).flatMap Page.code).length + r.page.code.length > 184) := by
  have hne : q ≠ [] := by rintro rfl; cases hr
  obtain ⟨t, h1, h0, h2, h3, h4⟩ := request_spec h.ok hne
  rw [hr] at h1 h3 h4
  refine ⟨t, h1, h0, ?_, ?_⟩
  · split at h4
    · rename_i hc
      cases h4
      obtain ⟨k, hk⟩ : ∃ k, 184 - (18 + ((pages t).flatMap Page.code).length) = k + 1 := ⟨_, (Nat.succ_pred_eq_of_pos (by omega)).symm⟩
      refine ⟨?_, List.replicate k false, ?_⟩
      · rw [List.length_append, List.length_append, List.length_replicate, show start.length = 18 from rfl]; omega
      · rw [hk, List.replicate_succ]; rfl
    · cases h4
  · rcases h3 with h3 | ⟨r, t', e, _, h3⟩
    · exact .inl h3
    · refine .inr ⟨r, t', e, ?_⟩
      rw [List.length_append, show start.length = 18 from rfl]
      exact h3

theorem code_length (p : Page) : p.code.length = (if p.tmsi then 6 else 10) + 8 * p.octets.length := by
  unfold Page.code
  rw [flatMap_octets, field_put, field_put]
  simp only [List.length_append, length_putOctets, length_put, List.length_cons, List.length_nil]
  cases p.tmsi <;> simp only [Bool.false_eq_true, if_false, if_true, length_put, List.length_nil] <;> omega

/-- C35, when a message is dropped with its records: the entries fill it to the last bit, or there are
more than five. -/
theorem C35_dropped {q : List Rec} (h : Hist q) (hne : q ≠ []) :
    ∃ taken, q = taken ++ (request q).2 ∧
      ((request q).1 = none ↔ (start ++ ((taken.filter (·.wellFormed)).map (·.page)).flatMap Page.code).length = 184 ∨
        5 < (taken.filter (·.wellFormed)).length) := by
  obtain ⟨t, h1, h0, h2, h3, h4⟩ := request_spec h.ok hne
  refine ⟨t, h1, ?_⟩
  rw [h4, List.length_append, show start.length = 18 from rfl]
  have hp : (pages t).length = (t.filter (·.wellFormed)).length := by simp [pages]
  unfold pages at *
  split
  · rename_i hc
    simp only [reduceCtorEq, false_iff, not_or]
    omega
  · rename_i hc
    simp only [true_iff]
    omega

theorem sum_sizes (ps : List Page) (h : ∀ p ∈ ps, p.Valid ∧ (p.tmsi = false → 6 ≤ p.octets.length ∧ p.octets.length ≤ 8)) :
    ∃ a b c d, (ps.flatMap Page.code).length = 38 * a + 58 * b + 66 * c + 74 * d ∧ ps.length = a + b + c + d := by
  induction ps with
  | nil => exact ⟨0, 0, 0, 0, rfl, rfl⟩
  | cons p ps ih =>
    obtain ⟨a, b, c, d, e1, e2⟩ := ih fun p hp => h p (List.mem_cons_of_mem _ hp)
    obtain ⟨⟨v, -, -⟩, hp⟩ := h p List.mem_cons_self
    rw [List.flatMap_cons, List.length_append, code_length, e1, List.length_cons, e2]
    cases ht : p.tmsi with
    | true =>
      rw [ht] at v
      simp only [if_true] at v ⊢
      exact ⟨a + 1, b, c, d, by omega, by omega⟩
    | false =>
      have := hp ht
      simp only [Bool.false_eq_true, if_false]
      rcases (by omega : p.octets.length = 6 ∨ p.octets.length = 7 ∨ p.octets.length = 8) with e | e | e
      · exact ⟨a, b + 1, c, d, by omega, by omega⟩
      · exact ⟨a, b, c + 1, d, by omega, by omega⟩
      · exact ⟨a, b, c, d + 1, by omega, by omega⟩

/-- C35, no loss. Partial: for TMSIs and identities of six octets or more (IMSIs of at least ten
digits). A request gives a message whenever there is a record. -/
theorem C35_sent_partial {q : List Rec} (h : Hist q) (hne : q ≠ [])
    (hid : ∀ r ∈ q, r.isTmsi = true ∨ 6 ≤ r.identity.length) : (request q).1 ≠ none := by
  obtain ⟨t, h1, h0, h2, h3, h4⟩ := request_spec h.ok hne
  have hval : ∀ p ∈ pages t, p.Valid ∧ (p.tmsi = false → 6 ≤ p.octets.length ∧ p.octets.length ≤ 8) := by
    intro p hp
    unfold pages at hp
    obtain ⟨r, hr, rfl⟩ := List.mem_map.1 hp
    obtain ⟨hr, hw⟩ := List.mem_filter.1 hr
    have hrq : r ∈ q := by rw [h1]; exact List.mem_append_left _ hr
    rcases rec_cases (h.ok r hrq) with ⟨_, e⟩ | ⟨_, _, _, e, e8⟩
    · rw [hw] at e; cases e
    · refine ⟨e, fun ht => ⟨?_, e8⟩⟩
      have ht' : r.isTmsi = false := ht
      rcases hid r hrq with hi | hi
      · rw [ht'] at hi; cases hi
      · unfold Rec.page; simp only [ht', Bool.false_eq_true, if_false]; exact hi
  obtain ⟨a, b, c, d, e1, e2⟩ := sum_sizes _ hval
  have key : ∀ a < 5, ∀ b < 3, ∀ c < 3, ∀ d < 3, 18 + (38 * a + 58 * b + 66 * c + 74 * d) ≠ 184 := by decide
  have := key a (by omega) b (by omega) c (by omega) d (by omega)
  rw [h4, if_pos ⟨by omega, by omega⟩]
  nofun

/-- C35 fails for short identities: three records that fill the block exactly are neither sent nor
kept. -/
theorem C35_exact_fill_lost : ∃ q, Hist q ∧ q.length = 3 ∧ request q = (none, []) := by
  refine ⟨_, .add 0 (some [0x19, 1, 1, 1, 1, 1]) (by decide) (.add 0 (some [0x19, 1, 1, 1, 1, 1]) (by decide)
    (.add 0 (some [0x19, 1, 1, 1, 1]) (by decide) .init)), by decide, by decide +kernel⟩

/-- C35 fails for very short identities: six records are neither sent nor kept. -/
theorem C35_six_lost : ∃ q, Hist q ∧ q.length = 6 ∧ request q = (none, []) := by
  refine ⟨_, .add 0 (some [0x19, 1]) (by decide) (.add 0 (some [0x19, 1]) (by decide) (.add 0 (some [0x19, 1]) (by decide)
    (.add 0 (some [0x19, 1]) (by decide) (.add 0 (some [0x19, 1]) (by decide) (.add 0 (some [0x19, 1]) (by decide) .init))))),
    by decide, by decide +kernel⟩

/-- What a message says is unambiguous. -/
theorem C35_unambiguous {m : List Bool} {ps qs : List Page} (hp : ∀ p ∈ ps, p.Valid) (hq : ∀ p ∈ qs, p.Valid)
    (h1 : Carries m ps) (h2 : Carries m qs) : ps = qs := by
  have inj : ∀ {w a b : Nat} {x y : List Bool}, a < 2 ^ w → b < 2 ^ w → put w a ++ x = put w b ++ y → a = b ∧ x = y := by
    intro w a b x y ha hb he
    have := congrArg (get w) he
    rw [get_put' ha, get_put' hb] at this
    cases this
    exact ⟨rfl, rfl⟩
  have injO : ∀ {a b : List Nat} {x y : List Bool}, (∀ o ∈ a, o < 256) → (∀ o ∈ b, o < 256) → a.length = b.length →
      putOctets a ++ x = putOctets b ++ y → a = b ∧ x = y := by
    intro a b x y ha hb hl he
    have := congrArg (getOctets a.length) he
    rw [getOctets_put' rfl ha, getOctets_put' hl.symm hb] at this
    cases this
    exact ⟨rfl, rfl⟩
  obtain ⟨-, pa, e1⟩ := h1
  obtain ⟨-, pb, e2⟩ := h2
  rw [e1] at e2
  rw [List.append_assoc, List.append_assoc] at e2
  have e3 := List.append_cancel_left e2
  clear e1 e2
  induction ps generalizing qs with
  | nil =>
    cases qs with
    | nil => rfl
    | cons q qs => simp [Page.code] at e3
  | cons p ps ih =>
    cases qs with
    | nil => simp [Page.code] at e3
    | cons q qs =>
      obtain ⟨v1, v2, v3⟩ := hp p List.mem_cons_self
      obtain ⟨u1, u2, u3⟩ := hq q List.mem_cons_self
      simp only [List.flatMap_cons, Page.code, flatMap_octets, field_put, List.append_assoc, List.cons_append, List.nil_append,
        List.cons.injEq, true_and] at e3
      obtain ⟨ht, e3⟩ := e3
      have ht : p.tmsi = q.tmsi := by simpa using ht
      have key : p.octets = q.octets ∧ p.chan = q.chan ∧
          ps.flatMap Page.code ++ false :: pa = qs.flatMap Page.code ++ false :: pb := by
        rw [ht] at e3 v1
        cases hq : q.tmsi with
        | true =>
          rw [hq] at e3 v1 u1
          simp only [if_true, List.nil_append] at e3 v1 u1
          obtain ⟨e4, e5⟩ := injO v2 u2 (by omega) e3
          obtain ⟨e6, e7⟩ := inj v3 u3 e5
          exact ⟨e4, e6, by simpa using e7⟩
        | false =>
          rw [hq] at e3 v1 u1
          simp only [Bool.false_eq_true, if_false] at e3 v1 u1
          obtain ⟨el, e3⟩ := inj v1 u1 e3
          obtain ⟨e4, e5⟩ := injO v2 u2 el e3
          obtain ⟨e6, e7⟩ := inj v3 u3 e5
          exact ⟨e4, e6, by simpa using e7⟩
      have : p = q := by
        cases p; cases q; simp only at ht key; simp [ht, key.1, key.2.1]
      rw [this, ih (fun p hp' => hp p (List.mem_cons_of_mem _ hp')) (fun p hp' => hq p (List.mem_cons_of_mem _ hp')) key.2.2]

/-! Instances: five TMSIs, four of which fit. -/

def tm (n : Nat) : Option (List Nat) := some [0xf4, 0xc0, 0, 0, n]
def five : List Rec := (addPaging (addPaging (addPaging (addPaging (addPaging [] 0 (tm 1)).1 1 (tm 2)).1 0 (tm 3)).1 2 (tm 4)).1 0 (tm 5)).1
example : Hist five := .add _ _ (by decide) (.add _ _ (by decide) (.add _ _ (by decide) (.add _ _ (by decide) (.add _ _ (by decide) .init))))
example : five.all (fun r => r.isTmsi && r.wellFormed) = true ∧ (request five).2 = five.drop 4 ∧ (request five).1.isSome = true := by decide +kernel

end Verif.Paging
