import Verif.Props.C50
import Verif.Spec.PagingReq
/-!
# C54: packet paging on the PCH
-/

namespace Verif.Ia

open Verif.Bits

/-! ## Identities -/

theorem halves_bcd : ∀ {l : List Nat}, (∀ x ∈ l, x < 16) →
    halves (bcd l) = if l.length % 2 = 1 then l ++ [15] else l
  | [], _ => rfl
  | [a], h => by
    have := h a (List.mem_cons_self ..)
    unfold bcd halves
    simp only [List.flatMap_cons, List.flatMap_nil, List.length_cons, List.length_nil, List.append_nil]
    rw [if_pos (by decide), List.cons_append, List.nil_append]
    rw [show (0xf0 + a) % 16 = a by omega, show (0xf0 + a) / 16 = 15 by omega]
  | a :: b :: l, h => by
    have ha := h a (List.mem_cons_self ..)
    have hb := h b (List.mem_cons_of_mem _ (List.mem_cons_self ..))
    have ih := halves_bcd (l := l) fun x hx => h x (List.mem_cons_of_mem _ (List.mem_cons_of_mem _ hx))
    unfold bcd halves
    rw [List.flatMap_cons]
    unfold halves at ih
    rw [ih, show (b * 16 + a) % 16 = a by omega, show (b * 16 + a) / 16 = b by omega]
    simp only [List.length_cons]
    by_cases e : l.length % 2 = 1
    · rw [if_pos e, if_pos (by omega)]; rfl
    · rw [if_neg e, if_neg (by omega)]; rfl

theorem bcd_lt : ∀ {l : List Nat}, (∀ x ∈ l, x < 16) → ∀ o ∈ bcd l, o < 256
  | [], _, o, ho => absurd ho (List.not_mem_nil)
  | [a], h, o, ho => by
    have := h a (List.mem_cons_self ..)
    unfold bcd at ho
    rw [List.mem_singleton] at ho
    omega
  | a :: b :: l, h, o, ho => by
    have ha := h a (List.mem_cons_self ..)
    have hb := h b (List.mem_cons_of_mem _ (List.mem_cons_self ..))
    unfold bcd at ho
    rcases List.mem_cons.1 ho with e | e
    · omega
    · exact bcd_lt (fun x hx => h x (List.mem_cons_of_mem _ (List.mem_cons_of_mem _ hx))) o e

theorem length_bcd : ∀ (l : List Nat), (bcd l).length = (l.length + 1) / 2
  | [] => rfl
  | [_] => by unfold bcd; simp only [List.length_cons, List.length_nil]
  | a :: b :: l => by
    unfold bcd
    rw [List.length_cons, length_bcd l, List.length_cons, List.length_cons]
    omega

/-- The octets of an identity are read as this identity. -/
theorem identity_encode {mi : Ident} (h : mi.Ok) : identity (encodeMi mi) = some mi := by
  cases mi with
  | tmsi n =>
    have h : n < 2 ^ 32 := h
    unfold encodeMi identity
    dsimp only
    rw [if_pos (by decide), if_pos (by decide)]
    rw [show n / 2 ^ 24 % 256 * 2 ^ 24 + n / 2 ^ 16 % 256 * 2 ^ 16 + n / 2 ^ 8 % 256 * 2 ^ 8 + n % 256 = n by omega]
  | imsi d =>
    obtain ⟨h1, -, h3⟩ := h
    match d, h1, h3 with
    | d :: l, _, h3 =>
      have hd := h3 d (List.mem_cons_self ..)
      have hl : ∀ x ∈ l, x < 16 := fun x hx => h3 x (List.mem_cons_of_mem _ hx)
      by_cases e : (l.length + 1) % 2 = 1
      · have hm : encodeMi (.imsi (d :: l)) = (d * 16 + 8 + 1) :: bcd l := by
          unfold encodeMi; dsimp only; rw [List.length_cons, if_pos e]
        rw [hm]
        unfold identity
        dsimp only
        rw [if_neg (by omega), if_pos (by omega)]
        rw [if_pos (by omega), halves_bcd hl, if_neg (by omega), show (d * 16 + 8 + 1) / 16 = d by omega]
      · have hm : encodeMi (.imsi (d :: l)) = (d * 16 + 0 + 1) :: bcd l := by
          unfold encodeMi; dsimp only; rw [List.length_cons, if_neg e]
        rw [hm]
        unfold identity
        dsimp only
        rw [if_neg (by omega), if_pos (by omega)]
        rw [if_neg (by omega), halves_bcd hl, if_pos (show l.length % 2 = 1 by omega), show (d * 16 + 0 + 1) / 16 = d by omega]
        rw [if_pos (by rw [← List.cons_append]; exact List.getLast?_concat ..)]
        rw [← List.cons_append, List.dropLast_concat]

theorem encode_octets {mi : Ident} (h : mi.Ok) : (∀ o ∈ encodeMi mi, o < 256) ∧ 0 < (encodeMi mi).length ∧ (encodeMi mi).length ≤ 8 := by
  cases mi with
  | tmsi n =>
    refine ⟨?_, by unfold encodeMi; simp, by unfold encodeMi; simp⟩
    intro o ho
    simp only [encodeMi, List.mem_cons, List.not_mem_nil, or_false] at ho
    omega
  | imsi d =>
    obtain ⟨h1, h2, h3⟩ := h
    match d, h1, h2, h3 with
    | d :: l, _, h2, h3 =>
      have hd := h3 d (List.mem_cons_self ..)
      have hl : ∀ x ∈ l, x < 16 := fun x hx => h3 x (List.mem_cons_of_mem _ hx)
      rw [List.length_cons] at h2
      refine ⟨?_, ?_, ?_⟩
      · intro o ho
        rcases List.mem_cons.1 ho with e | e
        · split at e <;> omega
        · exact bcd_lt hl o e
      · unfold encodeMi; rw [List.length_cons]; omega
      · unfold encodeMi; rw [List.length_cons, length_bcd]; omega

/-! ## The message -/

/-- The rest octets begin at an octet. -/
theorem reads_p1Rest {p : Nat} (hp : p % 8 = 0) (t : List Sym) :
    ∃ x, p1Rest (p, render p (fld 1 0 ++ (fld 1 0 ++ (fld 1 1 ++ (fld 1 0 ++ (fld 1 0 ++ (fld 1 1 ++ t))))))) = some ((true, true), x) := by
  have e : render p (fld 1 0 ++ (fld 1 0 ++ (fld 1 1 ++ (fld 1 0 ++ (fld 1 0 ++ (fld 1 1 ++ t)))))) =
      false :: false :: true :: false :: false :: true :: render (p + 6) t := rfl
  rw [e]
  have h1 : (p + 1) % 8 = 1 := by omega
  have h2 : (p + 1 + 1) % 8 = 2 := by omega
  have h3 : (p + 1 + 1 + 1) % 8 = 3 := by omega
  have h4 : (p + 1 + 1 + 1 + 1) % 8 = 4 := by omega
  have h5 : (p + 1 + 1 + 1 + 1 + 1) % 8 = 5 := by omega
  have step : ∀ (q : Nat) (b : Bool) (l : List Bool) (r : Nat), q % 8 = r →
      lh (q, b :: l) = some (b != [false, false, true, false, true, false, true, true].getD r false, (q + 1, l)) := by
    intro q b l r h
    unfold lh
    rw [h]
  unfold p1Rest
  rw [bind_run, step _ _ _ _ hp]
  dsimp only
  rw [if_neg (by decide), bind_run, step _ _ _ _ h1]
  dsimp only
  rw [if_neg (by decide), bind_run, step _ _ _ _ h2]
  dsimp only
  rw [if_neg (by decide), bind_run, step _ _ _ _ h3]
  dsimp only
  rw [if_neg (by decide), bind_run, step _ _ _ _ h4]
  dsimp only
  rw [bind_run, step _ _ _ _ h5]
  exact ⟨_, rfl⟩

theorem render_put (p v w : Nat) (t : List Sym) : render p (fld w v ++ t) = put w v ++ render (p + w) t := by
  unfold fld
  rw [render_bits, length_put]

theorem put_split (v : Nat) : put 8 v = put 6 (v / 4) ++ put 2 (v % 4) := by
  have h : ∀ i, v.testBit (i + 2) = (v / 4).testBit i := fun i => by rw [show v / 4 = v >>> 2 from (Nat.shiftRight_eq_div_pow v 2).symm, Nat.testBit_shiftRight, Nat.add_comm]
  have g : ∀ i, i < 2 → v.testBit i = (v % 4).testBit i := fun i hi => by
    rw [show (4 : Nat) = 2 ^ 2 from rfl, Nat.testBit_mod_two_pow, decide_eq_true hi, Bool.true_and]
  simp only [put, List.cons_append, List.nil_append]
  rw [← h 5, ← h 4, ← h 3, ← h 2, ← h 1, ← h 0, g 0 (by decide), g 1 (by decide)]

theorem pad_shift (p : Nat) : pad (p + 8) = pad p := by unfold pad; rw [Nat.add_mod_right]

theorem render_shift : ∀ (p : Nat) (s : List Sym), render (p + 8) s = render p s
  | _, [] => rfl
  | p, .bit b :: s => by rw [render, render, ← render_shift (p + 1), Nat.add_right_comm]
  | p, .L :: s => by rw [render, render, ← render_shift (p + 1), Nat.add_right_comm, pad_shift]
  | p, .H :: s => by rw [render, render, ← render_shift (p + 1), Nat.add_right_comm, pad_shift]

theorem render_put2 (v w : Nat) (s : List Sym) : render 0 (fld 6 v ++ (fld 2 w ++ s)) = put 6 v ++ put 2 w ++ render (0 + 8) s := by
  rw [render_put, render_put, List.append_assoc]

/-- The message to the PCH: 23 octets from which a mobile reads packet paging of the identity, and of no other
one; with normal paging and any channel. -/
theorem C54_understood {mi : Ident} (h : mi.Ok) (imsi : List Nat) :
    ∃ m, pageOnPch mi imsi = some ⟨imsi, m⟩ ∧ m.length = 184 ∧
      readPaging m = some ⟨0, 0, mi, none, true, true⟩ := by
  obtain ⟨h1, h2, h3⟩ := encode_octets h
  have hne : encodeMi mi ≠ [] := fun e => by rw [e] at h2; exact absurd h2 (by decide)
  unfold pageOnPch pagingRequest
  rw [if_neg hne]
  simp only [Option.map_some, txPch]
  refine ⟨_, rfl, ?_, ?_⟩
  · simp only [List.length_append, length_put, length_render, length_fld, length_flatMap_fld, List.length_replicate]
    omega
  · have hl : (fld 4 0 ++ (fld 4 6 ++ (fld 8 0x21 ++ (fld 4 0 ++ (fld 4 0 ++ (fld 8 (encodeMi mi).length ++ (encodeMi mi).flatMap (fld 8))))))).length =
        32 + 8 * (encodeMi mi).length := by
      simp only [List.length_append, length_fld, length_flatMap_fld]; omega
    rw [hl]
    generalize List.replicate _ Sym.L = t
    have hi := identity_encode h
    generalize encodeMi mi = o at *
    have hlen : (32 + 8 * o.length) / 8 = 4 + o.length := by omega
    rw [hlen, put_split, show ((4 + o.length) * 4 + 1) / 4 = 4 + o.length by omega, show ((4 + o.length) * 4 + 1) % 4 = 1 by omega]
    rw [← render_shift 0, ← render_put2]
    unfold readPaging paging1
    simp only [List.append_assoc]
    rw [bind_run, reads_fld' (show 4 + o.length < 2 ^ 6 by omega)]
    dsimp only
    rw [bind_run, reads_fld' (show 1 < 2 ^ 2 by decide)]
    dsimp only
    rw [if_neg (by decide), bind_run, ← List.append_assoc (fld 4 0), reads_06]
    dsimp only
    rw [if_neg (by decide), bind_run, reads_fld' (show 0x21 < 2 ^ 8 by decide)]
    dsimp only
    rw [if_neg (by decide), bind_run, reads_fld' (show 0 < 2 ^ 4 by decide)]
    dsimp only
    rw [bind_run, reads_fld' (show 0 < 2 ^ 4 by decide)]
    dsimp only
    rw [bind_run, reads_fld' (show o.length < 2 ^ 8 by omega)]
    dsimp only
    rw [bind_run, reads_octets h1]
    dsimp only
    rw [hi]
    dsimp only
    rw [if_pos rfl, bind_run]
    simp only [List.length_append, length_fld, length_flatMap_fld]
    obtain ⟨x, hx⟩ := reads_p1Rest (p := 0 + 6 + 2 + (4 + 4) + 8 + 4 + 4 + 8 + 8 * o.length) (by omega) t
    rw [hx]
    rfl

/-! ## Requests of the SGSN -/

/-- A PAGING-PS is answered with STATUS exactly if the IMSI is missing or is not one, or the TMSI does not have four
octets; nobody is paged then. -/
theorem C54_status (r : PsReq) (now t3113 : Nat) (bts : List (List Verif.Pch.Rec)) (c : Cause) :
    rxPagingPs r now t3113 bts = .error c ↔
      (r.imsi = .absent ∧ c = .missingMandatory) ∨ (r.imsi = .invalid ∧ c = .invalidMandatory) ∨
      ((∃ d, r.imsi = .digits d) ∧ (∃ l, r.tmsi = some l ∧ l.length ≠ 4) ∧ c = .conditional) := by
  obtain ⟨i, m⟩ := r
  unfold rxPagingPs pagingMi
  cases i <;> cases m <;> simp
  · exact eq_comm
  · exact eq_comm
  · exact eq_comm
  · exact eq_comm
  · rename_i l
    by_cases e : l.length = 4
    · simp [e]
    · simp [e, eq_comm]

theorem load32_octets {n : Nat} (h : n < 2 ^ 32) : load32 (tmsiOctets n) = n := by
  unfold load32 tmsiOctets
  simp only [List.foldl_cons, List.foldl_nil]
  omega

/-- Otherwise, in each BTS: a subscriber for whom paging is going on is not paged again; any other one is paged by one
message, by the TMSI if the SGSN gave one and else by the IMSI, in the paging group of the IMSI; the subscriber counts as
being paged, by this TMSI, until T3113 expires. -/
theorem C54_paged (d : List Nat) (t : Option Nat) (now t3113 : Nat) (bts : List (List Verif.Pch.Rec))
    (hd : 1 ≤ d.length ∧ d.length ≤ 15 ∧ ∀ x ∈ d, x < 16) (ht : ∀ n, t = some n → n < 2 ^ 32) :
    ∃ out : List (List Verif.Pch.Rec × Option Pch),
      rxPagingPs ⟨.digits d, t.map tmsiOctets⟩ now t3113 bts = .ok out ∧ out.length = bts.length ∧
      ∀ (i : Nat) (q : List Verif.Pch.Rec), bts[i]? = some q →
        ((∃ r ∈ q, r.imsi = imsiStr d) → out[i]? = some (q, none)) ∧
        ((∀ r ∈ q, r.imsi ≠ imsiStr d) → ∃ x : Pch,
          out[i]? = some (q ++ [⟨imsiStr d, t.getD 0xFFFFFFFF, now + t3113⟩], some x) ∧
          x.imsi = d ∧ x.bits.length = 184 ∧
          readPaging x.bits = some ⟨0, 0, pageBy d t, none, true, true⟩) := by
  have h1 : (pageBy d t).Ok := by
    cases t with
    | none => exact hd
    | some n => exact ht n rfl
  have h2 : pagingMi ⟨.digits d, t.map tmsiOctets⟩ = .ok (pageBy d t) := by
    cases t with
    | none => rfl
    | some n =>
      have := load32_octets (ht n rfl)
      unfold pagingMi
      simp only [Option.map_some]
      rw [if_neg (by unfold tmsiOctets; simp), this]
      rfl
  obtain ⟨m, x1, x2, x3⟩ := C54_understood h1 d
  unfold rxPagingPs
  dsimp only
  rw [h2]
  refine ⟨_, rfl, by rw [List.length_map], ?_⟩
  intro i q hq
  rw [List.getElem?_map, hq, Option.map_some]
  unfold pageBts Verif.Pch.byImsi
  constructor
  · rintro ⟨r, hr, e⟩
    cases hf : List.find? (fun r : Verif.Pch.Rec => decide (r.imsi = imsiStr d)) q with
    | some _ => rfl
    | none =>
      have := List.find?_eq_none.1 hf r hr
      exact absurd (decide_eq_true e) this
  · intro hn
    rw [List.find?_eq_none.2 fun r hr => by rw [decide_eq_false (hn r hr)]; decide]
    dsimp only
    rw [x1]
    refine ⟨⟨d, m⟩, ?_, rfl, x2, x3⟩
    cases t <;> rfl

/-- IMSIs are told apart by their strings. -/
theorem C54_imsi_str {d e : List Nat} (hd : ∀ x ∈ d, x < 16) (he : ∀ x ∈ e, x < 16) (h : imsiStr d = imsiStr e) : d = e := by
  have inj : ∀ a, a < 16 → ∀ b, b < 16 → a.digitChar = b.digitChar → a = b := by decide
  have h' : d.map Nat.digitChar = e.map Nat.digitChar := String.ofList_injective h
  clear h
  induction d generalizing e with
  | nil =>
    cases e with
    | nil => rfl
    | cons => cases h'
  | cons a d ih =>
    cases e with
    | nil => cases h'
    | cons b e =>
      rw [List.map_cons, List.map_cons] at h'
      injection h' with h1 h2
      rw [inj a (hd a (List.mem_cons_self ..)) b (he b (List.mem_cons_self ..)) h1,
        ih (fun x hx => hd x (List.mem_cons_of_mem _ hx)) (fun x hx => he x (List.mem_cons_of_mem _ hx)) h2]

/-! ## Examples -/

example : encodeMi (.imsi [9, 0, 1, 7, 0, 1, 2, 3, 4, 5, 6, 7, 8, 9, 0]) = [0x99, 0x10, 0x07, 0x21, 0x43, 0x65, 0x87, 0x09] := by decide

example : (Ident.tmsi 0xC0DE1234).Ok ∧ (Ident.imsi [9, 0, 1, 7, 0, 1, 2, 3, 4, 5, 6, 7]).Ok := by
  unfold Ident.Ok; decide

/-- Three BTSs, the second one is paging already. -/
example : (match rxPagingPs ⟨.digits [9, 0, 1, 7, 0, 1], some [0xC0, 0xDE, 0x12, 0x34]⟩ 100 7
      [[], [⟨imsiStr [9, 0, 1, 7, 0, 1], 5, 106⟩], [⟨imsiStr [9, 0], 5, 106⟩]] with
    | .ok out => out.map fun x => (x.1.length, x.2.bind fun m => readPaging m.bits)
    | .error _ => []) =
    [(1, some ⟨0, 0, .tmsi 0xC0DE1234, none, true, true⟩), (1, none), (2, some ⟨0, 0, .tmsi 0xC0DE1234, none, true, true⟩)] := by
  decide +kernel

end Verif.Ia
