import Verif.Model.UlAckMsg
import Verif.Spec.UlAckMsg
import Verif.Lemmas.BitField
/-!
Writing and reading of a Packet Uplink Ack/Nack.
-/

namespace Verif.UlAckMsg

open Verif.Bits
open Verif.RlcUl (Win isRecv)
open Verif.Crbb (compress startColor)

/-! ### Writing -/

/-- The vector after `pre` was written. -/
def after (vec pre : List Bool) : List Bool × Nat := (pre ++ vec.drop pre.length, pre.length)

theorem write_after {vec pre f : List Bool} (h : pre.length + f.length ≤ vec.length) :
    write (after vec pre) f = after vec (pre ++ f) := by
  have hl : (pre ++ vec.drop pre.length).length = vec.length := by simp; omega
  unfold write after
  dsimp only
  rw [hl, if_pos h, List.take_append_of_le_length (Nat.le_refl _), List.take_of_length_le (Nat.le_refl _),
    List.take_of_length_le (by omega), List.drop_append, List.drop_drop, List.drop_of_length_le (by omega), List.nil_append,
    List.length_append, Nat.add_sub_cancel_left]

theorem writes_after {vec : List Bool} : ∀ (fs : List (List Bool)) {pre : List Bool}, pre.length + fs.flatten.length ≤ vec.length →
    writes (after vec pre) fs = after vec (pre ++ fs.flatten)
  | [], pre, _ => by simp [writes]
  | f :: fs, pre, h => by
    rw [List.flatten_cons, List.length_append] at h
    show writes (write (after vec pre) f) fs = _
    rw [write_after (by omega), writes_after fs (by rw [List.length_append]; omega), List.flatten_cons, List.append_assoc]

/-! ### Reading of fields -/

theorem get_flag (b : Bool) (r : List Bool) : get 1 (b :: r) = some (b.toNat, r) := by cases b <;> rfl

theorem expect_put {w v : Nat} (h : v < 2 ^ w) (r : List Bool) : expect w v (put w v ++ r) = some r := by
  unfold expect
  rw [get_put' h]
  simp

theorem bits_append {n : Nat} {l : List Bool} (h : l.length = n) (r : List Bool) : bits n (l ++ r) = some (l, r) := by
  subst h
  unfold bits
  rw [if_pos (by simp), List.take_left, List.drop_left]

theorem optField_some {w v : Nat} (h : v < 2 ^ w) (r : List Bool) : optField w (put 1 1 ++ (put w v ++ r)) = some (some v, r) := by
  unfold optField
  rw [get_put' (by omega)]
  simp only [get_put' h, Option.map_some]

theorem optField_none (w : Nat) (r : List Bool) : optField w (put 1 0 ++ r) = some (none, r) := by
  unfold optField
  rw [get_put' (by omega)]
  rfl

theorem read_tlli {t : Tbf} (h : t.tlli < 2 ^ 32) (r : List Bool) :
    optField 32 ((tlliFields t).flatten ++ r) = some (if t.tlli = 0xffffffff then none else some t.tlli, r) := by
  unfold tlliFields Tbf.tlliValid
  by_cases hv : t.tlli = 0xffffffff
  · rw [if_pos hv, if_neg (by simp [hv])]
    exact optField_none 32 r
  · rw [if_neg hv, if_pos (by simp [hv])]
    simp only [List.flatten_cons, List.flatten_nil, List.append_nil, List.append_assoc]
    exact optField_some h r

theorem read_ta {t : Tbf} (h : t.ta < 64 ∨ t.ta = 220) (r : List Bool) :
    optTa ((taFields t).flatten ++ r) = some (if t.ta < 64 then some t.ta else none, r) := by
  unfold taFields Tbf.taValid optTa
  rcases h with h | h
  · rw [if_pos h, if_pos (by simp; omega)]
    simp only [List.flatten_cons, List.flatten_nil, List.append_nil, List.append_assoc]
    rw [get_put' (by omega)]
    simp only [optField_some (w := 6) (v := t.ta) (by omega), expect_put (w := 1) (v := 0) (by omega), Option.map_some]
  · rw [if_neg (show ¬ t.ta < 64 by omega), if_neg (by simp [h])]
    simp only [List.flatten_cons, List.flatten_nil, List.append_nil]
    rw [get_put' (by omega)]
    rfl

theorem length_tlli (t : Tbf) : (tlliFields t).flatten.length = if t.tlli = 0xffffffff then 1 else 33 := by
  unfold tlliFields Tbf.tlliValid
  by_cases hv : t.tlli = 0xffffffff
  · rw [if_pos hv, if_neg (by simp [hv])]; rfl
  · rw [if_neg hv, if_pos (by simp [hv])]
    simp only [List.flatten_cons, List.flatten_nil, List.append_nil, List.length_append, length_put]

theorem length_ta (t : Tbf) : (taFields t).flatten.length = if t.ta < 220 then 9 else 1 := by
  unfold taFields Tbf.taValid
  by_cases hv : t.ta < 220
  · rw [if_pos hv, if_pos (by simp [hv])]
    simp only [List.flatten_cons, List.flatten_nil, List.append_nil, List.length_append, length_put]
  · rw [if_neg hv, if_neg (by simp [hv])]; rfl

theorem flatten_flag (l : List Bool) : (l.map flag).flatten = l := by
  induction l with
  | nil => rfl
  | cons b l ih => rw [List.map_cons, List.flatten_cons, ih]; rfl

/-! ### Header -/

def header (t : Tbf) (final : Bool) (rrbp : Nat) (egprs : Nat) : List Bool :=
  put 2 1 ++ (put 2 rrbp ++ (final :: (put 3 0 ++ (put 6 9 ++ (put 2 0 ++ (put 2 0 ++ (put 5 t.tfi ++ put 1 egprs)))))))

theorem length_header (t : Tbf) (final : Bool) (rrbp e : Nat) : (header t final rrbp e).length = 24 := by
  unfold header
  simp only [List.length_append, List.length_cons, length_put]

theorem toNat_beq (b : Bool) : (b.toNat == 1) = b := by cases b <;> rfl

theorem read_header {t : Tbf} (ht : t.tfi < 32) (final : Bool) {rrbp e : Nat} (hr : rrbp < 4) (he : e < 2) (r : List Bool) :
    read (header t final rrbp e ++ r) = (do
      let poll := if final then some rrbp else none
      if e = 1 then
        let (coding, tlli, ta, d) ← readEgprs r
        return ⟨poll, t.tfi, coding, tlli, ta, .egprs d⟩
      else
        let (coding, tlli, ta, d) ← readGprs r
        return ⟨poll, t.tfi, coding, tlli, ta, .gprs d⟩) := by
  unfold read header
  simp only [List.append_assoc, List.cons_append]
  simp only [expect_put (w := 2) (v := 1) (by omega), get_put' (w := 2) (v := rrbp) (by omega), get_flag,
    get_put' (w := 3) (v := 0) (by omega), expect_put (w := 6) (v := 9) (by omega), get_put' (w := 2) (v := 0) (by omega),
    expect_put (w := 2) (v := 0) (by omega), get_put' (w := 5) (v := t.tfi) (by omega), get_put' (w := 1) (v := e) (by omega),
    Option.bind_eq_bind, Option.bind_some]
  cases final <;> rfl

/-! ### GPRS -/

theorem message_gprs {t : Tbf} (h : t.egprs = false) (final : Bool) (rrbp : Nat) {vec : List Bool} (hv : vec.length = 184) :
    ∃ rest, message t final rrbp vec = header t final rrbp 0 ++ ((gprsFields t final).flatten ++ rest) := by
  have hlen : (gprsFields t final).flatten.length ≤ 123 := by
    unfold gprsFields gprsDesc
    simp only [List.flatten_append, List.flatten_cons, List.flatten_nil, List.length_append, flatten_flag, length_tlli, length_ta,
      length_put, List.length_take, List.length_nil, flag, List.length_cons]
    split <;> split <;> omega
  refine ⟨vec.drop (header t final rrbp 0 ++ (gprsFields t final).flatten).length, ?_⟩
  unfold message
  rw [h]
  simp only [Bool.false_eq_true, if_false]
  rw [show (vec, 0) = after vec [] from rfl, writes_after _ (by rw [hv]; simp [flag]),
    writes_after _ (by rw [hv]; simp [flag])]
  have e : ([] ++ [put 2 1, put 2 rrbp, flag final, put 3 0, put 6 9, put 2 0, put 2 0, put 5 t.tfi].flatten ++ [put 1 0].flatten : List Bool) =
      header t final rrbp 0 := by
    unfold header flag
    simp only [List.flatten_cons, List.flatten_nil, List.append_assoc, List.append_nil, List.nil_append, List.cons_append]
  rw [e, writes_after _ (by rw [hv, length_header]; omega)]
  unfold after
  rw [List.append_assoc]

theorem read_gprs {t : Tbf} (hc : t.code < 4) (hl : t.tlli < 2 ^ 32) (ht : t.ta < 64 ∨ t.ta = 220) (hw : 64 ≤ t.win.ws)
    (hvr : t.win.vr < 128) (final : Bool) (r : List Bool) :
    readGprs ((gprsFields t final).flatten ++ r) =
      some (t.code, if t.tlli = 0xffffffff then none else some t.tlli, if t.ta < 64 then some t.ta else none,
        ⟨final, t.win.vr, t.win.updateRbb.take 64⟩) := by
  have hlen : (t.win.updateRbb.take 64).length = 64 := by simp [Win.updateRbb]; omega
  unfold gprsFields gprsDesc readGprs readGprsDesc
  have e : [put 1 0, put 1 0, put 1 0, put 1 1, put 1 0, put 1 1, put 1 0].flatten ++ r =
    put 3 0 ++ (put 1 1 ++ (put 1 0 ++ (put 1 1 ++ (put 1 0 ++ r)))) := rfl
  simp only [List.flatten_append, List.append_assoc, flatten_flag, e]
  simp only [List.flatten_cons, List.flatten_nil, List.append_nil, flag, List.cons_append, List.nil_append]
  simp only [get_put' (w := 2) (v := t.code) (by omega), get_flag, get_put' (w := 7) (v := t.win.vr) (by omega),
    bits_append hlen, read_tlli hl, read_ta ht, expect_put (w := 3) (v := 0) (by omega), expect_put (w := 1) (v := 1) (by omega),
    expect_put (w := 1) (v := 0) (by omega), get_put' (w := 1) (v := 1) (by omega), Option.bind_eq_bind, Option.bind_some,
    toNat_beq, Option.pure_def]

/-! ### EGPRS -/

theorem octets_flatten : ∀ (fuel : Nat) (l : List Bool), l.length ≤ fuel → (octets fuel l).flatten = l
  | 0, l, h => by
    have : l = [] := List.eq_nil_of_length_eq_zero (by omega)
    subst this; rfl
  | fuel + 1, l, h => by
    unfold octets
    split
    · have : l = [] := List.eq_nil_of_length_eq_zero (by omega)
      subst this; rfl
    · split
      · rw [List.flatten_cons, octets_flatten fuel _ (by rw [List.length_drop]; omega), List.take_append_drop]
      · simp

/-- Space for the description and the two bits after it. -/
def space (t : Tbf) : Nat := 102 + (if t.tlli = 0xffffffff then 32 else 0) + (if t.ta < 220 then 0 else 8)

/-- Between header and description. -/
def egprsHead (t : Tbf) : List Bool :=
  put 2 0 ++ (put 4 t.code ++ (put 4 12 ++ ((tlliFields t).flatten ++ (put 1 1 ++ ((taFields t).flatten ++ put 3 0)))))

theorem length_egprsHead (t : Tbf) : 24 + (egprsHead t).length + 2 + space t = 184 := by
  unfold egprsHead space
  simp only [List.length_append, length_put, length_tlli, length_ta]
  split <;> split <;> omega

theorem message_egprs {t : Tbf} (h : t.egprs = true) (final : Bool) (rrbp : Nat) {vec : List Bool} (hv : vec.length = 184)
    (hfit : (egprsDesc t.win final (space t)).flatten.length ≤ space t) :
    ∃ rest, message t final rrbp vec =
      header t final rrbp 1 ++ (egprsHead t ++ ((egprsDesc t.win final (space t)).flatten ++ (put 1 0 ++ (put 1 0 ++ rest)))) := by
  have hh := length_egprsHead t
  have e1 : ([] ++ [put 2 1, put 2 rrbp, flag final, put 3 0, put 6 9, put 2 0, put 2 0, put 5 t.tfi].flatten ++ [put 1 1].flatten : List Bool) =
      header t final rrbp 1 := by
    unfold header flag
    simp only [List.flatten_cons, List.flatten_nil, List.append_assoc, List.append_nil, List.nil_append, List.cons_append]
  have e2 : ([put 2 0, put 4 t.code, put 1 1, put 1 1, put 1 0, put 1 0] ++ tlliFields t ++ [put 1 1] ++ taFields t ++
      [put 1 0, put 1 0, put 1 0]).flatten = egprsHead t := by
    unfold egprsHead
    simp only [List.flatten_append, List.flatten_cons, List.flatten_nil, List.append_assoc, List.append_nil]
    rfl
  unfold message
  rw [h]
  simp only [if_true]
  rw [show (vec, 0) = after vec [] from rfl, writes_after _ (by rw [hv]; simp [flag]),
    writes_after _ (by rw [hv]; simp [flag]), e1]
  unfold egprsWrite
  rw [writes_after _ (by rw [hv, length_header, e2]; omega), e2]
  have e3 : (after vec (header t final rrbp 1 ++ egprsHead t)).1.length - (after vec (header t final rrbp 1 ++ egprsHead t)).2 - 2 = space t := by
    unfold after
    simp only [List.length_append, List.length_drop, hv, length_header]
    omega
  simp only [e3]
  rw [writes_after _ (by rw [hv, List.length_append, length_header]; omega),
    writes_after _ (by rw [hv, List.length_append, List.length_append, length_header]; simp only [List.flatten_cons, List.flatten_nil, List.length_append, length_put, List.length_nil]; omega)]
  unfold after
  simp only [List.flatten_cons, List.flatten_nil, List.append_assoc, List.append_nil]
  exact ⟨_, rfl⟩

theorem read_egprs {t : Tbf} (hc : t.code < 16) (hl : t.tlli < 2 ^ 32) (ht : t.ta < 64 ∨ t.ta = 220) {D r : List Bool} {d : Egprs}
    (hd : readEgprsDesc (D ++ (put 1 0 ++ (put 1 0 ++ r))) = some (d, put 1 0 ++ (put 1 0 ++ r))) :
    readEgprs (egprsHead t ++ (D ++ (put 1 0 ++ (put 1 0 ++ r)))) =
      some (t.code, if t.tlli = 0xffffffff then none else some t.tlli, if t.ta < 64 then some t.ta else none, d) := by
  unfold egprsHead readEgprs
  simp only [List.append_assoc]
  simp only [expect_put (w := 2) (v := 0) (by omega), get_put' (w := 4) (v := t.code) (by omega), get_put' (w := 4) (v := 12) (by omega),
    read_tlli hl, get_put' (w := 1) (v := 1) (by omega), read_ta ht, expect_put (w := 3) (v := 0) (by omega), hd,
    expect_put (w := 1) (v := 0) (by omega), Option.bind_eq_bind, Option.bind_some, Option.pure_def]

/-- The whole message, if the description fits and is read as `d`. -/
theorem egprs_message_read {t : Tbf} (h : t.egprs = true) (htf : t.tfi < 32) (hc : t.code < 16) (hl : t.tlli < 2 ^ 32)
    (ht : t.ta < 64 ∨ t.ta = 220) (final : Bool) {rrbp : Nat} (hr : rrbp < 4) {vec : List Bool} (hv : vec.length = 184)
    (hfit : (egprsDesc t.win final (space t)).flatten.length ≤ space t) {d : Egprs}
    (hd : ∀ r, readEgprsDesc ((egprsDesc t.win final (space t)).flatten ++ r) = some (d, r)) :
    read (message t final rrbp vec) = some ⟨if final then some rrbp else none, t.tfi, t.code,
      if t.tlli = 0xffffffff then none else some t.tlli, if t.ta < 64 then some t.ta else none, .egprs d⟩ := by
  obtain ⟨rest, e⟩ := message_egprs h final rrbp hv hfit
  rw [e, read_header htf final hr (by omega)]
  simp only [if_true, read_egprs hc hl ht (hd _), Option.bind_eq_bind, Option.bind_some, Option.pure_def]

/-- Reading of a description as it is laid out. -/
theorem readEgprsDesc_spec (final eow : Bool) {ssn len : Nat} (hs : ssn < 2048) (crbb : Option (Bool × List Bool)) (urbb : List Bool)
    (hc : ∀ x, crbb = some x → x.2.length < 128)
    (hlen : len = urbb.length + 15 + (match crbb with | none => 0 | some x => 8 + x.2.length)) (hl : len < 256) (r : List Bool) :
    readEgprsDesc (put 1 1 ++ (put 8 len ++ (final :: true :: eow :: (put 11 ssn ++
      ((match crbb with | none => put 1 0 | some x => put 1 1 ++ (put 7 x.2.length ++ (x.1 :: x.2))) ++ (urbb ++ r)))))) =
      some (⟨final, true, eow, ssn, crbb, urbb⟩, r) := by
  unfold readEgprsDesc
  rw [expect_put (by omega), show ∀ (α β : Type) (f : α → Option β) (x : α), ((some x) >>= f) = f x from fun _ _ _ _ => rfl]
  simp only [get_put' (w := 8) (v := len) (by omega), Option.bind_eq_bind, Option.bind_some]
  cases crbb with
  | none =>
    simp only at hlen ⊢
    rw [show final :: true :: eow :: (put 11 ssn ++ (put 1 0 ++ (urbb ++ r))) =
      (final :: true :: eow :: (put 11 ssn ++ (put 1 0 ++ urbb))) ++ r by simp [List.append_assoc]]
    rw [bits_append (by simp; omega)]
    unfold readEgprsPart
    simp only [Option.bind_some, get_flag, get_put' (w := 11) (v := ssn) (by omega), get_put' (w := 1) (v := 0) (by omega),
      Option.bind_eq_bind, toNat_beq, Option.pure_def]
    rfl
  | some x =>
    obtain ⟨col, code⟩ := x
    have hc' := hc _ rfl
    simp only at hlen hc' ⊢
    rw [show final :: true :: eow :: (put 11 ssn ++ ((put 1 1 ++ (put 7 code.length ++ (col :: code))) ++ (urbb ++ r))) =
      (final :: true :: eow :: (put 11 ssn ++ (put 1 1 ++ (put 7 code.length ++ (col :: (code ++ urbb)))))) ++ r by simp [List.append_assoc]]
    rw [bits_append (by simp; omega)]
    unfold readEgprsPart
    simp only [Option.bind_some, get_flag, get_put' (w := 11) (v := ssn) (by omega), get_put' (w := 1) (v := 1) (by omega),
      Option.bind_eq_bind, toNat_beq, Option.pure_def, if_true, get_put' (w := 7) (v := code.length) (by omega), bits_append rfl]

theorem range_down {α} (g : Nat → α) (u : Nat) :
    (List.range u).map (fun k => g (u - k)) = ((List.range u).map fun i => g (i + 1)).reverse := by
  apply List.ext_getElem
  · simp
  · intro i h1 h2
    simp only [List.length_map, List.length_range] at h1
    simp only [List.getElem_map, List.getElem_range, List.getElem_reverse, List.length_map, List.length_range]
    congr 1
    omega

/-- The states of `u` blocks after `b`. -/
def states (w : Win) (b u : Nat) : List Bool := (List.range u).map fun i => isRecv w.vn (b + 1 + i)

theorem urbb_flatten (w : Win) (b u : Nat) :
    ((List.range u).map fun k => flag (isRecv w.vn (b + (u - k)))).flatten = (states w b u).reverse := by
  rw [range_down (fun j => flag (isRecv w.vn (b + j))), ← List.map_reverse]
  rw [show (fun i => flag (isRecv w.vn (b + (i + 1)))) = flag ∘ (fun i => isRecv w.vn (b + 1 + i)) by
    funext i; simp only [Function.comp_def]; congr 2; omega]
  rw [← List.map_map, flatten_flag, states, List.map_reverse]

/-- Description without compressed bitmap. -/
theorem desc_plain (w : Win) (final : Bool) {R : Nat} (hR : R ≤ 200)
    (hp : numBlocks w ≤ R - 24 ∨ (compress (R - 24 - 16) w.updateEgprsRbb).gain = false) :
    (egprsDesc w final R).flatten = put 1 1 ++ (put 8 (min (numBlocks w) (R - 24) + 15) ++ (final :: true :: decide (numBlocks w ≤ R - 24) ::
      (put 11 (w.modSns (w.vq + 1)) ++ (put 1 0 ++ (states w (w.modSns w.vq) (min (numBlocks w) (R - 24))).reverse)))) := by
  have hC : (decide (numBlocks w > R - 24) && (compress (R - 24 - 16) w.updateEgprsRbb).gain) = false := by
    rcases hp with h | h
    · rw [decide_eq_false (by omega), Bool.false_and]
    · rw [h, Bool.and_false]
  unfold egprsDesc
  simp only [hC, Bool.false_eq_true, if_false, Nat.zero_add, Nat.add_zero]
  have hu : (if decide (numBlocks w ≤ R - 24) then numBlocks w - 0 else (R - 24 + 2 ^ 32 - 0) % 2 ^ 32) = min (numBlocks w) (R - 24) := by
    by_cases h : numBlocks w ≤ R - 24
    · rw [if_pos (by simpa using h)]; omega
    · rw [if_neg (by simpa using h)]; omega
  rw [hu, Nat.mod_eq_of_lt (show min (numBlocks w) (R - 24) + 15 < 256 by omega), Nat.mod_eq_of_lt (show min (numBlocks w) (R - 24) < 256 by omega)]
  rw [List.flatten_append, urbb_flatten]
  simp only [List.flatten_cons, List.flatten_nil, List.append_assoc, flag, List.cons_append, List.nil_append]

/-- Description with compressed bitmap, if it fits. -/
theorem desc_crbb (w : Win) (final : Bool) {R : Nat} (hR : R ≤ 200) (hn : R - 24 < numBlocks w)
    {c : Crbb.CompResult} (hc : compress (R - 24 - 16) w.updateEgprsRbb = c)
    (hg : c.gain = true) (hl : c.crbb.length ≤ R - 32) (hu : c.uclen ≤ numBlocks w)
    (hfit : numBlocks w ≤ c.uclen + (R - 32) → numBlocks w + c.crbb.length ≤ c.uclen + (R - 32)) :
    ∃ u, u + c.crbb.length ≤ R - 32 ∧ u + c.uclen ≤ numBlocks w ∧ (numBlocks w ≤ c.uclen + (R - 32) → u + c.uclen = numBlocks w) ∧
      (¬ numBlocks w ≤ c.uclen + (R - 32) → u + c.crbb.length = R - 32) ∧
      (egprsDesc w final R).flatten = put 1 1 ++ (put 8 (u + c.crbb.length + 23) ++ (final :: true :: decide (numBlocks w ≤ c.uclen + (R - 32)) ::
      (put 11 (w.modSns (w.vq + 1)) ++ ((put 1 1 ++ (put 7 c.crbb.length ++ (startColor w.updateEgprsRbb :: c.crbb))) ++
        (states w (w.modSns (w.vq + c.uclen)) u).reverse)))) := by
  have hC : (decide (numBlocks w > R - 24) && c.gain) = true := by
    rw [hg, decide_eq_true (by omega)]; rfl
  refine ⟨if numBlocks w ≤ c.uclen + (R - 32) then numBlocks w - c.uclen else R - 32 - c.crbb.length, ?_, ?_, ?_, ?_, ?_⟩
  · split
    · have := hfit (by assumption); omega
    · omega
  · split <;> omega
  · intro h; rw [if_pos h]; omega
  · intro h; rw [if_neg h]; omega
  · unfold egprsDesc
    simp only [hc, hC, if_true, show R - 24 - 8 = R - 32 by omega, Nat.mod_eq_of_lt (show c.crbb.length < 256 by omega), decide_eq_true_eq]
    have hu : (if numBlocks w ≤ c.uclen + (R - 32) then numBlocks w - c.uclen else (R - 32 + 2 ^ 32 - c.crbb.length) % 2 ^ 32) =
        if numBlocks w ≤ c.uclen + (R - 32) then numBlocks w - c.uclen else R - 32 - c.crbb.length := by
      split
      · rfl
      · omega
    rw [hu]
    generalize hU : (if numBlocks w ≤ c.uclen + (R - 32) then numBlocks w - c.uclen else R - 32 - c.crbb.length) = u
    have hu2 : u + c.crbb.length ≤ R - 32 := by
      rw [← hU]
      split
      · have := hfit (by assumption); omega
      · omega
    rw [Nat.mod_eq_of_lt (show u + c.crbb.length + 23 < 256 by omega), Nat.mod_eq_of_lt (show u < 256 by omega),
      List.take_of_length_le (Nat.le_refl _)]
    rw [List.flatten_append, urbb_flatten]
    simp only [octets_flatten _ _ (Nat.le_refl _), List.flatten_cons, List.append_assoc, flag, List.cons_append, List.nil_append]

end Verif.UlAckMsg
