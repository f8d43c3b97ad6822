import Verif.Spec.PcuIf
/-! Reading the fields of messages of the BTS. -/

namespace Verif.PcuIf

open BtsMsg

theorem u8_cons_zero (x : Nat) (l : List Nat) : u8 (x :: l) 0 = x := rfl
theorem u8_cons_succ (x : Nat) (l : List Nat) (n : Nat) : u8 (x :: l) (n + 1) = u8 l n := rfl

theorem u8_left {a b : List Nat} {o : Nat} (h : o < a.length) : u8 (a ++ b) o = u8 a o := by
  unfold u8; rw [List.getD_eq_getElem?_getD, List.getD_eq_getElem?_getD, List.getElem?_append_left h]

theorem u8_right {a b : List Nat} {o : Nat} (h : a.length ≤ o) : u8 (a ++ b) o = u8 b (o - a.length) := by
  unfold u8; rw [List.getD_eq_getElem?_getD, List.getD_eq_getElem?_getD, List.getElem?_append_right h]

theorem u8_skip {a b : List Nat} {n : Nat} (h : a.length = n) (o : Nat) : u8 (a ++ b) (n + o) = u8 b o := by
  rw [u8_right (by omega)]; congr 1; omega

theorem u8_slice {v : List Nat} {o n k : Nat} (h : k < n) : u8 (slice v o n) k = u8 v (o + k) := by
  unfold u8 slice; rw [List.getD_eq_getElem?_getD, List.getD_eq_getElem?_getD, List.getElem?_take_of_lt h, List.getElem?_drop]

theorem slice_eq_map {v : List Nat} {o n : Nat} (h : o + n ≤ v.length) : slice v o n = (List.range n).map fun i => u8 v (o + i) := by
  apply List.ext_getElem
  · simp [slice]; omega
  · intro i h1 h2
    simp only [slice, List.getElem_take, List.getElem_drop, List.getElem_map, List.getElem_range, u8]
    rw [List.getD_eq_getElem?_getD, List.getElem?_eq_getElem (by simp [slice] at h1; omega)]; rfl

theorem slice_all {v : List Nat} {n : Nat} (h : v.length = n) : slice v 0 n = v := by
  unfold slice; rw [List.drop_zero, ← h, List.take_length]

theorem slice_right {a b : List Nat} {n : Nat} (h : a.length = n) (o k : Nat) : slice (a ++ b) (n + o) k = slice b o k := by
  unfold slice; subst h; rw [List.drop_append, List.drop_of_length_le (by omega), List.nil_append]; congr 2; omega

theorem slice_left {a b : List Nat} {o n : Nat} (h : o + n ≤ a.length) : slice (a ++ b) o n = slice a o n := by
  unfold slice; rw [List.drop_append_of_le_length (by omega), List.take_append_of_le_length (by simp; omega)]

theorem slice_here {a b : List Nat} {n : Nat} (h : a.length = n) : slice (a ++ b) 0 n = a := by
  rw [slice_left (by omega), slice_all h]

/-- Element `k` of part `i` of equal parts of `n` octets. -/
theorem u8_flatten {n : Nat} : ∀ (l : List (List Nat)), (∀ x ∈ l, x.length = n) → ∀ (i k : Nat) x, l[i]? = some x → k < n →
    u8 l.flatten (n * i + k) = u8 x k
  | [], _, i, k, x, h, _ => by simp at h
  | y :: l, hl, 0, k, x, h, hk => by
    obtain rfl : y = x := by simpa using h
    rw [List.flatten_cons, Nat.mul_zero, Nat.zero_add, u8_left (by rw [hl y List.mem_cons_self]; exact hk)]
  | y :: l, hl, i + 1, k, x, h, hk => by
    rw [List.flatten_cons, show n * (i + 1) + k = n + (n * i + k) by rw [Nat.mul_add]; omega, u8_skip (hl y List.mem_cons_self)]
    exact u8_flatten l (fun x hx => hl x (List.mem_cons_of_mem _ hx)) i k x (by simpa using h) hk

theorem slice_flatten {n : Nat} : ∀ (l : List (List Nat)), (∀ x ∈ l, x.length = n) → ∀ (i k j : Nat) x, l[i]? = some x → k + j ≤ n →
    slice l.flatten (n * i + k) j = slice x k j
  | [], _, i, k, j, x, h, _ => by simp at h
  | y :: l, hl, 0, k, j, x, h, hk => by
    obtain rfl : y = x := by simpa using h
    rw [List.flatten_cons, Nat.mul_zero, Nat.zero_add, slice_left (by rw [hl y List.mem_cons_self]; exact hk)]
  | y :: l, hl, i + 1, k, j, x, h, hk => by
    rw [List.flatten_cons, show n * (i + 1) + k = n + (n * i + k) by rw [Nat.mul_add]; omega, slice_right (hl y List.mem_cons_self)]
    exact slice_flatten l (fun x hx => hl x (List.mem_cons_of_mem _ hx)) i k j x (by simpa using h) hk

theorem flatten_length {n : Nat} : ∀ (l : List (List Nat)), (∀ x ∈ l, x.length = n) → l.flatten.length = n * l.length
  | [], _ => by simp
  | y :: l, h => by
    rw [List.flatten_cons, List.length_append, h y List.mem_cons_self, flatten_length l (fun x hx => h x (List.mem_cons_of_mem _ hx)),
      List.length_cons, Nat.mul_add]
    omega

theorem le16_length (n : Nat) : (le16 n).length = 2 := rfl
theorem le32_length (n : Nat) : (le32 n).length = 4 := rfl

theorem u16_le (n : Nat) (b : List Nat) : u16 (le16 n ++ b) 0 = n := by
  show n % 256 + 256 * (n / 256) = n; omega

theorem u32_le (n : Nat) (b : List Nat) : u32 (le32 n ++ b) 0 = n := by
  show n % 256 + 256 * (n / 256 % 256) + 65536 * (n / 65536 % 256 + 256 * (n / 16777216)) = n; omega

theorem be16_net (n : Nat) (b : List Nat) : be16 (net16 n ++ b) 0 = n := by
  show 256 * (n / 256) + n % 256 = n; omega

theorem u16_skip {a b : List Nat} {n : Nat} (h : a.length = n) (o : Nat) : u16 (a ++ b) (n + o) = u16 b o := by
  unfold u16; rw [u8_skip h, Nat.add_assoc, u8_skip h]
theorem u32_skip {a b : List Nat} {n : Nat} (h : a.length = n) (o : Nat) : u32 (a ++ b) (n + o) = u32 b o := by
  unfold u32; rw [u16_skip h, Nat.add_assoc, u16_skip h]

theorem u16_left {a b : List Nat} {o : Nat} (h : o + 1 < a.length) : u16 (a ++ b) o = u16 a o := by
  unfold u16; rw [u8_left (by omega), u8_left h]
theorem u32_left {a b : List Nat} {o : Nat} (h : o + 3 < a.length) : u32 (a ++ b) o = u32 a o := by
  unfold u32; rw [u16_left (by omega), u16_left (by omega)]

theorem signed8 {x : Int} (h : -128 ≤ x ∧ x < 128) : signed 8 (x % 256).toNat = x := by
  unfold signed
  split <;> rename_i h1 <;> simp only [show (8 : Nat) - 1 = 7 from rfl, show (2 : Nat) ^ 7 = 128 from rfl, show (2 : Int) ^ 8 = 256 from rfl] at * <;> omega

theorem signed16 {x : Int} (h : -32768 ≤ x ∧ x < 32768) : signed 16 (x % 65536).toNat = x := by
  unfold signed
  split <;> rename_i h1 <;> simp only [show (16 : Nat) - 1 = 15 from rfl, show (2 : Nat) ^ 15 = 32768 from rfl, show (2 : Int) ^ 16 = 65536 from rfl] at * <;> omega

/-! ### The list of BTSs -/

theorem get_ensure (s : St) (nr : Nat) : (s.ensure nr).get nr = some ((s.get nr).getD {}) := by
  unfold St.ensure
  split
  · rename_i b h; rw [h]; rfl
  · rename_i h
    rw [h]
    unfold St.get at h ⊢
    rw [List.find?_append, Option.map_eq_none_iff.1 h]
    simp

theorem get_ensure_other (s : St) {nr n : Nat} (h : n ≠ nr) : (s.ensure nr).get n = s.get n := by
  unfold St.ensure
  split
  · rfl
  · unfold St.get
    rw [List.find?_append]
    simp [Ne.symm h]

theorem find_setFirst (nr : Nat) (b : Bts) : ∀ (l : List (Nat × Bts)) (n : Nat),
    ((setFirst nr b l).find? (·.1 = n)).map (·.2) = if n = nr ∧ (l.find? (·.1 = nr)).isSome then some b else (l.find? (·.1 = n)).map (·.2)
  | [], n => by simp [setFirst]
  | x :: l, n => by
    have ih := find_setFirst nr b l n
    unfold setFirst
    by_cases h : x.1 = nr
    · rw [if_pos h]
      by_cases hn : n = nr
      · subst hn; simp [h]
      · have h1 : ¬ nr = n := fun e => hn e.symm
        have h2 : ¬ x.1 = n := fun e => hn (e.symm.trans h)
        simp [List.find?_cons, h1, h2, hn]
    · rw [if_neg h]
      by_cases hn : x.1 = n
      · have h1 : ¬ n = nr := fun e => h (hn.trans e)
        simp [List.find?_cons, hn, h1]
      · simp only [List.find?_cons, h, hn, decide_false]
        exact ih

theorem get_set (s : St) (nr n : Nat) (b : Bts) (h : (s.get nr).isSome) : (s.set nr b).get n = if n = nr then some b else s.get n := by
  unfold St.get St.set at *
  rw [find_setFirst]
  have : (s.bts.find? (·.1 = nr)).isSome := by simpa using h
  simp only [this, and_true]

/-- A message of the type and for the BTS, long enough for its structure: it is cast to the structure. -/
theorem check_ok {s : St} {ty nr : Nat} {fill body : List Nat} {n : Nat} {f : List Nat → Res} (hf : fill.length = 2) (hb : body.length ≥ n) :
    check s (msg ty nr fill body) n f = f (body.take n) := by
  have hl : (msg ty nr fill body).length = 4 + body.length := by simp [msg, hf]; omega
  unfold check cast
  rw [if_neg (by omega), if_pos (by omega)]
  congr 1
  show slice ((ty :: nr :: fill) ++ body) (4 + 0) n = body.take n
  rw [slice_right (by simp [hf])]
  rfl

theorem msg_type (ty nr : Nat) (fill body : List Nat) : u8 (msg ty nr fill body) 0 = ty := rfl
theorem msg_nr (ty nr : Nat) (fill body : List Nat) : u8 (msg ty nr fill body) 1 = nr := rfl
theorem msg_length {ty nr : Nat} {fill body : List Nat} (hf : fill.length = 2) : (msg ty nr fill body).length = 4 + body.length := by
  simp [msg, hf]; omega

/-- The BTS a message finds. -/
def St.bts' (s : St) (nr : Nat) : Bts := (s.get nr).getD {}

/-- Dispatch of a message by its type. -/
theorem rx_msg (e : Env) (s : St) (ty nr : Nat) (fill body : List Nat) (hf : fill.length = 2) :
    rx e s (msg ty nr fill body) =
      let s' := s.ensure nr
      let b := s.bts' nr
      let m := msg ty nr fill body
      if ty = 0x02 then check s' m 180 (rxDataInd s' nr b)
      else if ty = 0x11 then check s' m 5 (rxDataCnf s' nr)
      else if ty = 0x10 then check s' m 13 (rxRts s' nr b)
      else if ty = 0x22 then check s' m 15 (rxRach s' nr b)
      else if ty = 0x32 then check s' m 1003 (rxInfo e s' nr b)
      else if ty = 0x33 then check s' m 5 (rxE1 s' nr)
      else if ty = 0x52 then check s' m 4 fun _ => .ok s' [] true
      else if ty = 0x60 then check s' m 11 (rxPag s' nr)
      else if ty = 0x03 then check s' m 11 fun v => .ok s' [.suspend nr (u32 v 0) (slice v 4 6)] true
      else if ty = 0x04 then check s' m 164 fun v => .ok s' [.appInfo nr (u8 v 0) (u8 v 1) (slice v 2 162)] true
      else if ty = 0x53 then .ok s' [] true
      else if ty = 0x80 then check s' m 4 (rxContainer s' nr m)
      else .ok s' [] false := by
  unfold rx
  rw [if_neg (by rw [msg_length hf]; omega), msg_nr, msg_type]
  dsimp only
  rw [get_ensure]
  rfl

end Verif.PcuIf
