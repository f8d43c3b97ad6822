import Verif.Spec.PcuTx
/-!
# C75: the BTS gets what the PCU has to tell it, in order

Messages as octets and as a BTS reads them (`read`, Spec/PcuTx); histories of the socket: attempts to connect, messages given to it at any
time, the socket ready for reading or writing with any results.
-/

namespace Verif.PcuTx

open Verif.Nacc (Key)

/-! ### Octets -/

theorem oct_app {a b : List Nat} {i : Nat} (n : Nat) (h : a.length = n) (hi : n ≤ i) : oct (a ++ b) i = oct b (i - n) := by
  unfold oct
  rw [List.getD_eq_getElem?_getD, List.getD_eq_getElem?_getD, List.getElem?_append_right (by omega), h]

theorem oct_left {a b : List Nat} {i : Nat} (h : i < a.length) : oct (a ++ b) i = oct a i := by
  unfold oct
  rw [List.getD_eq_getElem?_getD, List.getD_eq_getElem?_getD, List.getElem?_append_left h]

theorem array_length {k : Nat} {l : List Nat} (h : l.length ≤ k) : (array k l).length = k := by
  unfold array zeros
  rw [List.length_append, List.length_replicate]; omega

theorem zeros_length (k : Nat) : (zeros k).length = k := List.length_replicate

/-- A body in front of zeros. -/
theorem prim_eq {type nr k : Nat} {body : List Nat} (hn : nr < 256) (h : body.length = k) :
    prim type nr body = [type, nr, 0, 0] ++ (body ++ zeros (1003 - k)) := by
  unfold prim array
  rw [Nat.mod_eq_of_lt hn, h]

theorem part_app {a b c : List Nat} {i n : Nat} (ha : a.length = i) (hb : b.length = n) : part (a ++ (b ++ c)) i n = b := by
  unfold part
  rw [List.drop_append_of_le_length (by omega), List.drop_of_length_le (by omega), List.nil_append, List.take_append_of_le_length (by omega),
    List.take_of_length_le (by omega)]

theorem low4 {n : Nat} (h : n < 2 ^ 32) : ∃ a b c d, low 4 n = [a, b, c, d] ∧ a + 256 * b + 65536 * (c + 256 * d) = n :=
  ⟨_, _, _, _, rfl, by omega⟩

theorem low2 {n : Nat} (h : n < 65536) : ∃ a b, low 2 n = [a, b] ∧ a + 256 * b = n := ⟨_, _, rfl, by omega⟩

theorem text_array {t : List Nat} {k : Nat} (h : Text t) (hk : t.length < k) : (array k t).takeWhile (· ≠ 0) = t := by
  unfold array zeros
  rw [List.takeWhile_append_of_pos (fun c hc => by simpa using h c hc)]
  obtain ⟨j, hj⟩ : ∃ j, k - t.length = j + 1 := ⟨k - t.length - 1, by omega⟩
  rw [hj, List.replicate_succ, List.takeWhile_cons_of_neg (by simp), List.append_nil]

/-- The octets of a DATA request. -/
theorem dataReq_octets {nr trx ts sapi arfcn fn blk : Nat} {data m : List Nat} (h : dataReq nr trx ts sapi arfcn fn blk data = some m)
    (hd : data.length ≤ 162) (hn : nr < 256) (ht : trx < 256) (hs : ts < 256) (ha : arfcn < 65536) (hf : fn < 2 ^ 32) (hb : blk < 256) :
    m.length = 1007 ∧ oct m 0 = 0 ∧ oct m 1 = nr ∧ oct m 4 = sapi ∧ oct m 5 = data.length ∧ oct m 174 = trx ∧ oct m 175 = ts ∧
      le2 m 172 = arfcn ∧ le4 m 168 = fn ∧ oct m 176 = blk ∧ ∃ z : List Nat, (data ++ z).length = 162 ∧ ∃ r,
        m = [0, nr, 0, 0, sapi, data.length] ++ ((data ++ z) ++ r) := by
  unfold dataReq at h
  have hl : data.length % 256 = data.length := by omega
  simp only [hl] at h
  rw [if_pos hd, List.take_length] at h
  injection h with h
  obtain ⟨f0, f1, f2, f3, e1, e2⟩ := low4 hf
  obtain ⟨a0, a1, e3, e4⟩ := low2 ha
  rw [e1, e3] at h
  have hm : ∃ r, m = [0, nr, 0, 0, sapi, data.length] ++ (array 162 data ++ ([f0, f1, f2, f3, a0, a1, trx, ts, blk] ++ r)) ∧ r.length = 1007 - 177 := by
    refine ⟨[0, 0, 0, 0, 0, 0, 0] ++ zeros (1003 - 180), ?_, ?_⟩
    · rw [← h, Nat.mod_eq_of_lt ht, Nat.mod_eq_of_lt hs, Nat.mod_eq_of_lt hb, prim_eq (k := 180) hn]
      · simp only [List.append_assoc, List.cons_append, List.nil_append]
      · simp only [List.length_cons, List.length_append, array_length hd, List.length_nil]
    · rw [List.length_append, zeros_length]; rfl
  obtain ⟨r, hm, hr⟩ := hm
  have hA := array_length hd
  have tail : ∀ i, 168 ≤ i → oct m i = oct ([f0, f1, f2, f3, a0, a1, trx, ts, blk] ++ r) (i - 168) := by
    intro i hi
    rw [hm, oct_app 6 rfl (by omega), oct_app 162 hA (by omega)]
    congr 1
  refine ⟨?_, ?_, ?_, ?_, ?_, ?_, ?_, ?_, ?_, ?_, ?_⟩
  · rw [hm]; simp only [List.length_append, hA, hr, List.length_cons, List.length_nil]
  · rw [hm]; rfl
  · rw [hm]; rfl
  · rw [hm]; rfl
  · rw [hm]; rfl
  · rw [tail 174 (by omega)]; rfl
  · rw [tail 175 (by omega)]; rfl
  · unfold le2; rw [tail 172 (by omega), tail 173 (by omega)]; exact e4
  · unfold le4 le2
    rw [tail 168 (by omega), tail 169 (by omega), tail 170 (by omega), tail 171 (by omega)]
    exact e2
  · rw [tail 176 (by omega)]; rfl
  · refine ⟨zeros (162 - data.length), ?_, _, hm⟩
    rw [List.length_append, zeros, List.length_replicate]; omega

/-- **C75, messages**: what the PCU makes to tell something is read as this by the BTS. -/
theorem C75_read (x : ToBts) (h : x.Valid) (m : List Nat) (hm : Makes x m) : read m = some x := by
  have data : ∀ {nr trx ts sapi arfcn fn blk o m}, dataReq nr trx ts sapi arfcn fn blk o = some m → nr < 256 → trx < 256 → ts < 256 →
      arfcn < 65536 → fn < 2 ^ 32 → blk < 256 → o.length ≤ 162 →
      (sapi = 5 → read m = some (.block nr trx ts arfcn fn blk o)) ∧ (sapi = 7 → read m = some (.ptcch nr trx ts arfcn fn blk o)) := by
    intro nr trx ts sapi arfcn fn blk o m hd h1 h2 h3 h4 h5 h6 h7
    obtain ⟨k1, k2, k3, k4, k5, k6, k7, k8, k9, k10, z, -, r, k11⟩ := dataReq_octets hd h7 h1 h2 h3 h4 h5 h6
    have hp : part m 6 o.length = o := by rw [k11, List.append_assoc]; exact part_app rfl rfl
    constructor <;> intro hs <;> subst hs <;> unfold read <;> simp [k1, k2, k3, k4, k5, k6, k7, k8, k9, k10, hp] <;> omega
  have sub : ∀ {m d z r : List Nat} {nr sapi : Nat}, m = [0, nr, 0, 0, sapi, d.length] ++ ((d ++ z) ++ r) →
      (∀ i, i < d.length → oct m (i + 6) = oct d i) := by
    intro m d z r nr sapi h i hi
    rw [h, oct_app 6 rfl (by omega), Nat.add_sub_cancel, List.append_assoc, oct_left hi]
  have pch : ∀ {nr imsi id c p b m}, nr < 256 → id < 2 ^ 32 → imsi.length ≤ 15 → Text imsi → p < 64 → b.length = 22 →
      txPch nr p c (some imsi) id b = some m → read m = some (.pch nr imsi id c ((4 * p + 1) :: b)) := by
    intro nr imsi id c p b m h1 h2 hi ht h3 h4 hd
    unfold txPch at hd
    rw [if_pos (by omega), Nat.mod_eq_of_lt (by omega)] at hd
    have ha : array 23 ((4 * p + 1) :: b) = (4 * p + 1) :: b := by
      unfold array; rw [List.length_cons, h4]; exact List.append_nil _
    rw [ha, show (some imsi).getD [] = imsi from rfl, List.take_of_length_le (show imsi.length ≤ imsiBuf - 1 by unfold imsiBuf; omega)] at hd
    have hI : (array imsiBuf imsi).length = 17 := array_length (show imsi.length ≤ 17 by omega)
    have hT : (array imsiBuf imsi).takeWhile (· ≠ 0) = imsi := text_array ht (show imsi.length < 17 by omega)
    revert hI hT hd
    generalize array imsiBuf imsi = I
    intro hd hI hT
    obtain ⟨i0, i1, i2, i3, e1, e2⟩ := low4 h2
    rw [e1] at hd
    have hlen : ([i0, i1, i2, i3] ++ (I ++ ((4 * p + 1) :: b ++ [if c then 1 else 0]))).length = 45 := by
      simp only [List.length_append, List.length_cons, List.length_nil, hI, h4]
    obtain ⟨k1, k2, k3, k4, k5, -, -, -, -, -, z, -, r, k11⟩ := dataReq_octets hd (by omega) h1 (by omega) (by omega) (by omega) (by omega) (by omega)
    have so := sub k11
    rw [hlen] at so k5
    have hp : part m 27 23 = (4 * p + 1) :: b := by
      rw [k11, show ∀ x : List Nat, [0, nr, 0, 0, 8, x.length] ++ (([i0, i1, i2, i3] ++ (I ++ ((4 * p + 1) :: b ++ [if c then 1 else 0]))) ++ z ++ r) =
        ([0, nr, 0, 0, 8, x.length, i0, i1, i2, i3] ++ I) ++ (((4 * p + 1) :: b) ++ ([if c then 1 else 0] ++ z ++ r)) by
          intro x; simp only [List.append_assoc, List.cons_append, List.nil_append]]
      exact part_app (by rw [List.length_append, hI]; rfl) (by rw [List.length_cons, h4])
    have hq : part m 10 17 = I := by
      rw [k11, show ∀ x : List Nat, [0, nr, 0, 0, 8, x.length] ++ (([i0, i1, i2, i3] ++ (I ++ ((4 * p + 1) :: b ++ [if c then 1 else 0]))) ++ z ++ r) =
        [0, nr, 0, 0, 8, x.length, i0, i1, i2, i3] ++ (I ++ (((4 * p + 1) :: b) ++ ([if c then 1 else 0] ++ z ++ r))) by
          intro x; simp only [List.append_assoc, List.cons_append, List.nil_append]]
      exact part_app rfl hI
    have ht' : text m 10 17 = imsi := by unfold text; rw [hq]; exact hT
    have hc : oct m 50 = if c then 1 else 0 := by
      rw [so 44 (by omega), oct_app 4 rfl (by omega), oct_app 17 hI (by omega), oct_app 23 (by rw [List.length_cons, h4]) (by omega)]
      rfl
    have hid : le4 m 6 = id := by
      unfold le4 le2
      rw [so 0 (by omega), so 1 (by omega), so 2 (by omega), so 3 (by omega)]
      exact e2
    unfold read
    cases c <;> simp [k1, k2, k3, k4, k5, hp, hc, hid, ht']
  cases hm with
  | version t =>
    obtain ⟨h1, h2⟩ := h
    have hA := array_length (show t.length ≤ 128 by omega)
    have hm : txtInd t = [0x70, 0, 0, 0, 0] ++ (array 128 t ++ zeros (1003 - 129)) := by
      unfold txtInd
      rw [List.take_of_length_le h1, prim_eq (k := 129) (by omega) (by rw [List.length_cons, hA])]
      rfl
    have hlen : (txtInd t).length = 1007 := by
      rw [hm]; simp only [List.length_append, hA, zeros_length, List.length_cons, List.length_nil]
    have ht : text (txtInd t) 5 128 = t := by
      unfold text
      rw [hm, part_app (i := 5) rfl hA]
      exact text_array h2 (by omega)
    have o0 : oct (txtInd t) 0 = 0x70 := by rw [hm]; rfl
    have o4 : oct (txtInd t) 4 = 0 := by rw [hm]; rfl
    unfold read
    simp [hlen, ht, o0, o4]
  | channel nr trx ts on =>
    obtain ⟨h1, h2, h3⟩ := h
    have hm : actReq nr trx ts on = [0x40, nr, 0, 0, if on then 1 else 0, trx, ts] ++ zeros 1000 := by
      unfold actReq
      rw [Nat.mod_eq_of_lt h2, Nat.mod_eq_of_lt h3, prim_eq (k := 4) h1 rfl, show zeros 1000 = 0 :: zeros 999 from List.replicate_succ]
      rfl
    have hlen : (actReq nr trx ts on).length = 1007 := by rw [hm, List.length_append, zeros_length]; rfl
    have o0 : oct (actReq nr trx ts on) 0 = 0x40 := by rw [hm]; rfl
    have o1 : oct (actReq nr trx ts on) 1 = nr := by rw [hm]; rfl
    have o4 : oct (actReq nr trx ts on) 4 = if on then 1 else 0 := by rw [hm]; rfl
    have o5 : oct (actReq nr trx ts on) 5 = trx := by rw [hm]; rfl
    have o6 : oct (actReq nr trx ts on) 6 = ts := by rw [hm]; rfl
    unfold read
    cases on <;> simp [hlen, o0, o1, o4, o5, o6]
  | block nr trx ts arfcn fn blk o m hd =>
    obtain ⟨h1, h2, h3, h4, h5, h6, h7⟩ := h
    exact (data hd h1 h2 h3 h4 h5 h6 h7).1 rfl
  | idle nr trx ts arfcn fn blk m hd =>
    obtain ⟨h1, h2, h3, h4, h5, h6, h7⟩ := h
    exact (data (o := []) hd h1 h2 h3 h4 h5 h6 h7).1 rfl
  | ptcch nr trx ts arfcn fn blk o m hd =>
    obtain ⟨h1, h2, h3, h4, h5, h6, h7⟩ := h
    exact (data hd h1 h2 h3 h4 h5 h6 h7).2 rfl
  | agch nr id c p b m hd =>
    obtain ⟨h1, h2, p', b', hpb, h3, h4⟩ := h
    injection hpb with hp hb
    obtain rfl : b = b' := hb
    obtain rfl : p = p' := by omega
    unfold txAgch at hd
    rw [if_pos (by omega), Nat.mod_eq_of_lt (by omega)] at hd
    have ha : array 23 ((4 * p + 1) :: b) = (4 * p + 1) :: b := by
      unfold array; rw [List.length_cons, h4]; exact List.append_nil _
    rw [ha] at hd
    obtain ⟨i0, i1, i2, i3, e1, e2⟩ := low4 h2
    rw [e1] at hd
    have hlen : ([i0, i1, i2, i3] ++ ((4 * p + 1) :: b ++ [if c then 1 else 0])).length = 28 := by simp [h4]
    obtain ⟨k1, k2, k3, k4, k5, -, -, -, -, -, z, -, r, k11⟩ := dataReq_octets hd (by omega) h1 (by omega) (by omega) (by omega) (by omega) (by omega)
    have so := sub k11
    rw [hlen] at so k5
    have hp : part m 10 23 = (4 * p + 1) :: b := by
      rw [k11, show ∀ x : List Nat, [0, nr, 0, 0, 9, x.length] ++ (([i0, i1, i2, i3] ++ ((4 * p + 1) :: b ++ [if c then 1 else 0])) ++ z ++ r) =
        [0, nr, 0, 0, 9, x.length, i0, i1, i2, i3] ++ (((4 * p + 1) :: b) ++ ([if c then 1 else 0] ++ z ++ r)) by
          intro x; simp only [List.append_assoc, List.cons_append, List.nil_append]]
      exact part_app rfl (by rw [List.length_cons, h4])
    have hc : oct m 33 = if c then 1 else 0 := by
      rw [so 27 (by omega), oct_app 4 rfl (by omega), oct_app 23 (by rw [List.length_cons, h4]) (by omega)]
      rfl
    have hid : le4 m 6 = id := by
      unfold le4 le2
      rw [so 0 (by omega), so 1 (by omega), so 2 (by omega), so 3 (by omega)]
      exact e2
    unfold read
    cases c <;> simp [k1, k2, k3, k4, k5, hp, hc, hid]
  | pch nr imsi id c p b m hd =>
    obtain ⟨h1, h2, hi, ht, p', b', hpb, h3, h4⟩ := h
    injection hpb with hp hb
    obtain rfl : b = b' := hb
    obtain rfl : p = p' := by omega
    exact pch h1 h2 hi ht h3 h4 hd
  | pchAny nr id c p b m hd =>
    obtain ⟨h1, h2, hi, ht, p', b', hpb, h3, h4⟩ := h
    injection hpb with hp hb
    obtain rfl : b = b' := hb
    obtain rfl : p = p' := by omega
    exact pch h1 h2 hi ht h3 h4 hd
  | neighbour nr k =>
    obtain ⟨h1, h2, h3, h4, h5⟩ := h
    have hm : neighReq nr k = [0x80, nr, 0, 0, 0x81, 0, 0, 7, k.lac / 256, k.lac % 256, k.ci / 256, k.ci % 256, k.arfcn / 256, k.arfcn % 256, k.bsic] := by
      unfold neighReq high16
      rw [Nat.mod_eq_of_lt h1, Nat.mod_eq_of_lt h5, Nat.mod_eq_of_lt (show k.lac / 256 < 256 by omega), Nat.mod_eq_of_lt (show k.ci / 256 < 256 by omega),
        Nat.mod_eq_of_lt (show k.arfcn / 256 < 256 by omega)]
      rfl
    rw [hm]
    have e1 : 256 * (k.lac / 256) + k.lac % 256 = k.lac := by omega
    have e2 : 256 * (k.ci / 256) + k.ci % 256 = k.ci := by omega
    have e3 : 256 * (k.arfcn / 256) + k.arfcn % 256 = k.arfcn := by omega
    unfold read
    dsimp only
    rw [if_pos (show oct _ 0 = 0x80 from rfl), if_pos ⟨Nat.le_refl 15, rfl, rfl⟩]
    show some (ToBts.neighbour nr ⟨256 * (k.lac / 256) + k.lac % 256, 256 * (k.ci / 256) + k.ci % 256, 256 * (k.arfcn / 256) + k.arfcn % 256, k.bsic⟩) = _
    rw [e1, e2, e3]

/-- **C75, no message outside of its memory**: a message can be made for all valid values (a `Makes` never asks for more octets than the array has). -/
theorem C75_made (x : ToBts) (h : x.Valid) : ∃ m, Makes x m := by
  have len : ∀ {l : List Nat} {nr trx ts sapi arfcn fn blk : Nat}, l.length ≤ 162 → ∃ m, dataReq nr trx ts sapi arfcn fn blk l = some m := by
    intro l nr trx ts sapi arfcn fn blk hl
    unfold dataReq
    exact ⟨_, if_pos (by omega)⟩
  have a23 : ∀ {n : Nat} {b : List Nat}, b.length = 22 → (array 23 (n :: b)).length = 23 := fun hb => array_length (by rw [List.length_cons, hb]; omega)
  cases x with
  | version t => exact ⟨_, .version t⟩
  | channel nr trx ts on => exact ⟨_, .channel nr trx ts on⟩
  | block nr trx ts arfcn fn blk o =>
    obtain ⟨h1, h2, h3, h4, h5, h6, h7⟩ := h
    obtain ⟨m, hm⟩ := len h7
    exact ⟨m, .block _ _ _ _ _ _ _ _ hm⟩
  | ptcch nr trx ts arfcn fn blk o =>
    obtain ⟨h1, h2, h3, h4, h5, h6, h7⟩ := h
    obtain ⟨m, hm⟩ := len h7
    exact ⟨m, .ptcch _ _ _ _ _ _ _ _ hm⟩
  | agch nr id c mac =>
    obtain ⟨h1, h2, p, b, rfl, h3, h4⟩ := h
    obtain ⟨m, hm⟩ := len (l := low 4 id ++ (array 23 ((4 * p + 1) % 256 :: b) ++ [if c then 1 else 0])) (nr := nr) (trx := 0) (ts := 0) (sapi := 9)
      (arfcn := 0) (fn := 0) (blk := 0) (by simp only [List.length_append, a23 h4, low, List.length_cons, List.length_nil]; omega)
    exact ⟨m, .agch _ _ _ _ _ _ (by unfold txAgch; rw [if_pos (by omega)]; exact hm)⟩
  | pch nr imsi id c mac =>
    obtain ⟨h1, h2, hi, ht, p, b, rfl, h3, h4⟩ := h
    have hI : (array imsiBuf (((some imsi).getD []).take (imsiBuf - 1))).length = 17 :=
      array_length (show (imsi.take 16).length ≤ 17 by rw [List.length_take]; omega)
    obtain ⟨m, hm⟩ := len (l := low 4 id ++ (array imsiBuf (((some imsi).getD []).take (imsiBuf - 1)) ++ (array 23 ((4 * p + 1) % 256 :: b) ++ [if c then 1 else 0])))
      (nr := nr) (trx := 0) (ts := 0) (sapi := 8)
      (arfcn := 0) (fn := 0) (blk := 0) (by simp only [List.length_append, a23 h4, hI, low, List.length_cons, List.length_nil]; omega)
    exact ⟨m, .pch _ _ _ _ _ _ _ (by unfold txPch; rw [if_pos (by omega)]; exact hm)⟩
  | neighbour nr k => exact ⟨_, .neighbour nr k⟩

/-! ### The socket -/

/-- Messages with octets. -/
def full (l : List (List Nat)) : List (List Nat) := l.filter (· ≠ [])

theorem full_app (a b : List (List Nat)) : full (a ++ b) = full a ++ full b := List.filter_append ..

theorem full_cons {m : List Nat} (q : List (List Nat)) (h : m ≠ []) : full (m :: q) = m :: full q := List.filter_cons_of_pos (by simpa using h)

theorem full_nil (q : List (List Nat)) : full ([] :: q) = full q := List.filter_cons_of_neg (by simp)

/-- The messages given to the socket in one step after the connection was made. -/
def given : Op → List (List Nat)
  | .send m => [m]
  | .ready (.got ms _) _ => ms
  | _ => []

def opens : Op → Bool
  | .tryOpen true => true
  | _ => false

theorem writeLoop_spec (q : List (List Nat)) : ∀ (r : Nat → W) (s : Sock), s.conn = .connected →
    let x := writeLoop r s q
    (x.1.conn = .connected ∧ x.2 ++ full x.1.queue = full q ∧ (x.1.queue ≠ [] → x.1.want = true)) ∨ (x.1.conn = .ended ∧ x.2 <+: full q) := by
  induction q with
  | nil => intro r s hc; exact .inl ⟨hc, rfl, fun h => absurd rfl h⟩
  | cons m q ih =>
    intro r s hc
    dsimp only
    unfold writeLoop
    by_cases hm : m = []
    · rw [if_pos hm]
      have := ih r { s with want := false } hc
      subst hm
      rw [full_nil]
      exact this
    · rw [if_neg hm]
      cases hr : r 0 with
      | all =>
        dsimp only
        rw [full_cons q hm]
        rcases ih (fun i => r (i + 1)) { s with want := false } hc with ⟨h1, h2, h3⟩ | ⟨h1, h2⟩
        · exact .inl ⟨h1, by rw [List.cons_append, h2], h3⟩
        · exact .inr ⟨h1, (List.prefix_cons_inj m).2 h2⟩
      | again => exact .inl ⟨hc, rfl, fun _ => rfl⟩
      | fail => exact .inr ⟨rfl, List.nil_prefix⟩

theorem sends_spec (ms : List (List Nat)) : ∀ s : Sock, s.conn = .connected → (s.queue ≠ [] → s.want = true) →
    (ms.foldl send s).conn = .connected ∧ (ms.foldl send s).queue = s.queue ++ ms ∧ ((ms.foldl send s).queue ≠ [] → (ms.foldl send s).want = true) := by
  induction ms with
  | nil => intro s hc hw; exact ⟨hc, (List.append_nil _).symm, hw⟩
  | cons m ms ih =>
    intro s hc hw
    have he : send s m = { s with queue := s.queue ++ [m], want := true } := if_pos hc
    rw [List.foldl_cons, he]
    obtain ⟨h1, h2, h3⟩ := ih { s with queue := s.queue ++ [m], want := true } hc (fun _ => rfl)
    exact ⟨h1, by rw [h2]; exact List.append_assoc _ [m] ms, h3⟩

/-- What holds once there was a connection: `w` written, `h` handed over. -/
def Live (s : Sock) (w h : List (List Nat)) : Prop :=
  (s.conn = .connected ∧ w ++ full s.queue = full h ∧ (s.queue ≠ [] → s.want = true)) ∨
  (s.conn = .ended ∧ w <+: full h)

/-- What holds after every history. -/
def Good (s : Sock) (w h : List (List Nat)) : Prop := (s.conn = .waiting ∧ w = [] ∧ h = [] ∧ s.queue = []) ∨ Live s w h

theorem handed_snoc (f : List Nat) (ops : List Op) (op : Op) :
    handed f (ops ++ [op]) = if ops.any opens then handed f ops ++ given op else if opens op then [f] else [] := by
  induction ops with
  | nil =>
    cases op with
    | tryOpen ok => cases ok <;> rfl
    | _ => rfl
  | cons o ops ih =>
    have key : ∀ g : Bool, opens o = g → (List.any (o :: ops) opens) = (g || ops.any opens) := by
      intro g hg; rw [List.any_cons, hg]
    cases ho : opens o with
    | true =>
      have : o = .tryOpen true := by
        cases o with
        | tryOpen ok => cases ok with
          | true => rfl
          | false => cases ho
        | _ => cases ho
      subst this
      rw [key true rfl, Bool.true_or, if_pos rfl]
      show f :: List.flatMap given (ops ++ [op]) = (f :: List.flatMap given ops) ++ given op
      rw [List.flatMap_append, List.flatMap_singleton]
      rfl
    | false =>
      rw [key false ho, Bool.false_or]
      refine Eq.trans ?_ (ih.trans ?_)
      all_goals cases o with
      | tryOpen ok => cases ok with
        | true => cases ho
        | false => rfl
      | _ => rfl

theorem handed_none (f : List Nat) (ops : List Op) (h : ops.any opens = false) : handed f ops = [] := by
  induction ops with
  | nil => rfl
  | cons o ops ih =>
    rw [List.any_cons, Bool.or_eq_false_iff] at h
    have := ih h.2
    cases o with
    | tryOpen ok => cases ok with
      | true => cases h.1
      | false => exact this
    | _ => exact this

theorem callback_good {s : Sock} {w h : List (List Nat)} (hc : s.conn = .connected) (h1 : w ++ full s.queue = full h)
    (h2 : s.queue ≠ [] → s.want = true) (rd : R) (wr : Option (Nat → W)) :
    Live (callback s rd wr).1 (w ++ (callback s rd wr).2) (h ++ given (.ready rd wr)) := by
  have wpart : ∀ (s' : Sock) (h' : List (List Nat)), s'.conn = .connected → w ++ full s'.queue = full h' → (s'.queue ≠ [] → s'.want = true) →
      ∀ y : Sock × List (List Nat), (wr = none → y = (s', [])) → (∀ r, wr = some r → y = if s'.want then writeLoop r s' s'.queue else (s', [])) →
        Live y.1 (w ++ y.2) h' := by
    intro s' h' c1 c2 c3 y hy1 hy2
    cases wr with
    | none => rw [hy1 rfl]; exact .inl ( ⟨c1, by rw [List.append_nil]; exact c2, c3⟩)
    | some r =>
      have hy := hy2 r rfl
      by_cases hw : s'.want = true
      · rw [if_pos hw] at hy
        rw [hy]
        rcases writeLoop_spec s'.queue r s' c1 with ⟨e1, e2, e3⟩ | ⟨e1, e2⟩
        · exact .inl ( ⟨e1, by rw [List.append_assoc, e2, c2], e3⟩)
        · exact .inr ( ⟨e1, by rw [← c2]; exact (List.prefix_append_right_inj w).2 e2⟩)
      · rw [if_neg hw] at hy
        rw [hy]; exact .inl ( ⟨c1, by rw [List.append_nil]; exact c2, c3⟩)
  cases rd with
  | nothing =>
    show Live _ _ (h ++ [])
    rw [List.append_nil]
    exact wpart s h hc h1 h2 _ (fun h => by subst h; rfl) (fun r h => by subst h; rfl)
  | lost =>
    refine .inr ( ⟨rfl, ?_⟩)
    show w ++ [] <+: full (h ++ [])
    rw [List.append_nil, List.append_nil, ← h1]
    exact List.prefix_append _ _
  | got ms err =>
    obtain ⟨e1, e2, e3⟩ := sends_spec ms s hc h2
    have e4 : w ++ full (ms.foldl send s).queue = full (h ++ ms) := by rw [e2, full_app, full_app, ← List.append_assoc, h1]
    show Live _ _ (h ++ ms)
    unfold callback
    dsimp only
    cases err with
    | true =>
      rw [if_pos rfl]
      exact .inl ( ⟨e1, by rw [List.append_nil]; exact e4, e3⟩)
    | false =>
      rw [if_neg (by decide)]
      exact wpart _ _ e1 e4 e3 _ (fun h => by subst h; rfl) (fun r h => by subst h; rfl)

theorem run_snoc (v : List Nat) (ops : List Op) (op : Op) :
    run v (ops ++ [op]) = ((step v (run v ops).1 op).1, (run v ops).2 ++ (step v (run v ops).1 op).2) := by
  unfold run; rw [List.foldl_append]; rfl

theorem run_good (v : List Nat) (ops : List Op) :
    Good (run v ops).1 (run v ops).2 (handed (txtInd v) ops) ∧ ((run v ops).1.conn = .waiting ↔ ops.any opens = false) := by
  induction hn : ops.length generalizing ops with
  | zero =>
    cases ops with
    | nil => exact ⟨.inl ⟨rfl, rfl, rfl, rfl⟩, ⟨fun _ => rfl, fun _ => rfl⟩⟩
    | cons _ _ => cases hn
  | succ n ih =>
    obtain ⟨ops', op, rfl⟩ : ∃ l x, ops = l ++ [x] := by
      rcases List.eq_nil_or_concat ops with h | ⟨l, x, h⟩
      · subst h; cases hn
      · exact ⟨l, x, by rw [h, List.concat_eq_append]⟩
    have hl : ops'.length = n := by rw [List.length_append] at hn; exact Nat.succ.inj hn
    obtain ⟨hg, hwt⟩ := ih ops' hl
    rw [run_snoc, handed_snoc, List.any_append]
    generalize run v ops' = x at hg hwt ⊢
    obtain ⟨s, w⟩ := x
    dsimp only at hg hwt ⊢
    have hany : [op].any opens = opens op := by rw [List.any_cons, List.any_nil, Bool.or_false]
    rw [hany]
    rcases hg with ⟨g1, g2, g3, g4⟩ | ⟨g1, g2, g3⟩ | ⟨g1, g2⟩
    · have ho := hwt.1 g1
      rw [ho, if_neg (by decide), Bool.false_or]
      cases op with
      | tryOpen ok =>
        have : step v s (.tryOpen ok) = (openSock s ok v, []) := if_pos g1
        rw [this, g2]
        cases ok with
        | true =>
          refine ⟨.inr (.inl ⟨rfl, rfl, fun _ => rfl⟩), ?_⟩
          exact ⟨fun h => (by cases (show Conn.connected = Conn.waiting from h)), fun h => (by cases (show true = false from h))⟩
        | false => exact ⟨.inl ⟨rfl, rfl, rfl, rfl⟩, ⟨fun _ => rfl, fun _ => rfl⟩⟩
      | send m =>
        have : step v s (.send m) = (s, []) := by
          show (send s m, []) = _
          unfold send; rw [if_neg (by rw [g1]; decide)]
        rw [this, g2]
        exact ⟨.inl ⟨g1, rfl, rfl, g4⟩, ⟨fun _ => rfl, fun _ => g1⟩⟩
      | ready rd wr =>
        have : step v s (.ready rd wr) = (s, []) := if_neg (by rw [g1]; decide)
        rw [this, g2]
        exact ⟨.inl ⟨g1, rfl, rfl, g4⟩, ⟨fun _ => rfl, fun _ => g1⟩⟩
      | stop =>
        have : step v s .stop = (s, []) := if_neg (by rw [g1]; decide)
        rw [this, g2]
        exact ⟨.inl ⟨g1, rfl, rfl, g4⟩, ⟨fun _ => rfl, fun _ => g1⟩⟩
    · have ho : ops'.any opens = true := by
        cases h : ops'.any opens with
        | true => rfl
        | false => rw [hwt.2 h] at g1; cases g1
      rw [ho, if_pos rfl, Bool.true_or]
      have fin : ∀ {s' w' h'}, Live s' w' h' → Good s' w' h' ∧ (s'.conn = .waiting ↔ true = false) := by
        intro s' w' h' a
        refine ⟨.inr a, fun c => ?_, fun c => by cases c⟩
        rcases a with ⟨e, -⟩ | ⟨e, -⟩ <;> rw [e] at c <;> cases c
      cases op with
      | tryOpen ok =>
        have : step v s (.tryOpen ok) = (s, []) := if_neg (by rw [g1]; decide)
        rw [this]
        refine fin (.inl ⟨g1, ?_, g3⟩)
        show (w ++ []) ++ _ = full (_ ++ [])
        rw [List.append_nil, List.append_nil]; exact g2
      | send m =>
        have : step v s (.send m) = ({ s with queue := s.queue ++ [m], want := true }, []) := by
          show (send s m, []) = _
          unfold send; rw [if_pos g1]
        rw [this]
        refine fin (.inl ⟨g1, ?_, fun _ => rfl⟩)
        show (w ++ []) ++ full (s.queue ++ [m]) = full (_ ++ [m])
        rw [List.append_nil, full_app, full_app, ← List.append_assoc, g2]
      | ready rd wr =>
        have : step v s (.ready rd wr) = callback s rd wr := if_pos g1
        rw [this]
        exact fin (callback_good g1 g2 g3 rd wr)
      | stop =>
        have : step v s .stop = (close s, []) := if_pos g1
        rw [this]
        refine fin (.inr ⟨rfl, ?_⟩)
        show w ++ [] <+: full (_ ++ [])
        rw [List.append_nil, List.append_nil, ← g2]
        exact List.prefix_append _ _
    · have ho : ops'.any opens = true := by
        cases h : ops'.any opens with
        | true => rfl
        | false => rw [hwt.2 h] at g1; cases g1
      rw [ho, if_pos rfl, Bool.true_or]
      have : step v s op = (s, []) := by
        cases op with
        | tryOpen ok => exact if_neg (by rw [g1]; decide)
        | send m =>
          show (send s m, []) = _
          unfold send; rw [if_neg (by rw [g1]; decide)]
        | ready rd wr => exact if_neg (by rw [g1]; decide)
        | stop => exact if_neg (by rw [g1]; decide)
      rw [this]
      refine ⟨.inr (.inr ⟨g1, ?_⟩), ⟨fun c => (by rw [g1] at c; cases c), fun c => (by cases c)⟩⟩
      rw [List.append_nil, full_app]
      exact g2.trans (List.prefix_append _ _)

/-- **C75, order**: after every history the BTS was sent a beginning of what was handed over since the connection was made, the version first, in this
order, each message once; while connected, the rest waits in the queue, and the PCU waits for the socket to become writable. -/
theorem C75_order (v : List Nat) (ops : List Op) :
    (run v ops).2 <+: full (handed (txtInd v) ops) ∧
    ((run v ops).1.conn = .connected →
      (run v ops).2 ++ full (run v ops).1.queue = full (handed (txtInd v) ops) ∧ ((run v ops).1.queue ≠ [] → (run v ops).1.want = true)) := by
  rcases (run_good v ops).1 with ⟨h1, h2, -, -⟩ | ⟨h1, h2, h3⟩ | ⟨h1, h2⟩
  · exact ⟨by rw [h2]; exact List.nil_prefix, fun h => by rw [h1] at h; cases h⟩
  · exact ⟨by rw [← h2]; exact List.prefix_append _ _, fun _ => ⟨h2, h3⟩⟩
  · exact ⟨h2, fun h => by rw [h1] at h; cases h⟩

theorem writeLoop_all (q : List (List Nat)) : ∀ (r : Nat → W) (s : Sock), (∀ i, r i = .all) → (writeLoop r s q).2 = full q := by
  induction q with
  | nil => intro _ _ _; rfl
  | cons m q ih =>
    intro r s hr
    unfold writeLoop
    by_cases hm : m = []
    · rw [if_pos hm, ih _ _ hr]; subst hm; rw [full_nil]
    · rw [if_neg hm, hr 0]
      dsimp only
      rw [ih _ _ (fun i => hr (i + 1)), full_cons q hm]

/-- **C75, nothing stays behind**: when the connected socket becomes writable and takes what it is given, the BTS has been sent everything that was handed
over, also what the PCU wanted to say about a message that arrived just now. -/
theorem C75_flush (v : List Nat) (ops : List Op) (hc : (run v ops).1.conn = .connected) (rd : R) (hr : rd = .nothing ∨ ∃ ms, rd = .got ms false)
    (r : Nat → W) (ha : ∀ i, r i = .all) :
    (run v (ops ++ [.ready rd (some r)])).2 = full (handed (txtInd v) (ops ++ [.ready rd (some r)])) := by
  obtain ⟨h1, h2⟩ := (C75_order v ops).2 hc
  have ho : ops.any opens = true := by
    cases h : ops.any opens with
    | true => rfl
    | false => have := (run_good v ops).2.2 h; rw [hc] at this; cases this
  rw [run_snoc, handed_snoc, if_pos ho]
  have hs : step v (run v ops).1 (.ready rd (some r)) = callback (run v ops).1 rd (some r) := if_pos hc
  rw [hs]
  dsimp only
  have go : ∀ s' : Sock, (s'.queue ≠ [] → s'.want = true) → (if s'.want then writeLoop r s' s'.queue else (s', [])).2 = full s'.queue := by
    intro s' hw
    by_cases h : s'.want = true
    · rw [if_pos h]; exact writeLoop_all _ _ _ ha
    · rw [if_neg h]
      have : s'.queue = [] := Classical.byContradiction fun h' => h (hw h')
      rw [this]; rfl
  rcases hr with rfl | ⟨ms, rfl⟩
  · show _ ++ (if (run v ops).1.want then writeLoop r (run v ops).1 (run v ops).1.queue else ((run v ops).1, [])).2 = full (_ ++ [])
    rw [go _ h2, List.append_nil, h1]
  · obtain ⟨e1, e2, e3⟩ := sends_spec ms _ hc h2
    show _ ++ (if (ms.foldl send (run v ops).1).want then writeLoop r (ms.foldl send (run v ops).1) (ms.foldl send (run v ops).1).queue
      else ((ms.foldl send (run v ops).1), [])).2 = full (_ ++ ms)
    rw [go _ e3, e2, full_app, full_app, ← List.append_assoc, h1]

/-- What ends a connection. -/
def cuts : Op → Prop
  | .stop => True
  | .ready .lost _ => True
  | .ready _ (some r) => ∃ i, r i = .fail
  | _ => False

theorem writeLoop_ended (q : List (List Nat)) : ∀ (r : Nat → W) (s : Sock), s.conn = .connected → (writeLoop r s q).1.conn = .ended → ∃ i, r i = .fail := by
  induction q with
  | nil => intro r s hc h; rw [show (writeLoop r s []).1.conn = s.conn from rfl, hc] at h; cases h
  | cons m q ih =>
    intro r s hc h
    unfold writeLoop at h
    by_cases hm : m = []
    · rw [if_pos hm] at h; exact ih r { s with want := false } hc h
    · rw [if_neg hm] at h
      cases hr : r 0 with
      | all =>
        rw [hr] at h
        obtain ⟨i, hi⟩ := ih (fun i => r (i + 1)) { s with want := false } hc h
        exact ⟨i + 1, hi⟩
      | again =>
        rw [hr] at h
        rw [show ({ s with queue := m :: q, want := true } : Sock).conn = s.conn from rfl, hc] at h; cases h
      | fail => exact ⟨0, hr⟩

/-- **C75, the PCU stays**: the connection only ends (and with it the PCU) when it is told to stop, the BTS closes the connection or an error of the socket is
reported; and it is made as soon as an attempt succeeds. -/
theorem C75_stays (v : List Nat) (ops : List Op) (ho : ops.any opens = true) (hn : ∀ op ∈ ops, ¬ cuts op) : (run v ops).1.conn = .connected := by
  have main : (run v ops).1.conn ≠ .ended := by
    clear ho
    induction hl : ops.length generalizing ops with
    | zero =>
      cases ops with
      | nil => intro h; cases (show Conn.waiting = Conn.ended from h)
      | cons _ _ => cases hl
    | succ n ih =>
      obtain ⟨ops', op, rfl⟩ : ∃ l x, ops = l ++ [x] := by
        rcases List.eq_nil_or_concat ops with h | ⟨l, x, h⟩
        · subst h; cases hl
        · exact ⟨l, x, by rw [h, List.concat_eq_append]⟩
      have h0 := ih ops' (fun o h => hn o (List.mem_append_left _ h)) (by rw [List.length_append] at hl; exact Nat.succ.inj hl)
      have hop := hn op (List.mem_append_right _ List.mem_cons_self)
      have h2 := (C75_order v ops').2
      rw [run_snoc]
      generalize run v ops' = x at h0 h2
      obtain ⟨s, w⟩ := x
      dsimp only at h0 h2 ⊢
      intro h
      cases op with
      | tryOpen ok =>
        change (if s.conn = .waiting then (openSock s ok v, []) else (s, [])).1.conn = .ended at h
        by_cases hc : s.conn = .waiting
        · rw [if_pos hc] at h
          cases ok with
          | true => cases (show Conn.connected = Conn.ended from h)
          | false => cases (show Conn.waiting = Conn.ended from h)
        · rw [if_neg hc] at h; exact h0 h
      | send m =>
        change (send s m).conn = .ended at h
        unfold send at h
        by_cases hc : s.conn = .connected
        · rw [if_pos hc] at h; exact h0 h
        · rw [if_neg hc] at h; exact h0 h
      | stop => exact hop trivial
      | ready rd wr =>
        change (if s.conn = .connected then callback s rd wr else (s, [])).1.conn = .ended at h
        by_cases hc : s.conn = .connected
        · rw [if_pos hc] at h
          have wp : ∀ s' : Sock, s'.conn = .connected →
              (match wr with | some r => if s'.want then writeLoop r s' s'.queue else (s', []) | none => (s', [])).1.conn = .ended →
              ∃ r, wr = some r ∧ ∃ i, r i = .fail := by
            intro s' hc' h'
            cases wr with
            | none => change s'.conn = _ at h'; rw [hc'] at h'; cases h'
            | some r =>
              dsimp only at h'
              by_cases hw : s'.want = true
              · rw [if_pos hw] at h'; exact ⟨r, rfl, writeLoop_ended _ _ _ hc' h'⟩
              · rw [if_neg hw] at h'; rw [hc'] at h'; cases h'
          cases rd with
          | lost => exact hop trivial
          | nothing =>
            obtain ⟨r, rfl, hr⟩ := wp s hc (by cases wr <;> exact h)
            exact hop hr
          | got ms err =>
            obtain ⟨e1, -, -⟩ := sends_spec ms s hc (h2 hc).2
            unfold callback at h
            dsimp only at h
            cases err with
            | true => rw [if_pos rfl, e1] at h; cases h
            | false =>
              rw [if_neg (by decide)] at h
              obtain ⟨r, rfl, hr⟩ := wp _ e1 (by cases wr <;> exact h)
              exact hop hr
        · rw [if_neg hc] at h; exact h0 h
  cases h : (run v ops).1.conn with
  | connected => rfl
  | ended => exact absurd h main
  | waiting => have := (run_good v ops).2.1 h; rw [ho] at this; cases this

/-- **C75**: with `ps` the things that were to be told since the connection was made, and their messages, the BTS reads a beginning of this list; all of it
when there is nothing left in the queue. -/
theorem C75_told (v : List Nat) (ops : List Op) (ps : List (ToBts × List Nat)) (hv : ∀ p ∈ ps, p.1.Valid ∧ Makes p.1 p.2)
    (hh : handed (txtInd v) ops = ps.map (·.2)) :
    (run v ops).2.map read <+: ps.map (fun p => some p.1) ∧
    ((run v ops).1.conn = .connected → (run v ops).1.queue = [] → (run v ops).2.map read = ps.map (fun p => some p.1)) := by
  have hf : full (ps.map (·.2)) = ps.map (·.2) := by
    unfold full
    rw [List.filter_eq_self]
    intro m hm
    obtain ⟨p, hp, rfl⟩ := List.mem_map.1 hm
    have := C75_read p.1 (hv p hp).1 p.2 (hv p hp).2
    simp only [ne_eq, decide_not, Bool.not_eq_eq_eq_not, Bool.not_true, decide_eq_false_iff_not]
    intro h
    rw [h] at this
    cases this
  have hr : (ps.map (·.2)).map read = ps.map (fun p => some p.1) := by
    rw [List.map_map]
    exact List.map_congr_left fun p hp => C75_read p.1 (hv p hp).1 p.2 (hv p hp).2
  obtain ⟨h1, h2⟩ := C75_order v ops
  rw [hh, hf] at h1 h2
  refine ⟨by rw [← hr]; exact h1.map read, fun hc hq => ?_⟩
  have := (h2 hc).1
  rw [hq] at this
  rw [← hr, ← this]
  exact congrArg (List.map read) (List.append_nil _).symm

/-! ### A history -/

/-- A first attempt fails; a message before the connection is lost; then the PCU asks for a channel, the socket is full, and a block follows. -/
def exOps : List Op :=
  [.tryOpen false, .send (actReq 0 0 5 true), .tryOpen true, .ready (.got [actReq 0 0 6 true] false) (some fun i => if i = 0 then .all else .again),
   .send ((txPdtch 0 0 6 871 2715647 11 (some [7, 8, 9])).getD []), .ready .nothing (some fun _ => .all)]

set_option maxRecDepth 20000 in
example : (run [49, 46, 50] exOps).1.conn = .connected ∧ (run [49, 46, 50] exOps).1.queue = [] ∧
    (run [49, 46, 50] exOps).2.map read = [some (.version [49, 46, 50]), some (.channel 0 0 6 true), some (.block 0 0 6 871 2715647 11 [7, 8, 9])] := by
  decide +kernel

set_option maxRecDepth 20000 in
/-- The hypotheses of `C75_told` are met by this history. -/
example : ∃ ps : List (ToBts × List Nat), ps.length = 3 ∧ (∀ p ∈ ps, p.1.Valid ∧ Makes p.1 p.2) ∧ handed (txtInd [49, 46, 50]) exOps = ps.map (·.2) := by
  refine ⟨[(.version [49, 46, 50], txtInd [49, 46, 50]), (.channel 0 0 6 true, actReq 0 0 6 true),
    (.block 0 0 6 871 2715647 11 [7, 8, 9], (txPdtch 0 0 6 871 2715647 11 (some [7, 8, 9])).getD [])], rfl, ?_, rfl⟩
  intro p hp
  simp only [List.mem_cons, List.not_mem_nil, or_false] at hp
  rcases hp with rfl | rfl | rfl
  · exact ⟨⟨by decide, by unfold Text; decide⟩, .version _⟩
  · exact ⟨⟨by decide, by decide, by decide⟩, .channel ..⟩
  · exact ⟨⟨by decide, by decide, by decide, by decide, by decide, by decide, by decide⟩, .block _ _ _ _ _ _ _ _ rfl⟩

/-- A paging message. -/
example : ∃ m, txPch 1 22 false (some [57, 48, 49]) 77 (List.replicate 22 43) = some m ∧
    read m = some (.pch 1 [57, 48, 49] 77 false (89 :: List.replicate 22 43)) := by
  have hv : ToBts.Valid (.pch 1 [57, 48, 49] 77 false ((4 * 22 + 1) :: List.replicate 22 43)) :=
    ⟨by decide, by decide, by decide, by unfold Text; decide, 22, _, rfl, by decide, by decide⟩
  exact ⟨_, rfl, C75_read _ hv _ (.pch _ _ _ _ _ _ _ rfl)⟩

end Verif.PcuTx
