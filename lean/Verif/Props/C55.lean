import Verif.Props.C54
/-!
# C55: Packet Application Information
-/

namespace Verif.Ia

open Verif.Bits

theorem rd_put {w v : Nat} (h : v < 2 ^ w) (p : Nat) (r : List Bool) : rd w (p, put w v ++ r) = some (v, (p + w, r)) := by
  unfold rd
  dsimp only
  rw [get_put' h]
  rfl

theorem octets_put : ∀ {l : List Nat}, (∀ o ∈ l, o < 256) → ∀ (p : Nat) (r : List Bool),
    octets l.length (p, putOctets l ++ r) = some (l, (p + 8 * l.length, r))
  | [], _, p, r => rfl
  | a :: l, h, p, r => by
    have ih := octets_put (l := l) (fun o ho => h o (List.mem_cons_of_mem _ ho)) (p + 8) r
    have ha : a < 2 ^ 8 := h a (List.mem_cons_self ..)
    unfold putOctets at *
    rw [List.length_cons, List.flatMap_cons, List.append_assoc]
    unfold octets
    rw [bind_run]
    unfold rd
    dsimp only
    rw [get_put' ha]
    dsimp only [Option.map_some]
    rw [bind_run, ih]
    dsimp only
    rw [pure_run, show p + 8 + 8 * l.length = p + 8 * (l.length + 1) by omega]

/-- The message that is kept for the mobiles has the type and all octets of the request, in their order, with normal paging;
only a request without data gives no message. -/
theorem C55_content_partial (ty : Nat) (data : List Nat) (junk : Bool × Bool) (ht : ty < 16) (hd : ∀ o ∈ data, o < 256) :
    (data = [] → appInfoMsg ty data junk = none) ∧
    (data ≠ [] → ∃ m, appInfoMsg ty data junk = some m ∧ m.length = 8 * (data.length + 1) ∧
      (appInfo data.length (0, m)).map (·.1) = some (0, ty, data)) := by
  unfold appInfoMsg
  constructor
  · intro h
    rw [if_pos h]
  · intro h
    rw [if_neg h]
    refine ⟨_, rfl, ?_, ?_⟩
    · simp only [List.length_append, length_put, length_putOctets, List.length_cons, List.length_nil]
      omega
    · have ht' : ty < 2 ^ 4 := ht
      unfold appInfo
      rw [bind_run, rd_put (show 0 < 2 ^ 2 by decide)]
      dsimp only
      rw [bind_run, rd_put ht']
      dsimp only
      rw [bind_run, octets_put hd]
      rfl

/-- What is sent has no MAC header: whatever is asked for, a mobile takes the block for an RLC data block (payload type 0),
not for a control block. -/
theorem C55_no_header (ty : Nat) (data : List Nat) (junk : Bool × Bool) (usf : Nat) (m : List Bool)
    (h : appInfoMsg ty data junk = some m) :
    ∃ x, payloadType (0, setUsf usf m) = some (0, x) := by
  unfold appInfoMsg at h
  split at h
  · cases h
  · cases h
    unfold setUsf
    have e : ∀ l : List Bool, (put 2 0 ++ l).take 5 = put 2 0 ++ l.take 3 := fun l => rfl
    rw [e, List.append_assoc]
    unfold payloadType rd
    dsimp only
    rw [get_put' (show 0 < 2 ^ 2 by decide)]
    exact ⟨_, rfl⟩

/-- And the USF is written over bits of the type and the data: the first two bits of the data cannot be read any more.
Two requests whose data differ in them give the same block. -/
theorem C55_usf_overwrites (ty : Nat) (data : List Nat) (junk : Bool × Bool) (usf o : Nat) (ho : o < 192) :
    (appInfoMsg ty (o :: data) junk).map (setUsf usf) = (appInfoMsg ty ((o + 64) :: data) junk).map (setUsf usf) := by
  have h6 : ∀ o, o < 192 → (put 8 o).drop 2 = (put 8 (o + 64)).drop 2 := by decide +kernel
  unfold appInfoMsg
  rw [if_neg (by simp), if_neg (by simp), Option.map_some, Option.map_some]
  congr 1
  unfold setUsf putOctets
  have e1 : ∀ a l, (put 2 0 ++ (put 4 ty ++ (List.flatMap (put 8) (a :: data) ++ l))).take 5 = put 2 0 ++ (put 4 ty).take 3 := fun a l => rfl
  have e2 : ∀ a l, (put 2 0 ++ (put 4 ty ++ (List.flatMap (put 8) (a :: data) ++ l))).drop 8 =
      (put 8 a).drop 2 ++ (List.flatMap (put 8) data ++ l) := fun a l => rfl
  rw [e1, e1, e2, e2, h6 o ho]

/-- ETWS primary notification: 56 octets. -/
example : ∃ m, appInfoMsg 0 (List.replicate 56 0xa5) (true, false) = some m ∧ m.length = 456 ∧
    (appInfo 56 (0, m)).map (·.1) = some (0, 0, List.replicate 56 0xa5) ∧
    (appInfo 56 (0, setUsf 7 m)).map (fun x => x.1.2.1) = some 1 := ⟨_, rfl, by decide +kernel, by decide +kernel, by decide +kernel⟩

end Verif.Ia
