import Verif.Props.C50
/-!
# C51: Immediate Assignment Reject
-/

namespace Verif.Ia

open Verif.Bits

/-- Four request references. -/
theorem reads_refs {ra refRfn w : Nat} {b : Burst} (hr : refRfn < 42432) (hw : w < 256) :
    Reads (rejRefs 4) (rejRef ra refRfn w b ++ (rejRef ra refRfn w b ++ (rejRef ra refRfn w b ++ rejRef ra refRfn w b)))
      (List.replicate 4 ((if b.egprs then 0x7f else ra) % 256, refRfn, w)) := by
  have hw' : w < 2 ^ 8 := hw
  have step : ∀ {n : Nat} {s : List Sym} {l}, Reads (rejRefs n) s l →
      Reads (rejRefs (n + 1)) (rejRef ra refRfn w b ++ s) (((if b.egprs then 0x7f else ra) % 256, refRfn, w) :: l) := by
    intro n s l h
    unfold rejRef
    simp only [List.append_assoc]
    unfold rejRefs
    refine (reads_fld 8 _).bind ?_
    refine (reads_frame hr).bind ?_
    refine (reads_fld' hw').bind ?_
    exact h.ret (f := fun l => _ :: l)
  have h0 : Reads (rejRefs 0) [] [] := Reads.pure _
  have := step (step (step (step h0)))
  rwa [List.append_nil] at this

/-- The header of a reject. -/
def rejHeader (ra refRfn w : Nat) (b : Burst) : List Sym :=
  fld 4 0 ++ (fld 4 6 ++ (fld 8 0x3a ++ (fld 1 0 ++ (fld 1 0 ++ (fld 1 0 ++ (fld 1 1 ++ (fld 4 0 ++
      (rejRef ra refRfn w b ++ (rejRef ra refRfn w b ++ (rejRef ra refRfn w b ++ rejRef ra refRfn w b))))))))))

theorem length_rejHeader (ra refRfn w : Nat) (b : Burst) : (rejHeader ra refRfn w b).length = 152 := by
  unfold rejHeader rejRef startTime
  simp only [List.length_append, length_fld]

theorem reads_0001 : Reads (rd 4) (fld 1 0 ++ (fld 1 0 ++ (fld 1 0 ++ fld 1 1))) 1 := reads_fld 4 1

/-- Reading of a reject, given what is read from the rest octets. -/
theorem rejected_of {ra refRfn w : Nat} {b : Burst} {s : List Sym} {e : List (Option Nat)} {x : Nat × List Bool}
    (hr : refRfn < 42432) (hw : w < 256) (hs : extRas 4 (152, render 152 s) = some (e, x)) :
    rejected (render 0 (rejHeader ra refRfn w b ++ s)) =
      some (((List.replicate 4 ((if b.egprs then 0x7f else ra) % 256, refRfn, w)).zip e).map fun x =>
        ⟨x.1.1, if x.1.1 = 0x7f then x.2 else none, x.1.2.1, x.1.2.2⟩) := by
  unfold rejected rejection rejHeader
  simp only [List.append_assoc]
  rw [bind_run, ← List.append_assoc (fld 4 0), reads_06]
  dsimp only
  rw [if_neg (by decide), bind_run, reads_fld' (show 0x3a < 2 ^ 8 by decide)]
  dsimp only
  rw [if_neg (by decide), bind_run, ← List.append_assoc (fld 1 0), ← List.append_assoc, ← List.append_assoc]
  rw [show fld 1 0 ++ fld 1 0 ++ fld 1 0 ++ fld 1 1 = fld 1 0 ++ (fld 1 0 ++ (fld 1 0 ++ fld 1 1)) from rfl, reads_0001]
  dsimp only
  rw [bind_run, reads_fld' (show 0 < 2 ^ 4 by decide)]
  dsimp only
  rw [if_neg (by decide), bind_run]
  have h := reads_refs (ra := ra) (b := b) hr hw
  have hl : (rejRef ra refRfn w b ++ (rejRef ra refRfn w b ++ (rejRef ra refRfn w b ++ rejRef ra refRfn w b))).length = 128 := by
    unfold rejRef startTime
    simp only [List.length_append, length_fld]
  have h2 := h 24 s
  rw [hl] at h2
  simp only [List.append_assoc] at h2
  simp only [List.length_append, length_fld, Nat.zero_add, Nat.reduceAdd]
  rw [h2]
  dsimp only
  rw [bind_run, hs]
  rfl

/-- What is read from the rest octets of a reject of an 8-bit request. -/
theorem ext8 : ∃ e x, extRas 4 (152, render 152 ((fld 1 0 ++ (fld 1 0 ++ (fld 1 0 ++ fld 1 0))) ++ List.replicate 20 .L)) = some (e, x) ∧ e.length = 4 :=
  ⟨_, _, rfl, rfl⟩

/-- What is read from the rest octets of a reject of an 11-bit request. -/
theorem ext11 : ∀ v, v < 32 → (extRas 4 (152, render 152 ((fld 1 1 ++ fld 5 v) ++ (fld 1 0 ++ (fld 1 0 ++ fld 1 0)) ++ List.replicate 15 .L))).map (·.1) =
    some [some v, some 2, none, none] := by decide +kernel

theorem reject_eq (ra refRfn w : Nat) (b : Burst) : reject ra refRfn w b =
    finish (rejHeader ra refRfn w b) ((if b.egprs then fld 1 1 ++ fld 5 (ra % 32) else fld 1 0) ++ (fld 1 0 ++ (fld 1 0 ++ fld 1 0))) := rfl

/-- A reject is always sent. -/
theorem C51_sent (ra refRfn w : Nat) (b : Burst) : ∃ m, reject ra refRfn w b = .msg 19 m ∧ m.length = 176 := by
  have : ∃ n m, reject ra refRfn w b = .msg n m := by
    rw [reject_eq, finish_fits]
    cases b.egprs <;>
    simp only [List.length_append, length_rejHeader, length_fld, if_true, if_false, Bool.false_eq_true] <;> omega
  obtain ⟨n, m, h⟩ := this
  refine ⟨m, ?_⟩
  have h' := h
  rw [reject_eq] at h'
  obtain ⟨a1, a2, -⟩ := finish_msg h'
  rw [length_rejHeader] at a1
  subst a1
  exact ⟨h, a2⟩

/-- **C51**, 8-bit request (`01111111` is not a request): the mobile understands that this request in this
frame is rejected, four times, with the configured waiting time; nobody else is addressed. -/
theorem C51_reject {ra refRfn w n : Nat} {b : Burst} {m : List Bool} (hr : refRfn < 42432) (hw : w < 256) (hra : ra < 256)
    (h7 : ra ≠ 0x7f) (hb : b.egprs = false) (h : reject ra refRfn w b = .msg n m) :
    rejected m = some (List.replicate 4 ⟨ra, none, refRfn, w⟩) := by
  rw [reject_eq] at h
  obtain ⟨-, -, t, a3, a4, -⟩ := finish_msg h
  obtain ⟨e, x, he, hl⟩ := ext8
  simp only [hb, Bool.false_eq_true, if_false, List.length_append, length_rejHeader, length_fld] at a3 a4
  rw [a3, a4, rejected_of hr hw he, hb, if_neg (by decide), Nat.mod_eq_of_lt hra]
  match e, hl with
  | [_, _, _, _], _ => simp [h7]

/-- **C51**, 11-bit request, first reference: the request that is rejected is named. -/
theorem C51_egprs_partial {ra refRfn w n : Nat} {b : Burst} {m : List Bool} (hr : refRfn < 42432) (hw : w < 256)
    (hb : b.egprs = true) (h : reject ra refRfn w b = .msg n m) :
    ∃ l, rejected m = some (⟨0x7f, some (ra % 32), refRfn, w⟩ :: l) ∧ l = [⟨0x7f, some 2, refRfn, w⟩, ⟨0x7f, none, refRfn, w⟩, ⟨0x7f, none, refRfn, w⟩] := by
  rw [reject_eq] at h
  obtain ⟨-, -, t, a3, a4, -⟩ := finish_msg h
  simp only [hb, if_true, List.length_append, length_rejHeader, length_fld] at a3 a4
  have he := ext11 (ra % 32) (Nat.mod_lt _ (by decide))
  rw [Option.map_eq_some_iff] at he
  obtain ⟨⟨e, x⟩, he, rfl⟩ := he
  rw [a3, a4, rejected_of hr hw he, hb, if_pos rfl]
  exact ⟨_, rfl, rfl⟩

/-- **C51**, false for 11-bit requests: the rest octets of a reject are written as bits 0 and 1 where `L`
and `H` are meant, so the reject also names the request with the last five bits `00010` in the same frame,
whatever request is rejected. -/
theorem C51_egprs_wrong {ra refRfn w n : Nat} {b : Burst} {m : List Bool} (hr : refRfn < 42432) (hw : w < 256)
    (hb : b.egprs = true) (h : reject ra refRfn w b = .msg n m) :
    ∃ l, rejected m = some l ∧ ⟨0x7f, some 2, refRfn, w⟩ ∈ l := by
  obtain ⟨l, e, rfl⟩ := C51_egprs_partial hr hw hb h
  exact ⟨_, e, by simp⟩

example : rejected (bitsOf (reject 0x79 4711 20 .access0)) = some (List.replicate 4 ⟨0x79, none, 4711, 20⟩) := by decide +kernel
example : rejected (bitsOf (reject 0x659 4711 20 .access1)) =
    some [⟨0x7f, some 25, 4711, 20⟩, ⟨0x7f, some 2, 4711, 20⟩, ⟨0x7f, none, 4711, 20⟩, ⟨0x7f, none, 4711, 20⟩] := by decide +kernel

end Verif.Ia
