import Verif.Spec.CodingScheme
/-!
# C13 — Coding scheme tables are mutually consistent
-/

namespace Verif.Cs

/-- The block size determines the scheme: the lookup by size is the exact inverse of the
size table, and every other size is reported as unknown. -/
theorem C13_size_identifies (n : Nat) (c : CS) (hc : c ≠ .unknown) :
    getBySizeUl n = c ↔ n = c.sizeUl := by
  constructor
  · intro h
    unfold getBySizeUl at h
    split at h <;> first | (subst h; rfl) | exact absurd h.symm hc
  · rintro rfl
    cases c <;> first | rfl | exact absurd rfl hc

/-- Two different schemes never have the same block size. -/
theorem C13_sizes_distinct (a b : CS) (ha : a ≠ .unknown) (hb : b ≠ .unknown)
    (h : a.sizeUl = b.sizeUl) : a = b :=
  ((C13_size_identifies a.sizeUl a ha).2 rfl).symm.trans ((C13_size_identifies a.sizeUl b hb).2 h)

/-- The kind predicate is membership in the named list of schemes. -/
theorem C13_kind (c : CS) (k : Kind) : c.compatKind k = true ↔ c ∈ schemesOf k := by
  cases c <;> cases k <;> decide

/-- Stepping up: from any scheme of a kind one gets to the next scheme of that kind, or
stays at the last one; a step carries strictly more payload. -/
theorem C13_step_up (c : CS) (k : Kind) (h : c ∈ schemesOf k) :
    c.incKind k ∈ schemesOf k ∧
    (c.incKind k = c ∧ (schemesOf k).getLast? = some c ∨
     payload c < payload (c.incKind k) ∧
      ∀ d ∈ schemesOf k, payload d ≤ payload c ∨ payload (c.incKind k) ≤ payload d) := by
  revert c k; decide +kernel

/-- Stepping down likewise. -/
theorem C13_step_down (c : CS) (k : Kind) (h : c ∈ schemesOf k) :
    c.decKind k ∈ schemesOf k ∧
    (c.decKind k = c ∧ (schemesOf k).head? = some c ∨
     payload (c.decKind k) < payload c ∧
      ∀ d ∈ schemesOf k, payload c ≤ payload d ∨ payload d ≤ payload (c.decKind k)) := by
  revert c k; decide +kernel

/-- A scheme of another kind is left alone. -/
theorem C13_step_foreign (c : CS) (k : Kind) (h : c ∉ schemesOf k) :
    c.incKind k = c ∧ c.decKind k = c := by
  revert c k; decide +kernel

/-- Stepping without a kind stays within GPRS respectively EGPRS. -/
theorem C13_step_plain (c : CS) (hc : c ≠ .unknown) :
    (c.isGprs = c.inc.isGprs ∧ c.isEdge = c.inc.isEdge ∧ payload c ≤ payload c.inc) ∧
    (c.isGprs = c.dec.isGprs ∧ c.isEdge = c.dec.isEdge ∧ payload c.dec ≤ payload c) := by
  revert c; decide +kernel

/-- The scheme chosen for a retransmission always exists, belongs to the same family and
carries exactly the payload of the first transmission, in one block or in two halves (with
the standard's padding); without resegmentation never in two. -/
theorem C13_retx_fits (i c : CS) (hi : i ∈ schemesOf .egprs) (hc : c ∈ schemesOf .egprs)
    (reseg : Bool) :
    ∃ r, getRetx i c reseg = some r ∧ r ∈ schemesOf .egprs ∧
      (info r).family = (info i).family ∧
      (fitsWhole i r = true ∨ reseg = true ∧ fitsSplit i r = true) := by
  have : ∀ i c : CS, i ∈ schemesOf .egprs → c ∈ schemesOf .egprs → ∀ reseg ∈ [false, true],
      ((getRetx i c reseg).any fun r => decide (r ∈ schemesOf .egprs ∧ (info r).family = (info i).family ∧
          (fitsWhole i r = true ∨ reseg = true ∧ fitsSplit i r = true))) = true := by decide +kernel
  have h := this i c hi hc reseg (by cases reseg <;> simp)
  obtain ⟨r, hr, h⟩ := (Option.any_eq_true ..).1 h
  exact ⟨r, hr, of_decide_eq_true h⟩

/-- With resegmentation the retransmission is at most as fast as commanded, unless even the
slowest scheme of the family is faster. -/
theorem C13_retx_obeys_command (i c r : CS) (hi : i ∈ schemesOf .egprs)
    (hc : c ∈ schemesOf .egprs) (hr : getRetx i c true = some r) :
    r.code ≤ c.code ∨
      ∀ s ∈ schemesOf .egprs, (info s).family = (info i).family → r.code ≤ s.code := by
  revert r; revert i c
  have : ∀ i c : CS, i ∈ schemesOf .egprs → c ∈ schemesOf .egprs → ∀ r : CS,
      getRetx i c true = some r →
      (r.code ≤ c.code ∨
       ∀ s ∈ schemesOf .egprs, (info s).family = (info i).family → r.code ≤ s.code) := by
    decide +kernel
  exact this

/-- Outside EGPRS no retransmission scheme is defined (the code asserts). -/
theorem C13_retx_domain (i c : CS) (b : Bool) :
    (getRetx i c b).isSome ↔ i ∈ schemesOf .egprs ∧ c ∈ schemesOf .egprs := by
  revert i c
  cases b <;> decide +kernel

/-- One data block plus headers fills the radio block: data bits and header bits of every
scheme fit its size in octets, uplink and downlink, with less than one octet to spare (GPRS
carries whole octets and has unused bits). -/
theorem C13_block_layout (c : CS) (hc : c ≠ .unknown) :
    c.hdr.bitsDl + c.hdr.numBlocks * (c.hdr.blockBits + 8 * c.dataBytes)
      = 8 * (info c).dlBytes + (if c.isGprs then 0 else (info c).dlExt) ∧
    c.hdr.bitsUl + c.hdr.numBlocks * (c.hdr.blockBits + 8 * c.dataBytes)
      = 8 * (info c).ulBytes + (if c.isGprs then 0 else (info c).ulExt) := by
  revert c; decide +kernel

/-- Sending only one of the data blocks of a scheme: the replacement has one data block of the
same family whose payload, with the padding it asks for, is exactly that data block. -/
theorem C13_dec_to_single (c : CS) (hc : c ≠ .unknown) :
    c.decToSingle.1.hdr.numBlocks = 1 ∧ (info c.decToSingle.1).family = (info c).family ∧
    dataLen c.decToSingle.1 c.decToSingle.2 = c.dataBytes := by
  revert c; decide +kernel

/-! Non-vacuity. -/
example : getBySizeUl 61 = .mcs5 := rfl
example : CS.incKind .mcs4 .egprs = .mcs5 ∧ CS.incKind .mcs4 .egprsGmsk = .mcs4 := ⟨rfl, rfl⟩
example : getRetx .mcs8 .mcs3 true = some .mcs3 ∧ fitsSplit .mcs8 .mcs3 = true := ⟨rfl, rfl⟩
example : getRetx .mcs9 .mcs7 false = some .mcs6 ∧ fitsWhole .mcs9 .mcs6 = true := ⟨rfl, rfl⟩

end Verif.Cs
