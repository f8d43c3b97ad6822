import Verif.Model.CodingScheme
/-!
# What the coding scheme tables have to satisfy

Vocabulary for C12 and C13.
-/

namespace Verif.Cs

/-- Quantifying over all coding schemes is decidable (the list `CS.all` is complete). -/
theorem CS.mem_all (c : CS) : c ∈ CS.all := by cases c <;> decide

instance {p : CS → Prop} [DecidablePred p] : Decidable (∀ c, p c) :=
  decidable_of_iff (∀ c ∈ CS.all, p c) ⟨fun h c => h c c.mem_all, fun h c _ => h c⟩

def Kind.all : List Kind := [.gprs, .egprsGmsk, .egprs]
theorem Kind.mem_all (c : Kind) : c ∈ Kind.all := by cases c <;> decide
instance {p : Kind → Prop} [DecidablePred p] : Decidable (∀ c, p c) :=
  decidable_of_iff (∀ c ∈ Kind.all, p c) ⟨fun h c => h c c.mem_all, fun h c _ => h c⟩

def Ps.all : List Ps := [.ps1, .ps2, .ps3, .invalid]
theorem Ps.mem_all (c : Ps) : c ∈ Ps.all := by cases c <;> decide
instance {p : Ps → Prop} [DecidablePred p] : Decidable (∀ c, p c) :=
  decidable_of_iff (∀ c ∈ Ps.all, p c) ⟨fun h c => h c c.mem_all, fun h c _ => h c⟩

def Spb.all : List Spb := [.noRetx, .first, .second]
theorem Spb.mem_all (c : Spb) : c ∈ Spb.all := by cases c <;> decide
instance {p : Spb → Prop} [DecidablePred p] : Decidable (∀ c, p c) :=
  decidable_of_iff (∀ c ∈ Spb.all, p c) ⟨fun h c => h c c.mem_all, fun h c _ => h c⟩

/-- The schemes of each kind, named one by one: GPRS CS-1..4, EGPRS with GMSK MCS-1..4,
EGPRS MCS-1..9. -/
def schemesOf : Kind → List CS
  | .gprs => [.cs1, .cs2, .cs3, .cs4]
  | .egprsGmsk => [.mcs1, .mcs2, .mcs3, .mcs4]
  | .egprs => [.mcs1, .mcs2, .mcs3, .mcs4, .mcs5, .mcs6, .mcs7, .mcs8, .mcs9]

/-- RLC payload octets carried by a whole radio block. -/
def payload (c : CS) : Nat := c.dataBytes * c.hdr.numBlocks

/-- RLC payload octets of one data block, with or without padding
(3GPP TS 44.060 10.3a.1: padding shortens the data part). -/
def dataLen (c : CS) (pad : Bool) : Nat := c.dataBytes - (if pad then c.optPad / 8 else 0)

/-- A block first sent with scheme `i` can be sent again with scheme `r` as one block. -/
def fitsWhole (i r : CS) : Bool := dataLen r false = i.dataBytes ∨ dataLen r true = i.dataBytes

/-- … or split into two blocks of scheme `r`. -/
def fitsSplit (i r : CS) : Bool :=
  dataLen r false + dataLen r false = i.dataBytes ∨ dataLen r true + dataLen r false = i.dataBytes

/-- Puncturing schemes defined for a modulation and coding scheme (TS 44.060 10.4.8a). -/
def validPs : CS → List Ps
  | .mcs1 | .mcs2 | .mcs5 | .mcs6 => [.ps1, .ps2]
  | .mcs3 | .mcs4 | .mcs7 | .mcs8 | .mcs9 => [.ps1, .ps2, .ps3]
  | _ => []

/-- Second puncturing scheme: only for schemes with two data blocks; otherwise the value is
irrelevant and is written `ps1` here. -/
def validPs2 : CS → List Ps
  | .mcs7 | .mcs8 | .mcs9 => [.ps1, .ps2, .ps3]
  | _ => [.ps1]

/-- Padding is defined for MCS-3 and MCS-6 only. -/
def validPad : CS → List Bool
  | .mcs3 | .mcs6 => [false, true]
  | _ => [false]

/-- Width of the CPS field in the header (TS 44.060 10.4.8a.1–3). -/
def cpsWidth : Hdr → Nat
  | .type1 => 5 | .type2 => 3 | .type3 => 4 | _ => 0

/-- What is signalled by CPS: the scheme with its puncturing schemes and padding. -/
structure Sig where
  c : CS
  p : Ps
  p2 : Ps
  pad : Bool
  deriving DecidableEq, Repr

/-- All legal combinations. -/
def Sig.all : List Sig :=
  CS.all.flatMap fun c => (validPs c).flatMap fun p => (validPs2 c).flatMap fun p2 =>
    (validPad c).map fun pad => ⟨c, p, p2, pad⟩

/-- A combination is legal. -/
def Sig.Legal (s : Sig) : Prop := s.p ∈ validPs s.c ∧ s.p2 ∈ validPs2 s.c ∧ s.pad ∈ validPad s.c

/-- The decoder's result says exactly what was signalled. -/
def Sig.decodedAs (s : Sig) (d : CpsInfo) : Bool :=
  d.punct = some s.p.code
  ∧ (d.punct2 = if s.c.hdr = .type1 then some s.p2.code else none)
  ∧ d.pad = s.pad

theorem Sig.mem_all {s : Sig} (h : s.Legal) : s ∈ Sig.all := by
  obtain ⟨h1, h2, h3⟩ := h
  simp only [Sig.all, List.mem_flatMap, List.mem_map]
  exact ⟨s.c, s.c.mem_all, s.p, h1, s.p2, h2, s.pad, h3, rfl⟩

end Verif.Cs
