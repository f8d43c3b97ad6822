/-!
# Coding schemes and puncturing schemes

Model of `src/coding_scheme.c`, `src/coding_scheme.h` and of the puncturing functions of
`src/rlc.cpp`.
-/

namespace Verif.Cs

/-- coding_scheme.h:22-29 `enum CodingScheme` (without the end marker). -/
inductive CS where
  | unknown
  | cs1 | cs2 | cs3 | cs4
  | mcs1 | mcs2 | mcs3 | mcs4 | mcs5 | mcs6 | mcs7 | mcs8 | mcs9
  deriving DecidableEq, Repr

/-- All values, in the order of the C enumeration. -/
def CS.all : List CS :=
  [.unknown, .cs1, .cs2, .cs3, .cs4, .mcs1, .mcs2, .mcs3, .mcs4, .mcs5, .mcs6, .mcs7, .mcs8, .mcs9]

/-- Integer value of the C enumerator (coding_scheme.h:22-29). -/
def CS.code : CS → Nat
  | .unknown => 0
  | .cs1 => 1 | .cs2 => 2 | .cs3 => 3 | .cs4 => 4
  | .mcs1 => 5 | .mcs2 => 6 | .mcs3 => 7 | .mcs4 => 8 | .mcs5 => 9 | .mcs6 => 10
  | .mcs7 => 11 | .mcs8 => 12 | .mcs9 => 13

/-- Conversion of an integer to the enumeration; `none` from `NUM_SCHEMES` on. -/
def CS.ofCode (n : Nat) : Option CS := CS.all[n]?

/-- coding_scheme.h:31-35 `enum mcs_kind`. -/
inductive Kind where
  | gprs | egprsGmsk | egprs
  deriving DecidableEq, Repr

/-- coding_scheme.h:78-86 `enum HeaderType` (data types only). -/
inductive Hdr where
  | invalid | control | gprs | type1 | type2 | type3
  deriving DecidableEq, Repr

/-- coding_scheme.c:41-46 `enum Family`. -/
inductive Family where
  | invalid | a | b | c
  deriving DecidableEq, Repr

/-- coding_scheme.c:48-58: one row of `mcs_info`. -/
structure Info where
  ulBytes : Nat
  ulExt : Nat
  dlBytes : Nat
  dlExt : Nat
  dataBytes : Nat
  optPad : Nat
  hdr : Hdr
  family : Family

/-- coding_scheme.c:58-89 `mcs_info`. -/
def info : CS → Info
  | .unknown => ⟨0, 0, 0, 0, 0, 0, .invalid, .invalid⟩
  | .cs1  => ⟨23, 0, 23, 0, 20, 0, .gprs, .invalid⟩
  | .cs2  => ⟨33, 7, 33, 7, 30, 0, .gprs, .invalid⟩
  | .cs3  => ⟨39, 3, 39, 3, 36, 0, .gprs, .invalid⟩
  | .cs4  => ⟨53, 7, 53, 7, 50, 0, .gprs, .invalid⟩
  | .mcs1 => ⟨26, 1, 26, 1, 22, 0, .type3, .c⟩
  | .mcs2 => ⟨32, 1, 32, 1, 28, 0, .type3, .b⟩
  | .mcs3 => ⟨41, 1, 41, 1, 37, 48, .type3, .a⟩
  | .mcs4 => ⟨48, 1, 48, 1, 44, 0, .type3, .c⟩
  | .mcs5 => ⟨60, 7, 59, 6, 56, 0, .type2, .b⟩
  | .mcs6 => ⟨78, 7, 77, 6, 74, 48, .type2, .a⟩
  | .mcs7 => ⟨118, 2, 117, 4, 56, 0, .type1, .b⟩
  | .mcs8 => ⟨142, 2, 141, 4, 68, 0, .type1, .a⟩
  | .mcs9 => ⟨154, 2, 153, 4, 74, 0, .type1, .a⟩

/-- coding_scheme.c:95-98 `mcs_is_gprs`, on the integer value. -/
def isGprsCode (n : Nat) : Bool := 1 ≤ n ∧ n ≤ 4
/-- coding_scheme.c:100-103 `mcs_is_edge`. -/
def isEdgeCode (n : Nat) : Bool := 5 ≤ n ∧ n ≤ 13
/-- coding_scheme.c:105-111 `mcs_is_edge_gmsk`. -/
def isGmskCode (n : Nat) : Bool := if isEdgeCode n then n ≤ 8 else false

def CS.isGprs (c : CS) : Bool := isGprsCode c.code
def CS.isEdge (c : CS) : Bool := isEdgeCode c.code
def CS.isEdgeGmsk (c : CS) : Bool := isGmskCode c.code

/-- coding_scheme.c:160-163 `mcs_is_valid`. -/
def CS.isValid (c : CS) : Bool := 0 < c.code ∧ c.code ≤ 13

/-- coding_scheme.c:113-124 `mcs_chan_code`. -/
def CS.chanCode (c : CS) : Nat :=
  if c.isGprs then c.code - 1 else if c.isEdge then c.code - 5 else 0

/-- coding_scheme.c:126-144 `mcs_get_by_size_ul`. -/
def getBySizeUl : Nat → CS
  | 23 => .cs1 | 27 => .mcs1 | 33 => .mcs2 | 34 => .cs2 | 40 => .cs3 | 42 => .mcs3
  | 49 => .mcs4 | 54 => .cs4 | 61 => .mcs5 | 79 => .mcs6 | 119 => .mcs7 | 143 => .mcs8
  | 155 => .mcs9 | _ => .unknown

/-- coding_scheme.c:146-151 `mcs_get_gprs_by_num`. -/
def getGprsByNum (n : Nat) : CS :=
  if n < 1 ∨ n > 4 then .unknown else (CS.ofCode (1 + (n - 1))).getD .unknown

/-- coding_scheme.c:153-158 `mcs_get_egprs_by_num`. -/
def getEgprsByNum (n : Nat) : CS :=
  if n < 1 ∨ n > 9 then .unknown else (CS.ofCode (5 + (n - 1))).getD .unknown

/-- coding_scheme.c:165-174 `mcs_is_compat_kind`. -/
def compatKindCode (n : Nat) : Kind → Bool
  | .gprs => isGprsCode n
  | .egprsGmsk => isGmskCode n
  | .egprs => isEdgeCode n

def CS.compatKind (c : CS) (k : Kind) : Bool := compatKindCode c.code k

/-- coding_scheme.c:176-179 `mcs_is_compat`. -/
def CS.compat (c o : CS) : Bool := (c.isGprs && o.isGprs) || (c.isEdge && o.isEdge)

/-- coding_scheme.c:181-184 `mcs_size_ul`. -/
def CS.sizeUl (c : CS) : Nat := (info c).ulBytes + (if (info c).ulExt ≠ 0 then 1 else 0)
/-- coding_scheme.c:186-189 `mcs_size_dl`. -/
def CS.sizeDl (c : CS) : Nat := (info c).dlBytes + (if (info c).dlExt ≠ 0 then 1 else 0)
/-- coding_scheme.c:191-197 `mcs_used_size_ul`. -/
def CS.usedSizeUl (c : CS) : Nat := if (info c).hdr = .gprs then (info c).ulBytes else c.sizeUl
/-- coding_scheme.c:199-205 `mcs_used_size_dl`. -/
def CS.usedSizeDl (c : CS) : Nat := if (info c).hdr = .gprs then (info c).dlBytes else c.sizeDl
/-- coding_scheme.c:227-230 `mcs_max_data_block_bytes`. -/
def CS.dataBytes (c : CS) : Nat := (info c).dataBytes
/-- coding_scheme.c:232-235 `mcs_opt_padding_bits`. -/
def CS.optPad (c : CS) : Nat := (info c).optPad
/-- coding_scheme.c:330-333 `mcs_header_type`. -/
def CS.hdr (c : CS) : Hdr := (info c).hdr

/-- coding_scheme.c:237-249 `mcs_inc_kind`. -/
def CS.incKind (c : CS) (k : Kind) : CS :=
  if !c.compatKind k then c
  else if !compatKindCode (c.code + 1) k then c
  else (CS.ofCode (c.code + 1)).getD c

/-- coding_scheme.c:251-263 `mcs_dec_kind`. -/
def CS.decKind (c : CS) (k : Kind) : CS :=
  if !c.compatKind k then c
  else if !compatKindCode (c.code - 1) k then c
  else (CS.ofCode (c.code - 1)).getD c

/-- coding_scheme.c:265-277 `mcs_inc`. -/
def CS.inc (c : CS) : CS :=
  if c.isGprs && c == .cs4 then c
  else if c.isEdge && c == .mcs9 then c
  else if !c.isValid then c
  else (CS.ofCode (c.code + 1)).getD c

/-- coding_scheme.c:279-291 `mcs_dec`. -/
def CS.dec (c : CS) : CS :=
  if c.isGprs && c == .cs1 then c
  else if c.isEdge && c == .mcs1 then c
  else if !c.isValid then c
  else (CS.ofCode (c.code - 1)).getD c

/-- coding_scheme.c:293-302 `mcs_is_family_compat`. -/
def CS.familyCompat (c o : CS) : Bool :=
  if c = o then true
  else if (info c).family = .invalid then false
  else (info c).family == (info o).family

/-- coding_scheme.c:304-312 `mcs_dec_to_single_block`: new scheme and `need_stuffing`. -/
def CS.decToSingle : CS → CS × Bool
  | .mcs7 => (.mcs5, false)
  | .mcs8 => (.mcs6, true)
  | .mcs9 => (.mcs6, false)
  | c => (c, false)

/-- coding_scheme.c:314-328 `hdr_type_info`, number of blocks (335-339). -/
def Hdr.numBlocks : Hdr → Nat
  | .invalid => 0 | .control => 0 | .gprs => 1 | .type1 => 2 | .type2 => 1 | .type3 => 1
/-- coding_scheme.c:341-345 `num_data_header_bits_UL`. -/
def Hdr.bitsUl : Hdr → Nat
  | .invalid => 0 | .control => 8 | .gprs => 24 | .type1 => 46 | .type2 => 37 | .type3 => 31
/-- coding_scheme.c:347-351 `num_data_header_bits_DL`. -/
def Hdr.bitsDl : Hdr → Nat
  | .invalid => 0 | .control => 8 | .gprs => 24 | .type1 => 40 | .type2 => 28 | .type3 => 31
/-- coding_scheme.c:353-357 `num_data_block_header_bits`. -/
def Hdr.blockBits : Hdr → Nat
  | .invalid => 0 | .control => 0 | .gprs => 0 | .type1 => 2 | .type2 => 2 | .type3 => 2

/-- coding_scheme.c:378-388: rows of `egprs_reseg`, columns MCS1..MCS9. -/
def reseg : List (List CS) :=
  [[.mcs1, .mcs1, .mcs1, .mcs1, .mcs1, .mcs1, .mcs1, .mcs1, .mcs1],
   [.mcs2, .mcs2, .mcs2, .mcs2, .mcs2, .mcs2, .mcs2, .mcs2, .mcs2],
   [.mcs3, .mcs3, .mcs3, .mcs3, .mcs3, .mcs3, .mcs3, .mcs3, .mcs3],
   [.mcs1, .mcs1, .mcs1, .mcs4, .mcs4, .mcs4, .mcs4, .mcs4, .mcs4],
   [.mcs2, .mcs2, .mcs2, .mcs2, .mcs5, .mcs5, .mcs7, .mcs7, .mcs7],
   [.mcs3, .mcs3, .mcs3, .mcs3, .mcs3, .mcs6, .mcs6, .mcs6, .mcs9],
   [.mcs2, .mcs2, .mcs2, .mcs2, .mcs5, .mcs5, .mcs7, .mcs7, .mcs7],
   [.mcs3, .mcs3, .mcs3, .mcs3, .mcs3, .mcs6, .mcs6, .mcs8, .mcs8],
   [.mcs3, .mcs3, .mcs3, .mcs3, .mcs3, .mcs6, .mcs6, .mcs6, .mcs9]]

/-- coding_scheme.c:391-401 `egprs_no_reseg`. -/
def noReseg : List (List CS) :=
  [[.mcs1, .mcs1, .mcs1, .mcs1, .mcs1, .mcs1, .mcs1, .mcs1, .mcs1],
   [.mcs2, .mcs2, .mcs2, .mcs2, .mcs2, .mcs2, .mcs2, .mcs2, .mcs2],
   [.mcs3, .mcs3, .mcs3, .mcs3, .mcs3, .mcs3, .mcs3, .mcs3, .mcs3],
   [.mcs4, .mcs4, .mcs4, .mcs4, .mcs4, .mcs4, .mcs4, .mcs4, .mcs4],
   [.mcs5, .mcs5, .mcs5, .mcs5, .mcs5, .mcs5, .mcs7, .mcs7, .mcs7],
   [.mcs6, .mcs6, .mcs6, .mcs6, .mcs6, .mcs6, .mcs6, .mcs6, .mcs9],
   [.mcs5, .mcs5, .mcs5, .mcs5, .mcs5, .mcs5, .mcs7, .mcs7, .mcs7],
   [.mcs6, .mcs6, .mcs6, .mcs6, .mcs6, .mcs6, .mcs6, .mcs8, .mcs8],
   [.mcs6, .mcs6, .mcs6, .mcs6, .mcs6, .mcs6, .mcs6, .mcs6, .mcs9]]

/-- coding_scheme.c:371-404 `get_retx_mcs`. `none` where an assertion fails. -/
def getRetx (initial commanded : CS) (resegment : Bool) : Option CS :=
  if initial.isEdge && commanded.isEdge then
    ((if resegment then Cs.reseg else Cs.noReseg)[initial.chanCode]?).bind (·[commanded.chanCode]?)
  else none

/-! ### Puncturing schemes and CPS (rlc.cpp) -/

/-- rlc.h:101-106 `enum egprs_puncturing_values`. -/
inductive Ps where
  | ps1 | ps2 | ps3 | invalid
  deriving DecidableEq, Repr

def Ps.code : Ps → Nat
  | .ps1 => 0 | .ps2 => 1 | .ps3 => 2 | .invalid => 3

def Ps.ofCode : Nat → Ps
  | 0 => .ps1 | 1 => .ps2 | 2 => .ps3 | _ => .invalid

/-- rlc.cpp:113-173 `gprs_rlc_mcs_cps`; `none` is the return value -1. -/
def cps (c : CS) (p p2 : Ps) (pad : Bool) : Option Nat :=
  let two := c = .mcs7 ∨ c = .mcs8 ∨ c = .mcs9
  if two ∧ p2 = .invalid then none                       -- 119-127
  else if !c.isEdge then none                            -- 142-143
  else if p = .invalid then none                         -- 135-140
  else match c with
  | .mcs1 => some (11 + p.code % 2)
  | .mcs2 => some (9 + p.code % 2)
  | .mcs3 => some ((if pad then 6 else 3) + p.code % 3)
  | .mcs4 => some (0 + p.code % 3)
  | .mcs5 => some (4 + p.code % 2)
  | .mcs6 => some ((if pad then 2 else 0) + p.code % 2)
  | .mcs7 => some (20 + 3 * (p.code % 3) + p2.code % 3)
  | .mcs8 => some (11 + 3 * (p.code % 3) + p2.code % 3)
  | .mcs9 => some (0 + 4 * (p.code % 3) + p2.code % 3)
  | _ => none

/-- Result of `gprs_rlc_mcs_cps_decode`: `punct` (`none`: not assigned), `punct2`
(`none`: -1) and `with_padding`. -/
structure CpsInfo where
  punct : Option Nat
  punct2 : Option Nat
  pad : Bool
  deriving DecidableEq, Repr

/-- Subtraction of unsigned int with wrap-around. -/
def sub32 (a b : Nat) : Nat := (a + 2 ^ 32 - b) % 2 ^ 32

/-- rlc.cpp:175-202 `gprs_rlc_mcs_cps_decode`. -/
def cpsDecode (v : Nat) : CS → CpsInfo
  | .mcs1 => ⟨some (sub32 v 11 % 2), none, false⟩
  | .mcs2 => ⟨some (sub32 v 9 % 2), none, false⟩
  | .mcs3 => ⟨some (sub32 v 3 % 3), none, sub32 v 3 ≥ 3⟩
  | .mcs4 => ⟨some (sub32 v 0 % 3), none, false⟩
  | .mcs5 => ⟨some (sub32 v 4 % 2), none, false⟩
  | .mcs6 => ⟨some (sub32 v 0 % 2), none, sub32 v 0 ≥ 2⟩
  | .mcs7 => ⟨some (sub32 v 20 / 3), some (sub32 v 20 % 3), false⟩
  | .mcs8 => ⟨some (sub32 v 11 / 3), some (sub32 v 11 % 3), false⟩
  | .mcs9 => ⟨some (sub32 v 0 / 4), some (sub32 v 0 % 3), false⟩
  | _ => ⟨none, none, false⟩

/-- rlc.h:90-95 `enum egprs_rlcmac_dl_spb`. -/
inductive Spb where
  | noRetx | first | second
  deriving DecidableEq, Repr

/-- rlc.cpp:212-256 `gprs_get_punct_scheme`. -/
def getPunct (p : Ps) (c cur : CS) (spb : Spb) : Ps :=
  if spb = .second then p                                               -- 224-225
  else if c = .mcs9 ∧ cur = .mcs6 then                                  -- 228-233
    if p = .ps1 ∨ p = .ps3 then .ps1 else if p = .ps2 then .ps2 else .invalid
  else if c = .mcs6 ∧ cur = .mcs9 then                                  -- 234-239
    if p = .ps1 then .ps3 else if p = .ps2 then .ps2 else .invalid
  else if c = .mcs7 ∧ cur = .mcs5 then .ps1                             -- 240-242
  else if c = .mcs5 ∧ cur = .mcs7 then .ps2                             -- 243-245
  else if c ≠ cur then .ps1                                             -- 246-247
  else p                                                                -- 253-254

/-- rlc.cpp:264-286 `gprs_update_punct_scheme`. -/
def updatePunct (p : Ps) : CS → Ps
  | .mcs1 | .mcs2 | .mcs5 | .mcs6 => Ps.ofCode ((p.code + 1) % 2)
  | .mcs3 | .mcs4 | .mcs7 | .mcs8 | .mcs9 => Ps.ofCode ((p.code + 1) % 3)
  | _ => p

end Verif.Cs
