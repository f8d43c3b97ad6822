import Verif.Model.CodingScheme
/-!
# Ericsson RBS: the frame numbers of the channel coding unit

`er_ccu_rx_cb`, `er_ccu_empty_cb`, `fn_dl_advance`, `fn_to_block_nr`, `mac_block_is_noise` and `cs_hdr_from_len`
(src/ericsson-rbs/er_ccu_l1_if.c). Every 20 ms a TRAU frame comes from the CCU. Only some of them carry frame numbers, for the others
the PCU counts. The coding of TRAU frames is that of libosmocore; measurements, the timing adjustment and the content of the blocks
are left out. The BTS exists.
-/

namespace Verif.Ccu

/-- libosmocore `GSM_TDMA_HYPERFRAME`. -/
def hyper : Nat := 2715648

/-- libosmocore `GSM_TDMA_FN_SUM`. -/
def fnSum (a b : Nat) : Nat := (a + b) % hyper

/-- libosmocore `GSM_TDMA_FN_SUB`, with the arithmetic of `uint32_t`. -/
def fnSub (a b : Nat) : Nat := (a + hyper + 2 ^ 32 - b) % 2 ^ 32 % hyper

/-- libosmocore `GSM_TDMA_FN_DIFF`. -/
def fnDiff (a b : Nat) : Nat := min (fnSub a b) (fnSub b a)

/-- er_ccu_l1_if.c:42 `fn_inc_table`. -/
def incTable : List Nat := [4, 4, 5, 0]

/-- er_ccu_l1_if.c:83-84, 172-175: the number of the next block. -/
def next (fn : Nat) : Nat := fnSum fn (incTable.getD (fn % 13 / 4) 0)

/-- er_ccu_l1_if.c:76-88 `fn_dl_advance`. -/
def advance : Nat → Nat → Nat
  | 0, fn => fn
  | n + 1, fn => advance n (next fn)

/-- er_ccu_l1_if.c:57-74 `fn_to_block_nr`. -/
def blockNr (fn : Nat) : Nat := fn % 52 / 13 * 3 + fn % 52 % 13 / 4

/-- A TRAU frame: one that cannot be decoded; with frame numbers and perhaps the sequence number the CCU got last; data, with what
`mac_block_is_noise` (90-115) looks at; or another one. -/
inductive Frame
  | bad
  | sync (pseq : Option Nat) (ul dl : Nat)
  | gprs (parityOk : Bool)
  | egprs (hdrGood good0 good1 : Bool)
  | access
  | other
  deriving DecidableEq, Repr

/-- er_ccu_l1_if.c:90-115 `mac_block_is_noise`; `none`: not a frame of data. -/
def noise : Frame → Option Bool
  | .gprs ok => some (!ok)
  | .egprs h a b => some (!h || (!a && !b))
  | .access => some true
  | _ => none

/-- src/ericsson-rbs/er_ccu_descr.h:31-39. -/
structure Sync where
  ul : Nat := 0
  dl : Nat := 0
  pcu : Nat := 0
  ccu : Nat := 0
  synced : Bool := false
  deriving DecidableEq, Repr

/-- What the PCU is told: a block arrived; the time; send a block. -/
inductive Act
  | data (fn : Nat)
  | time (fn : Nat)
  | rts (fn bn : Nat)
  deriving DecidableEq, Repr

/-- er_ccu_l1_if.c:261-283: data is handed on. -/
def dataOf (f : Frame) (fn : Nat) : List Act := match noise f with
  | some false => [Act.data fn]
  | _ => []

/-- er_ccu_l1_if.c:155-304 `er_ccu_rx_cb`. -/
def rx (s : Sync) (f : Frame) : Sync × List Act :=
  let ul := next s.ul
  let dl := next s.dl
  let ulComp := fnSub ul 3                                           -- 187
  let dlComp := advance (fnDiff s.pcu s.ccu + 1) dl                  -- 188-189
  let s := match f with
    | .sync p u d =>                                                 -- 216-259
      { s with ccu := p.getD s.ccu, synced := decide (ul = u ∧ dl = d), ul := u, dl := d }
    | _ => { s with ul := ul, dl := dl }
  ({ s with pcu := (s.pcu + 1) % 2 ^ 32, ccu := (s.ccu + 1) % 2 ^ 32 },  -- 299-303
   dataOf f ulComp ++ if s.synced then [.time ulComp, .rts dlComp (blockNr dlComp)] else [])  -- 286-297

/-- All frames one after the other: state, and what was done for each. -/
def run (s : Sync) : List Frame → Sync × List (List Act)
  | [] => (s, [])
  | f :: fs =>
    let r := rx s f
    let q := run r.1 fs
    (q.1, r.2 :: q.2)

/-- er_ccu_l1_if.c:306-343 `er_ccu_empty_cb`: the sequence number that is sent to the CCU. -/
def sent (s : Sync) : Nat := s.pcu

/-- The type of a block for the CCU, `enum er_cs_or_hdr`. -/
inductive Coding
  | cs1 | cs2 | cs3 | cs4 | hdr1 | hdr2 | hdr3
  deriving DecidableEq, Repr

/-- er_ccu_l1_if.c:346-374 `cs_hdr_from_len`; `none`: -EINVAL. -/
def typeOfLen : Nat → Option Coding
  | 23 => some .cs1
  | 34 => some .cs2
  | 40 => some .cs3
  | 54 => some .cs4
  | 27 => some .hdr3
  | 33 => some .hdr3
  | 42 => some .hdr3
  | 49 => some .hdr3
  | 60 => some .hdr2
  | 78 => some .hdr2
  | 118 => some .hdr1
  | 142 => some .hdr1
  | 154 => some .hdr1
  | _ => none

end Verif.Ccu
