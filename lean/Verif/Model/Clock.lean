/-!
# The clock of the PCU

`bts_set_current_frame_number`, `delta_fn` and `bts_set_current_block_frame_number` (src/bts.cpp:337-388) with the start values
(284-285). The number is set by each block of data (`pcu_rx_data_ind_pdtch`, src/pcu_l1_if.cpp:336-342), and by `pcu_rx_block_time`
(331-334), which an L1 with direct access calls for each block, also one without data. Time indications have no effect (1049-1060).
The notice about a jump is not modelled.
-/

namespace Verif.Clock

/-- libosmocore `GSM_MAX_FN` and `GSM_TDMA_HYPERFRAME`. -/
def maxFn : Int := 2715648

/-- `cur_fn` (-1: FN_UNSET, which is 0xffffffff and -1 as an int), `cur_blk_fn`, the counter of late blocks. -/
structure Clk where
  cur : Int := -1
  blk : Int := -1
  late : Nat := 0
  deriving DecidableEq, Repr

/-- bts.cpp:354-357 `delta_fn`, with the division of C. -/
def deltaFn (fn to : Int) : Int := (fn + Int.tdiv (maxFn * 3) 2 - to).tmod maxFn - Int.tdiv maxFn 2

/-- bts.cpp:337-352 `bts_set_current_frame_number`; `none`: the assertion fails. -/
def setFn (c : Clk) (fn : Nat) : Option Clk := if (fn : Int) < maxFn then some { c with cur := fn } else none

/-- bts.cpp:359-388 `bts_set_current_block_frame_number`. -/
def setBlk (c : Clk) (fn : Nat) : Option Clk :=
  if c.blk ≥ 0 ∧ deltaFn fn c.blk ≤ 0 then some c
  else
    let delay := if c.cur ≠ 0 then deltaFn fn c.cur else 0
    let c := if delay ≤ -13 then { c with late := c.late + 1 } else c
    let c := { c with blk := fn }
    if delay < -500 ∨ delay > 0 ∨ c.cur = -1 then setFn c fn else some c

/-- What the layer below tells. -/
inductive Ev
  | data (fn : Nat)   -- block of data, from the socket or from L1
  | block (fn : Nat)  -- frame number alone, from L1
  deriving DecidableEq, Repr

def step (c : Clk) : Ev → Option Clk
  | .data fn => setFn c fn
  | .block fn => setBlk c fn

end Verif.Clock
