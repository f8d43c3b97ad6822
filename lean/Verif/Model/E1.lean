/-!
# Ericsson RBS: the E1 time slots

`l1if_connect_pdch`, `l1if_disconnect_pdch` (src/ericsson-rbs/er_ccu_l1_if.c:495-537), `er_ccu_if_open`, `er_ccu_if_close` and what
they call (src/ericsson-rbs/er_ccu_if.c:160-389), and the table of connection parameters (src/pcu_l1_if.cpp:983-1047). The E1 and I.460
libraries are inputs (`Lib`): whether a call succeeds. `none`: the PCU crashes or writes outside of its arrays. Messages of the level
ERROR are written, as is the default.
-/

namespace Verif.E1

/-- Connection parameters: line, time slot, subslot (4 and more: the whole slot, if it is 255 `E1_SUBSLOT_FULL`). -/
structure Pars where
  line : Nat
  slot : Nat
  sub : Nat
  deriving DecidableEq, Repr

/-- The unit of one time slot of the radio interface. `tab`: its entry in the table of parameters. `known`: `e1_conn_pars` points to it.
`chan`: where the subchannel `link.schan` was added; `syn`: `link.trau_sync_fi`. -/
structure Unit where
  tab : Option Pars := none
  known : Bool := false
  connected : Bool := false
  chan : Option Pars := none
  syn : Bool := false
  deriving DecidableEq, Repr

/-- All units, `usecount` of each E1 time slot, and whether it is configured. -/
structure St where
  units : List Unit
  use : Nat → Nat → Nat := fun _ _ => 0
  opened : Nat → Nat → Bool := fun _ _ => false

/-- What the libraries answer to one call of the PCU. -/
structure Lib where
  line : Bool := true     -- e1inp_line_find
  config : Bool := true   -- e1inp_ts_config_raw, e1inp_ts_config_none
  update : Bool := true   -- e1inp_line_update
  chan : Bool := true     -- osmo_i460_subchan_add
  syn : Bool := true      -- osmo_trau_sync_alloc
  deriving DecidableEq, Repr

def upd {α} (f : Nat → Nat → α) (l s : Nat) (v : α) : Nat → Nat → α := fun l' s' => if l' = l ∧ s' = s then v else f l' s'

/-- er_ccu_if.c:162-178 `ts_descr_from_ccu_descr`: `some false` is refused. The array of time slots has 31 elements (51-53, with
NUM_E1_TS = 32), the numbers 1 to 31 are accepted. -/
def descr (p : Pars) : Option Bool :=
  if p.line ≥ 32 then some false
  else if p.slot < 1 ∨ p.slot > 31 then some false
  else if p.slot ≥ 31 then none
  else some true

/-- er_ccu_if.c:262-308 `open_e1_timeslot`; `usecount` is a `uint8_t`. -/
def openTs (l : Lib) (s : St) (p : Pars) : Option (St × Bool) :=
  match descr p with
  | none => none
  | some false => some (s, false)
  | some true =>
    let u := s.use p.line p.slot
    if u > 0 then some ({ s with use := upd s.use p.line p.slot ((u + 1) % 256) }, true)
    else if !l.line then some (s, false)
    else if !l.config then some (s, false)
    else
      let s := { s with opened := upd s.opened p.line p.slot true }
      if !l.update then some (s, false)
      else some ({ s with use := upd s.use p.line p.slot 1 }, true)

/-- er_ccu_if.c:311-355 `close_e1_timeslot`. -/
def closeTs (l : Lib) (s : St) (p : Pars) : Option St :=
  match descr p with
  | none => none
  | some false => some s
  | some true =>
    let u := s.use p.line p.slot
    if u > 1 then some { s with use := upd s.use p.line p.slot (u - 1) }
    else if u = 0 then some s
    else if !l.line then some s
    else if !l.config then some s
    else
      let s := { s with opened := upd s.opened p.line p.slot false }
      if !l.update then some s else some { s with use := upd s.use p.line p.slot 0 }

/-- er_ccu_if.c:181-246 `add_i460_subslot`: the unit, and success. -/
def addSub (l : Lib) (s : St) (c : Unit) (p : Pars) : Option (Unit × Bool) :=
  if c.chan.isSome then some (c, false)
  else match descr p with
  | none => none
  | some false => some (c, false)
  | some true =>
    if s.use p.line p.slot = 0 then some (c, false)
    else if p.sub ≠ 255 ∧ p.sub > 3 then some (c, false)
    else if !l.chan then some (c, false)
    else if !l.syn then some ({ c with chan := some p }, false)
    else some ({ c with chan := some p, syn := true }, true)

/-- er_ccu_l1_if.c:495-520 `l1if_connect_pdch` with er_ccu_if.c:357-374 `er_ccu_if_open`. -/
def connect (l : Lib) (s : St) (k : Nat) : Option St :=
  match s.units[k]? with
  | none => some s
  | some c =>
    match c.tab with
    | none => if c.known then some s else none                       -- the message uses `e1_conn_pars`, which is NULL
    | some p =>
      let c := { c with known := true }
      let s := { s with units := s.units.set k c }
      if c.connected then some s
      else match openTs l s p with
      | none => none
      | some (s, false) => some s
      | some (s, true) => match addSub l s c p with
        | none => none
        | some (c, ok) => some { s with units := s.units.set k (if ok then { c with connected := true } else c) }

/-- er_ccu_l1_if.c:522-537 `l1if_disconnect_pdch` with er_ccu_if.c:376-389 `er_ccu_if_close` and 249-259. -/
def disconnect (l : Lib) (s : St) (k : Nat) : Option St :=
  match s.units[k]? with
  | none => some s
  | some c =>
    match c.known, c.tab with
    | true, some p =>
      if !c.connected then some s
      else
        let c := { c with chan := none, syn := false }
        match closeTs l s p with
        | none => none
        | some s => some { s with units := s.units.set k { c with connected := false } }
    | _, _ => none

/-- src/pcu_l1_if.cpp:1014-1047 `pcu_rx_e1_ccu_ind`: the entry is made or overwritten. -/
def ind (s : St) (k : Nat) (p : Pars) : St :=
  match s.units[k]? with
  | none => s
  | some c => { s with units := s.units.set k { c with tab := some p } }

inductive Ev
  | ind (k : Nat) (p : Pars)
  | connect (l : Lib) (k : Nat)
  | disconnect (l : Lib) (k : Nat)

def step (s : St) : Ev → Option St
  | .ind k p => some (ind s k p)
  | .connect l k => connect l s k
  | .disconnect l k => disconnect l s k

end Verif.E1
