/-!
# The connections to the SGSN

`gprs_ns_update_config`, `ns_conf_vc_cb` and `ns_configure_nse` (src/gprs_bssgp_pcu.c:1086-1272), called for every announcement of
the BTS (src/pcu_l1_if.cpp:677-731, 883-887). The NS library (libosmogb) is not part of the code: what it answers is an input
(`Lib`), what it is asked to create or to remove is recorded. An address is a number. `none`: the PCU ends (pcu_l1_if.cpp:789-799).
-/

namespace Verif.NsCfg

/-- One connection as announced: local address, address of the SGSN, NSVCI. -/
structure Entry where
  loc : Nat
  rem : Nat
  nsvci : Nat
  deriving DecidableEq, Repr

/-- A connection of the NS library; `id`: which one it is. -/
structure Vc where
  id : Nat
  e : Entry
  deriving DecidableEq, Repr

/-- A network service entity. `eps`: endpoints for IP-SNS. -/
structure Nse where
  nsei : Nat
  vcs : List Vc
  eps : List Nat
  deriving DecidableEq, Repr

/-- `bts->nse`, which is the only one the library has, the local addresses in use and the number of connections made. -/
structure St where
  nse : Option Nse
  binds : List Nat
  next : Nat
  deriving DecidableEq, Repr

/-- Answers of the library. -/
structure Lib where
  /-- `gprs_ns2_create_nse` works -/
  create : Bool := true
  /-- `gprs_ns2_ip_bind` works for this number and local address -/
  bind : Nat → Nat → Bool := fun _ _ => true
  /-- `gprs_ns2_sns_add_bind` works -/
  snsBind : Nat → Bool := fun _ => true
  /-- `gprs_ns2_ip_connect` works -/
  conn : Entry → Bool := fun _ => true
  /-- `gprs_ns2_sns_add_endpoint` works -/
  endpoint : Nat → Bool := fun _ => true

/-- gprs_bssgp_pcu.c:1114-1143, one round: local addresses in use, and whether there is one for this entry. -/
def bindOne (l : Lib) (sns : Bool) (binds : List Nat) (x : Nat × Entry) : List Nat × Bool :=
  if x.2.loc ∈ binds then (binds, true)
  else if !l.bind x.1 x.2.loc then (binds, false)
  else (x.2.loc :: binds, !sns || l.snsBind x.2.loc)

/-- gprs_bssgp_pcu.c:1114-1143, the loop: local addresses in use, and the entries that have one. -/
def bindAll (l : Lib) (sns : Bool) : List Nat → List (Nat × Entry) → List Nat × List (Nat × Entry)
  | b, [] => (b, [])
  | b, x :: xs =>
    let r := bindOne l sns b x
    let q := bindAll l sns r.1 xs
    (q.1, if r.2 then x :: q.2 else q.2)

/-- gprs_bssgp_pcu.c:1162-1168 for all entries that have a local address: the connections that are made. -/
def connectAll (l : Lib) : Nat → List (Nat × Entry) → List Vc
  | _, [] => []
  | n, x :: xs => if l.conn x.2 then ⟨n, x.2⟩ :: connectAll l (n + 1) xs else connectAll l n xs

/-- gprs_bssgp_pcu.c:1154-1161: `none`: an endpoint is refused. -/
def endpoints (l : Lib) : List (Nat × Entry) → Option (List Nat)
  | [] => some []
  | x :: xs => if l.endpoint x.2.rem then (endpoints l xs).map (x.2.rem :: ·) else none

/-- gprs_bssgp_pcu.c:1086-1175 `ns_configure_nse`; `es`: the entries of `valid`. -/
def configure (l : Lib) (sns : Bool) (s : St) (nsei : Nat) (es : List (Nat × Entry)) : Option St :=
  if es.isEmpty then none                                            -- 1102-1103
  else
    let n : Option Nse := match s.nse with                           -- 1105-1112
      | some n => if n.nsei = nsei then some n else if l.create then some ⟨nsei, [], []⟩ else none
      | none => if l.create then some ⟨nsei, [], []⟩ else none
    match n with
    | none => none
    | some n =>
      let b := bindAll l sns s.binds es
      if b.2.isEmpty then none                                       -- 1144-1148
      else if sns then
        (endpoints l b.2).map fun eps => { s with nse := some { n with eps := n.eps ++ eps }, binds := b.1 }
      else
        let vcs := connectAll l s.next b.2
        if vcs.isEmpty then none                                     -- 1174
        else some { nse := some { n with vcs := n.vcs ++ vcs }, binds := b.1, next := s.next + vcs.length }

/-- gprs_bssgp_pcu.c:1187-1211 `ns_conf_vc_cb` for all connections: those that stay, and the entries that were not found. -/
def reconcile : List Vc → List (Nat × Entry) → List Vc × List (Nat × Entry)
  | [], es => ([], es)
  | v :: vs, es =>
    match es.find? (fun x => x.2 = v.e) with
    | some x =>
      let r := reconcile vs (es.erase x)
      (v :: r.1, r.2)
    | none => reconcile vs es

/-- gprs_bssgp_pcu.c:1214-1272 `gprs_ns_update_config`. `initial`: `gprs_ns2_nse_sns_remote`. -/
def update (l : Lib) (sns : Bool) (initial : Nat) (s : St) (nsei : Nat) (es : List (Nat × Entry)) : Option St :=
  match s.nse with
  | none => configure l sns { s with nse := none, binds := [] } nsei es                       -- 1220-1224
  | some n =>
    if nsei ≠ n.nsei then configure l sns { s with nse := none, binds := [] } nsei es         -- 1225-1229
    else if sns then
      if es.any (fun x => x.2.rem = initial) then some s                                      -- 1234-1241
      else configure l sns { s with nse := none, binds := [] } nsei es
    else
      let r := reconcile n.vcs es
      let s' := { s with nse := some { n with vcs := r.1 } }
      if r.2.isEmpty then some s'                                                             -- 1260
      else configure l sns s' nsei r.2

/-- src/pcu_l1_if.cpp:685-728: the entries of an announcement, with their numbers; `none`: no address of a known type. -/
def entries (i : Nat) : List (Option Entry) → List (Nat × Entry)
  | [] => []
  | none :: xs => entries (i + 1) xs
  | some e :: xs => (i, e) :: entries (i + 1) xs

/-- src/pcu_l1_if.cpp:677-731, 883-887 `pcu_info_ind_ns`. -/
def announce (l : Lib) (sns : Bool) (initial : Nat) (s : St) (nsei : Nat) (a : List (Option Entry)) : Option St :=
  if (entries 0 a).isEmpty then none else update l sns initial s nsei (entries 0 a)

end Verif.NsCfg
