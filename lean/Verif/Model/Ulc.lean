import Verif.Model.Fn
/-!
# Uplink controller of a PDCH

Model of `src/pdch_ul_controller.c` and of `sba_alloc` (src/sba.c). The red-black tree is the list
of its nodes in order; searching and inserting along the tree is done by scanning the list, which
gives the same result for a search tree. Owners are numbers.
-/

namespace Verif.Ulc

open Verif.Fn

/-- pdch_ul_controller.h:48-66: who a block is reserved for. -/
inductive Owner where
  | usf (tbf : Nat)
  | poll (tbf : Nat) (reason : Nat)
  | sba (id : Nat)
  deriving DecidableEq, Repr

/-- `struct pdch_ulc_node`. -/
structure Node where
  fn : Nat
  owner : Owner
  deriving DecidableEq, Repr

/-- pdch_ul_controller.c:60-78 `pdch_ulc_get_node`. -/
def getNode (l : List Node) (fn : Nat) : Option Node := l.find? fun it => fncmp it.fn fn == 0

/-- pdch_ul_controller.c:104-107 `pdch_ulc_fn_is_free`. -/
def isFree (l : List Node) (fn : Nat) : Bool := (getNode l fn).isNone

/-- pdch_ul_controller.c:178-211 `pdch_ulc_add_node`; `none`: -EEXIST. -/
def addNode (item : Node) : List Node → Option (List Node)
  | [] => some [item]
  | it :: l =>
    if fncmp item.fn it.fn < 0 then some (item :: it :: l)
    else if fncmp item.fn it.fn > 0 then (addNode item l).map (it :: ·)
    else none

/-- pdch_ul_controller.c:213-236 `pdch_ulc_reserve_*`: result code (true: 0) and tree. -/
def reserve (l : List Node) (fn : Nat) (o : Owner) : Bool × List Node :=
  match addNode ⟨fn, o⟩ l with
  | some l' => (true, l')
  | none => (false, l)

/-- pdch_ul_controller.c:243-250 `pdch_ulc_release_fn`. -/
def releaseFn (l : List Node) (fn : Nat) : Bool × List Node :=
  match getNode l fn with
  | none => (false, l)
  | some it => (true, l.erase it)

/-- The TBF a node belongs to (pdch_ul_controller.c:263-275). -/
def Owner.tbf? : Owner → Option Nat
  | .usf t => some t
  | .poll t _ => some t
  | .sba _ => none

/-- One round of the loop at pdch_ul_controller.c:261-283: remove the first node of the TBF. -/
def releaseOne (l : List Node) (t : Nat) : Option (List Node) :=
  (l.find? fun it => it.owner.tbf? == some t).map fun it => l.erase it

/-- pdch_ul_controller.c:252-285 `pdch_ulc_release_tbf`: repeated until nothing is found. The
counter bounds the number of rounds by the number of nodes. -/
def releaseTbfLoop (t : Nat) : Nat → List Node → List Node
  | 0, l => l
  | n + 1, l =>
    match releaseOne l t with
    | none => l
    | some l' => releaseTbfLoop t n l'

def releaseTbf (l : List Node) (t : Nat) : List Node := releaseTbfLoop t l.length l

/-- pdch_ul_controller.c:287-331 `pdch_ulc_expire_fn`: tree afterwards and the owners notified
(`tbf_usf_timeout`, `tbf_poll_timeout`, `sba_timeout`), in order. The notification of a node may
free TBFs: `freed`. A freed TBF gives its reservations back (tbf.cpp:226). -/
def expire (freed : Node → List Nat) (fn : Nat) : Nat → List Node → List Node × List Node
  | 0, l => (l, [])
  | _ + 1, [] => ([], [])
  | n + 1, it :: l =>
    if fncmp it.fn fn > 0 then (it :: l, [])
    else
      let r := expire freed fn n ((freed it).foldl releaseTbf l)
      (r.1, it :: r.2)

/-- `pdch_ulc_expire_fn`: at most one round per node. -/
def expireFn (freed : Node → List Nat) (l : List Node) (fn : Nat) : List Node × List Node :=
  expire freed fn l.length l

/-- pdch_ul_controller.h:30-35 and pdch_ul_controller.c:117-124 `rrbp_list`: offset and coding. -/
def rrbpList : List (Nat × Nat) := [(13, 0), (17, 1), (18, 1), (21, 2), (22, 2), (26, 3)]

/-- pdch_ul_controller.c:126-146: the loop; `none`: -EBUSY. -/
def rrbpLoop (l : List Node) (fn : Nat) : List (Nat × Nat) → Option (Nat × Nat)
  | [] => none
  | (off, c) :: os =>
    if !fnValid (nextFn fn off) then rrbpLoop l fn os
    else if isFree l (nextFn fn off) then some (nextFn fn off, c)
    else rrbpLoop l fn os

/-- pdch_ul_controller.c:114-147 `pdch_ulc_get_next_free_rrbp_fn`: poll frame and RRBP coding. -/
def nextFreeRrbp (l : List Node) (fn : Nat) : Option (Nat × Nat) := rrbpLoop l fn rrbpList

/-- pdch_ul_controller.c:149-170 `pdch_ulc_get_next_free_fn`. -/
def nextFreeFn : List Node → Nat → Nat
  | [], check => check
  | it :: l, check =>
    if fncmp it.fn check > 0 then check
    else if fncmp it.fn check = 0 then nextFreeFn l (fnNextBlock check)
    else nextFreeFn l check

/-- sba.c:53-72 `sba_alloc`: frame given to the mobile, whether the reservation succeeded (the
code does not look), and tree. -/
def sbaAlloc (l : List Node) (lastRts : Nat) (id : Nat) : Nat × Bool × List Node :=
  let fn := nextFreeFn l (nextFn lastRts 52)
  (fn, reserve l fn (.sba id))

end Verif.Ulc
