/-!
# Caches of neighbour cells and system information

Model of `src/neigh_cache.c`: the cache of neighbour addresses (1-161) and the cache of system
information (163-310) are the same code for different types of keys and values. Times are in
nanoseconds. Keys are equal if all fields are (neigh_cache.h:45-52, `osmo_cgi_ps_cmp`). Allocation
succeeds.
-/

namespace Verif.Cache

/-- neigh_cache.h:54-59, 94-99. -/
structure Entry (κ ν : Type) where
  key : κ
  value : ν
  /-- `update_ts` -/
  ts : Nat
  deriving DecidableEq, Repr

/-- neigh_cache.h:32-36, 82-86. `timer`: when the cleanup timer fires, if it is pending. -/
structure Cache (κ ν : Type) where
  list : List (Entry κ ν)
  keep : Nat
  timer : Option Nat
  deriving DecidableEq, Repr

variable {κ ν : Type} [DecidableEq κ]

/-- neigh_cache.c:50-72, 193-215 `…_schedule_cleanup`: the timer has microseconds. -/
def schedule (now : Nat) (c : Cache κ ν) : Cache κ ν :=
  match c.list with
  | [] => c
  | e :: _ =>
    let threshold := e.ts + c.keep
    { c with timer := some (now + if now ≥ threshold then 0 else (threshold - now) / 1000 * 1000) }

/-- neigh_cache.c:26-48, 170-191 `…_cleanup_cb`: the timer has fired. The threshold is compared with
the keep time added to the age. -/
def cleanup (now : Nat) (c : Cache κ ν) : Cache κ ν :=
  schedule now { c with list := c.list.dropWhile (fun e => !(now < e.ts + c.keep)), timer := none }

/-- neigh_cache.c:74-83, 217-225 `…_alloc`. -/
def alloc (κ ν : Type) (sec : Nat) : Cache κ ν := { list := [], keep := sec * 1000000000, timer := none }

/-- neigh_cache.c:85-89, 227-231 `…_set_keep_time_interval`. -/
def setKeep (now : Nat) (c : Cache κ ν) (sec : Nat) : Cache κ ν := schedule now { c with keep := sec * 1000000000 }

/-- neigh_cache.c:91-109, 264-283 `…_lookup_entry`, `…_lookup_value`. -/
def lookup (c : Cache κ ν) (k : κ) : Option ν := (c.list.find? (fun e => e.key = k)).map (·.value)

/-- neigh_cache.c:111-142, 233-262 `…_add`: an old entry is taken out of the list, the entry goes to
the end. -/
def add (now : Nat) (c : Cache κ ν) (k : κ) (v : ν) : Cache κ ν :=
  schedule now { c with list := c.list.eraseP (fun e => e.key = k) ++ [{ key := k, value := v, ts := now }] }

end Verif.Cache
