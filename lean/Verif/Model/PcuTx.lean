import Verif.Model.Nacc
/-!
# Messages to the BTS

Model of `src/pcuif_sock.c` and of the functions of `src/pcu_l1_if.cpp` that make messages for the BTS. Memory is zeroed when a message is
allocated (libosmocore `msgb_alloc`); little-endian machine; without direct access to a PHY; allocation succeeds.
-/

namespace Verif.PcuTx

open Verif.Nacc (Key)

/-- A number of `k` octets, low octet first. Arguments of a smaller type are cut. -/
def low : Nat → Nat → List Nat
  | 0, _ => []
  | k + 1, n => n % 256 :: low k (n / 256)

/-- `osmo_store16be`. -/
def high16 (n : Nat) : List Nat := [n / 256 % 256, n % 256]

def zeros (k : Nat) : List Nat := List.replicate k 0

/-- An array of `k` octets with this contents; the rest is 0. -/
def array (k : Nat) (l : List Nat) : List Nat := l ++ zeros (k - l.length)

/-- pcu_l1_if.cpp:84-98 `pcu_msgb_alloc`: always `sizeof(struct gsm_pcu_if)` octets, 4 of them header; the largest body has 1003. -/
def prim (type nr : Nat) (body : List Nat) : List Nat := [type, nr % 256, 0, 0] ++ array 1003 body

/-- pcu_l1_if.cpp:125-155 `pcu_tx_txt_ind`: type 0, text cut to 127 characters (`osmo_strlcpy`). -/
def txtInd (text : List Nat) : List Nat := prim 0x70 0 (0 :: array 128 (text.take 127))

/-- pcu_l1_if.cpp:157-177 `pcu_tx_act_req`. -/
def actReq (nr trx ts : Nat) (on : Bool) : List Nat := prim 0x40 nr [if on then 1 else 0, trx % 256, ts % 256, 0]

/-- pcu_l1_if.cpp:179-210 `pcu_tx_data_req`. `none`: outside of the array of 162 octets. -/
def dataReq (nr trx ts sapi arfcn fn blk : Nat) (data : List Nat) : Option (List Nat) :=
  let len := data.length % 256
  if len ≤ 162 then
    some (prim 0x00 nr (sapi :: len :: (array 162 (data.take len) ++ (low 4 fn ++ (low 2 arfcn ++ [trx % 256, ts % 256, blk % 256, 0, 0, 0, 0, 0, 0, 0])))))
  else none

/-- pcu_l1_if.cpp:212-234 `pcu_l1if_tx_pdtch`; `none` as a block: idle. -/
def txPdtch (nr trx ts arfcn fn blk : Nat) (block : Option (List Nat)) : Option (List Nat) :=
  dataReq nr trx ts 5 arfcn fn blk (block.getD [])

/-- pcu_l1_if.cpp:236-257 `pcu_l1if_tx_ptcch`. -/
def txPtcch (nr trx ts arfcn fn blk : Nat) (block : List Nat) : Option (List Nat) := dataReq nr trx ts 7 arfcn fn blk block

/-- pcu_l1_if.cpp:259-275 `pcu_l1if_tx_agch2`. `none`: the block does not fit behind the length octet. -/
def txAgch (nr plen : Nat) (confirm : Bool) (id : Nat) (block : List Nat) : Option (List Nat) :=
  if block.length ≤ 22 then
    dataReq nr 0 0 9 0 0 0 (low 4 id ++ (array 23 ((4 * plen + 1) % 256 :: block) ++ [if confirm then 1 else 0]))
  else none

/-- `OSMO_IMSI_BUF_SIZE` of libosmocore. -/
def imsiBuf : Nat := 17

/-- pcu_l1_if.cpp:277-303 `pcu_l1if_tx_pch2`; the IMSI as characters. -/
def txPch (nr plen : Nat) (confirm : Bool) (imsi : Option (List Nat)) (id : Nat) (block : List Nat) : Option (List Nat) :=
  if block.length ≤ 22 then
    dataReq nr 0 0 8 0 0 0 (low 4 id ++ (array imsiBuf ((imsi.getD []).take (imsiBuf - 1)) ++
      (array 23 ((4 * plen + 1) % 256 :: block) ++ [if confirm then 1 else 0])))
  else none

/-- pcu_l1_if.cpp:305-332 `pcu_tx_neigh_addr_res_req`, with 100-115 `pcu_msgb_alloc_ext_size`. -/
def neighReq (nr : Nat) (k : Key) : List Nat :=
  [0x80, nr % 256, 0, 0] ++ ([0x81, 0] ++ (high16 7 ++ (high16 k.lac ++ (high16 k.ci ++ (high16 k.arfcn ++ [k.bsic % 256])))))

/-! ### Socket -/

/-- pcuif_sock.c:45-49. `ended`: the process has called `exit`. -/
inductive Conn | waiting | connected | ended
  deriving DecidableEq, Repr

/-- `want`: the socket is watched for writing. -/
structure Sock where
  conn : Conn := .waiting
  queue : List (List Nat) := []
  want : Bool := false
  deriving DecidableEq, Repr

/-- pcuif_sock.c:56-70 `pcu_sock_send`. Without a connection the message is dropped (and its memory lost). -/
def send (s : Sock) (m : List Nat) : Sock :=
  if s.conn = .connected then { s with queue := s.queue ++ [m], want := true } else s

/-- pcuif_sock.c:72-110 `pcu_sock_close`. -/
def close (s : Sock) : Sock := { s with conn := .ended, queue := [], want := false }

/-- Result of `write`: all octets (`SOCK_SEQPACKET`), `EAGAIN`, other errors or 0. -/
inductive W | all | again | fail
  deriving DecidableEq, Repr

/-- pcuif_sock.c:137-182 `pcu_sock_write`: new state and what was written. `r`: results of the calls of `write`, one after the other. -/
def writeLoop (r : Nat → W) (s : Sock) : List (List Nat) → Sock × List (List Nat)
  | [] => ({ s with queue := [] }, [])
  | m :: q =>
    if m = [] then writeLoop r { s with want := false } q
    else match r 0 with
      | .all => let x := writeLoop (fun i => r (i + 1)) { s with want := false } q; (x.1, m :: x.2)
      | .again => ({ s with queue := m :: q, want := true }, [])
      | .fail => (close s, [])

/-- What `pcu_sock_read` (112-135) does: not readable, end of the connection or error; else the messages that are sent while what was
received is handled (`pcu_rx`), and whether the result is an error. -/
inductive R | nothing | lost | got (sends : List (List Nat)) (err : Bool)
  deriving DecidableEq, Repr

/-- pcuif_sock.c:184-197 `pcu_sock_cb`, called while there is a connection. -/
def callback (s : Sock) (rd : R) (wr : Option (Nat → W)) : Sock × List (List Nat) :=
  let w (s : Sock) := match wr with
    | some r => if s.want then writeLoop r s s.queue else (s, [])
    | none => (s, [])
  match rd with
  | .nothing => w s
  | .lost => (close s, [])
  | .got ms err => let s := ms.foldl send s; if err then (s, []) else w s

/-- pcuif_sock.c:199-226 `pcu_l1if_open`; version text. -/
def openSock (s : Sock) (ok : Bool) (version : List Nat) : Sock :=
  let s : Sock := { s with queue := [], want := false }
  if ok then send { s with conn := .connected } (txtInd version) else { s with conn := .waiting }

/-- What happens. `tryOpen`: start of the PCU and 51-54 `pcu_sock_timeout`. `stop`: 228-237 `pcu_l1if_close`; that it stops the timer is not
modelled (more histories). -/
inductive Op
  | tryOpen (ok : Bool)
  | send (m : List Nat)
  | ready (rd : R) (wr : Option (Nat → W))
  | stop

/-- One step: new state and what was written to the socket. -/
def step (version : List Nat) (s : Sock) : Op → Sock × List (List Nat)
  | .tryOpen ok => if s.conn = .waiting then (openSock s ok version, []) else (s, [])
  | .send m => (send s m, [])
  | .ready rd wr => if s.conn = .connected then callback s rd wr else (s, [])
  | .stop => if s.conn = .connected then (close s, []) else (s, [])

/-- A history: state and what was written. -/
def run (version : List Nat) (ops : List Op) : Sock × List (List Nat) :=
  ops.foldl (fun x op => let y := step version x.1 op; (y.1, x.2 ++ y.2)) ({}, [])

end Verif.PcuTx
