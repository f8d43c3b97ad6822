/-!
Model of LLC segmentation into RLC data blocks and of the parsing of RLC data blocks:
`/repo/src/encoding.cpp:1391-1721`, `/repo/src/decoding.cpp:24-289`,
`/repo/src/tbf_dl.cpp:539-694` (`create_new_bsn`), `/repo/src/tbf_ul.cpp:161-205`
(`assemble_forward_llc`) and `/repo/src/llc.c:28-83`, `/repo/src/llc.h:85-115`.

Octets are `Nat` (values below 256).  A C buffer of `n` octets is a list of `n` octets;
writes are modelled by list surgery, so a write past the end shows as a list that grew.
-/
namespace Verif.Seg

/-! ## The block writer -/

/-- `memcpy(block + o, d, |d|)` (llc.h:96-101 `llc_consume_data`). -/
def putAt (l : List Nat) (o : Nat) (d : List Nat) : List Nat :=
  l.take o ++ d ++ l.drop (o + d.length)

/-- `memmove(block + d + 1, block + d, o - d)`: makes room for one octet at `d`
(encoding.cpp:1453-1455, 1485-1486, 1609-1610, 1707-1708). -/
def openGap (l : List Nat) (d o : Nat) : List Nat :=
  l.take d ++ [l.getD d 0] ++ (l.drop d).take (o - d) ++ l.drop (o + 1)

/-- Result of appending (encoding.h `enum AppendResult`). -/
inductive AR | needMore | spaceLeft | filled
deriving DecidableEq, Repr

/-- What `create_new_bsn` works on: the block being filled with `write_offset`,
`num_chunks`, `rdbi->e`, `rdbi->cv` (tbf_dl.cpp:563-595) and the LLC frame being sent
`m_llc` with its read index (`cur = []` is `llc->length == 0`). -/
structure Tx where
  blk : List Nat
  off : Nat
  num : Nat
  e : Nat
  cv : Nat
  cur : List Nat
  idx : Nat
deriving DecidableEq, Repr

/-- Change the octet before the delimiter, if there is one
(`e_pointer`/`prev_li`, encoding.cpp:1403, 1550-1551). -/
def onPrev (num : Nat) (f : Nat → Nat) (blk : List Nat) : List Nat :=
  if num ≠ 0 then blk.modify (num - 1) f else blk

/-- `rlc_data_to_dl_append_gprs`, encoding.cpp:1391-1523; `n` is `rdbi->data_len`. -/
def appendGprs (n : Nat) (fin : Bool) (t : Tx) : Tx × AR :=
  let chunk := t.cur.length - t.idx
  let space := n - t.off
  if chunk > space then                                     -- :1409-1426
    ({ t with
        blk := putAt (onPrev t.num (· ||| 2) t.blk) t.off ((t.cur.drop t.idx).take space)
        idx := t.idx + space
        off := n
        num := t.num + 1 }, .needMore)
  else if chunk = space ∧ fin = true then                   -- :1428-1445
    ({ t with
        blk := putAt (onPrev t.num (· ||| 1) t.blk) t.off ((t.cur.drop t.idx).take space)
        idx := t.idx + space
        off := n
        num := t.num + 1
        cv := 0 }, .filled)
  else if chunk = space then                                -- :1447-1478
    let b1 := openGap t.blk t.num t.off
    let b2 := onPrev t.num (fun b => (b &&& 0xfe) ||| 2) b1
    let b3 := b2.set t.num 1
    ({ t with
        blk := putAt b3 (t.off + 1) ((t.cur.drop t.idx).take (space - 1))
        idx := t.idx + (space - 1)
        off := n
        num := t.num + 1
        e := 0 }, .needMore)
  else                                                      -- :1483-1522
    let b1 := openGap t.blk t.num t.off
    let b2 := onPrev t.num (fun b => (b &&& 0xfe) ||| 2) b1
    let b3 := b2.set t.num (chunk % 64 * 4 + 1)
    let t' : Tx :=
      { t with
        blk := putAt b3 (t.off + 1) ((t.cur.drop t.idx).take chunk)
        idx := t.idx + chunk
        off := t.off + 1 + chunk
        num := t.num + 1
        e := 0 }
    if space - 1 - chunk > 0 ∧ fin = false then (t', .spaceLeft)
    else if fin = true then ({ t' with cv := 0 }, .filled)
    else (t', .filled)

/-- `rlc_data_to_dl_append_egprs_li_padding`, encoding.cpp:1690-1721. -/
def liPadding (n : Nat) (t : Tx) : Tx :=
  let b1 := openGap t.blk t.num t.off
  let b2 := b1.set t.num (127 * 2 + 1)
  let b3 := onPrev t.num (fun b => b &&& 0xfe) b2
  { t with
      blk := b3
      num := t.num + 1
      off := n }

/-- `rlc_data_to_dl_append_egprs`, encoding.cpp:1536-1654. -/
def appendEgprs (n : Nat) (fin : Bool) (t : Tx) : Tx × AR :=
  let chunk := t.cur.length - t.idx
  let space := n - t.off
  if chunk > space then                                     -- :1557-1570
    ({ t with
        blk := putAt t.blk t.off ((t.cur.drop t.idx).take space)
        idx := t.idx + space
        off := n
        num := t.num + 1 }, .needMore)
  else if chunk = space ∧ fin = true then                   -- :1572-1586
    ({ t with
        blk := putAt t.blk t.off ((t.cur.drop t.idx).take space)
        idx := t.idx + space
        off := n
        num := t.num + 1
        cv := 0 }, .filled)
  else if chunk = space then                                -- :1588-1601
    ({ t with
        blk := putAt t.blk t.off ((t.cur.drop t.idx).take space)
        idx := t.idx + space
        off := n
        num := t.num + 1 }, .needMore)
  else                                                      -- :1606-1653
    let b1 := openGap t.blk t.num t.off
    let b2 := b1.set t.num (chunk % 128 * 2 + 1)
    let b3 := onPrev t.num (fun b => b &&& 0xfe) b2
    let t' : Tx :=
      { t with
        blk := putAt b3 (t.off + 1) ((t.cur.drop t.idx).take chunk)
        idx := t.idx + chunk
        off := t.off + 1 + chunk
        num := t.num + 1
        e := 0 }
    if fin = false then
      if space - 1 - chunk > 0 then (t', .spaceLeft) else (t', .filled)
    else if space - 1 - chunk > 0 then (liPadding n { t' with cv := 0 }, .filled)
    else ({ t' with cv := 0 }, .filled)

/-- `rlc_data_to_dl_append`, encoding.cpp:1668-1688. -/
def append (edge : Bool) (n : Nat) (fin : Bool) (t : Tx) : Tx × AR :=
  if edge then appendEgprs n fin t else appendGprs n fin t

/-- `llc_put_dummy_frame`, llc.c:50-69. -/
def dummyFrame (req : Nat) : List Nat :=
  [0x43, 0xc0, 0x01, 0x2b, 0x2b, 0x2b] ++ List.replicate (min req 79 - 6) 0x2b

/-- The LLC side of a downlink TBF: the frame being sent, the frames queued behind it
and, as history only, every frame that was ever loaded for sending, in order, with a mark
on the dummy frames the PCU made up itself.
Frames which `llc_queue_dequeue` discards are left out of `queue`; that the queue length
then counted them is covered by the freedom of `fin` in `fill`. -/
structure Llc where
  cur : List Nat
  idx : Nat
  queue : List (List Nat)
  loaded : List (Bool × List Nat)
deriving DecidableEq, Repr

/-- `schedule_next_frame`, tbf_dl.cpp:539-557. -/
def Llc.schedule (s : Llc) : Llc :=
  if s.cur.length ≠ 0 then s
  else match s.queue with
    | [] => s
    | f :: q => { cur := f, idx := 0, queue := q, loaded := s.loaded ++ [(false, f)] }

/-- An RLC data block as handed to transmission: octets and the header fields that matter
for reassembly (`rdbi->e`, `rdbi->cv`). -/
structure Block where
  data : List Nat
  e : Nat
  cv : Nat
deriving DecidableEq, Repr

/-- The loop of `create_new_bsn`, tbf_dl.cpp:597-684.  `fin k` is the value of
`!keep_open(fn)` in the pass with `k` passes of fuel left; `none` is fuel exhaustion
(shown not to happen).  Rate counters, polling requests, FSM events and the copy kept
until the first acknowledgement are not modelled here. -/
def fill (edge : Bool) (n : Nat) (fin : Nat → Bool) : Nat → Tx → Llc → Option (Block × Llc)
  | 0, _, _ => none
  | k + 1, t, s =>
    if s.cur.length = 0 ∧ t.num ≠ 0 then                    -- :612-637
      let isFinal := s.queue.isEmpty && fin k
      let t := if isFinal then { t with cv := 0 } else t
      let t := if edge then liPadding n t else t
      some (⟨t.blk, t.e, t.cv⟩, s)
    else
      let s := if s.cur.length = 0 then                     -- :645
          let d := dummyFrame (n - t.off - 1)
          { s with
              cur := d
              idx := 0
              loaded := s.loaded ++ [(true, d)] }
        else s
      let isFinal := s.queue.isEmpty && fin k               -- :652
      let (t', ar) := append edge n isFinal { t with
        cur := s.cur
        idx := s.idx }
      if ar = .needMore then                                -- :660
        some (⟨t'.blk, t'.e, t'.cv⟩, { s with
          cur := t'.cur
          idx := t'.idx })
      else
        let s := ({ s with
          cur := []
          idx := 0 } : Llc).schedule                        -- :675, :683
        if ar = .spaceLeft then fill edge n fin k t' s
        else some (⟨t'.blk, t'.e, t'.cv⟩, s)

/-- `create_new_bsn`, tbf_dl.cpp:559-694, for a coding scheme with `n` data octets; the
block is pre-filled with 0x2b by `prepare` (rlc.cpp:32-42). -/
def createBlock (edge : Bool) (n : Nat) (fin : Nat → Bool) (s : Llc) : Option (Block × Llc) :=
  fill edge n fin (n + 2)
    { blk := List.replicate n 0x2b, off := 0, num := 0, e := 1, cv := 15, cur := [], idx := 0 }
    s.schedule

/-! ## The block reader -/

/-- `LENGTH_TO_END`, decoding.cpp:32. -/
def toEnd : Nat := 255

/-- One entry of `Decoding::RlcData` before offsets are assigned: length, is_complete. -/
abbrev Ext := Nat × Bool

/-- Outcome of parsing: `ok` with the entries (`none` when the caller passed no array,
decoding.cpp:60, 150), the read position and every index of `data` that was read, or an
error code with the indices read so far. -/
inductive Parsed
  | ok (chunks : List Ext) (offs : Nat) (reads : List Nat)
  | err (reads : List Nat)
deriving DecidableEq, Repr

def Parsed.reads : Parsed → List Nat
  | .ok _ _ r => r
  | .err r => r

/-- `parse_extensions_egprs`, decoding.cpp:38-112.  `mem` is memory from `data` on,
`len` is `data_len`; `cap = none` is `chunks == NULL`, otherwise `some chunks_size`.
The first argument is fuel; `len + 2` passes always suffice, as `*offs` grows by one in
each pass and the check at :49 stops at `len + 1`. -/
def parseEgprs (mem : Nat → Nat) (len : Nat) (last : Bool) (cap : Option Nat) :
    Nat → Nat → List Ext → List Nat → Parsed
  | 0, _, _, rd => .err rd
  | k + 1, offs, acc, rd =>
    if offs > len then .err rd
    else
      let b := mem offs
      let e := b % 2
      let li := b / 2
      let rd := rd ++ [offs]
      let offs := offs + 1
      match cap with
      | none => if e = 0 then parseEgprs mem len last cap k offs acc rd else .ok acc offs rd
      | some c =>
        if acc.length = c then .err rd
        else if li = 127 ∧ e = 1 ∧ ¬ (li = 0 ∧ acc.length = 0) then .ok acc offs rd
        else if li = 0 ∧ acc.length ≠ 0 then .err rd
        else
          let acc := acc ++ [(li, true)]
          if e = 1 then
            if acc.length = c then .err rd
            else .ok (acc ++ [(toEnd, last)]) offs rd
          else parseEgprs mem len last cap k offs acc rd

/-- `parse_extensions_gprs`, decoding.cpp:114-186. -/
def parseGprs (mem : Nat → Nat) (len : Nat) (last : Bool) (cap : Option Nat) :
    Nat → Nat → List Ext → List Nat → Parsed
  | 0, _, _, rd => .err rd
  | k + 1, offs, acc, rd =>
    if offs > len then .err rd
    else
      let b := mem offs
      let li := b / 4
      let e := if li = 0 then 1 else b % 2
      let m := if li = 0 then 0 else b / 2 % 2
      let rd := rd ++ [offs]
      let offs := offs + 1
      if m = 0 ∧ e = 0 then .ok [] offs rd
      else
        match cap with
        | none => if e = 0 then parseGprs mem len last cap k offs acc rd else .ok acc offs rd
        | some c =>
          if acc.length = c then .err rd
          else
            let acc := acc ++ [(if li = 0 then toEnd else li, decide (li ≠ 0) || last)]
            if e = 1 ∧ m = 1 then
              if acc.length = c then .err rd
              else .ok (acc ++ [(toEnd, last)]) offs rd
            else if e = 0 then parseGprs mem len last cap k offs acc rd
            else .ok acc offs rd

/-- A piece of an LLC frame inside a block: offset, length, is_complete
(`Decoding::RlcData`). -/
structure Piece where
  offset : Nat
  length : Nat
  complete : Bool
deriving DecidableEq, Repr

/-- The LLC loop, decoding.cpp:267-288; `none` is -EINVAL. -/
def place (len : Nat) : Nat → List Ext → Option (List Piece)
  | _, [] => some []
  | offs, (l, c) :: rest =>
    if l = toEnd ∧ offs = len then some []
    else
      let l := if l = toEnd then len - offs else l
      if offs + l > len then none
      else (place len (offs + l) rest).map (⟨offs, l, c⟩ :: ·)

/-- The header fields `rlc_data_from_ul_data` looks at. -/
structure Hdr where
  e : Nat
  cv : Nat
  ti : Bool
  pi : Bool
deriving DecidableEq, Repr

/-- Result: pieces (or error) together with every index of the block that was read while
parsing. -/
structure Decoded where
  pieces : Option (List Piece)
  reads : List Nat
deriving DecidableEq, Repr

/-- `rlc_data_from_ul_data`, decoding.cpp:188-289.  `cap = none` is the call without an
array made for the TLLI (tbf_ul.cpp:342), `cap = some 16` the one made for reassembly
(tbf_ul.cpp:174).  The TLLI value itself is not modelled, only that its octets are read. -/
def fromUl (edge : Bool) (mem : Nat → Nat) (len : Nat) (h : Hdr) (cap : Option Nat) : Decoded :=
  let last := decide (h.cv = 0)
  let p : Parsed :=
    if h.e ≠ 0 then
      match cap with
      | none => .ok [] 0 []
      | some 0 => .err []
      | some _ => .ok [(toEnd, last)] 0 []
    else if edge then parseEgprs mem len last cap (len + 2) 0 [] []
    else parseGprs mem len last cap (len + 2) 0 [] []
  match p with
  | .err rd => ⟨none, rd⟩
  | .ok ch offs rd =>
    if h.ti = true ∧ offs + 4 > len then ⟨none, rd⟩
    else
      let rd := if h.ti then rd ++ [offs, offs + 1, offs + 2, offs + 3] else rd
      let offs := if h.ti then offs + 4 else offs
      if h.pi then ⟨none, rd⟩
      else match cap with
        | none => ⟨some [], rd⟩
        | some _ => ⟨place len offs ch, rd⟩

/-- LLC reassembly: the frame under construction (`m_llc`) and the frames sent to the SGSN. -/
structure Asm where
  acc : List Nat
  out : List (List Nat)
deriving DecidableEq, Repr

/-- One pass of the loop of `assemble_forward_llc`, tbf_ul.cpp:179-202; `llc_append_frame`
(llc.c:78-83) has no bounds check, so the list just grows: see C17. -/
def Asm.piece (a : Asm) (bytes : List Nat) (complete : Bool) : Asm :=
  let acc := a.acc ++ bytes
  if complete then ⟨[], a.out ++ [acc]⟩ else ⟨acc, a.out⟩

/-- The octets of a piece. -/
def Piece.bytes (mem : Nat → Nat) (p : Piece) : List Nat :=
  (List.range p.length).map (fun i => mem (p.offset + i))

/-- `assemble_forward_llc`, tbf_ul.cpp:161-205: a block that cannot be parsed
(negative `num_frames`) is dropped. -/
def Asm.block (a : Asm) (edge : Bool) (mem : Nat → Nat) (len : Nat) (h : Hdr) : Asm :=
  match (fromUl edge mem len h (some 16)).pieces with
  | none => a
  | some ps => ps.foldl (fun a p => a.piece (p.bytes mem) p.complete) a

/-- Memory holding a block's octets (what follows the block is arbitrary: `junk`). -/
def memOf (data : List Nat) (junk : Nat → Nat) (i : Nat) : Nat :=
  (data[i]?).getD (junk i)

end Verif.Seg
