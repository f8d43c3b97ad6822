import Verif.Model.BitField
/-!
# The CSN.1 engine

Tables of CSN.1 items and the two interpreters that run over them: the encoder used for control messages the
PCU sends and the decoder used for control messages it receives.

* `csnStreamDecoder`, src/csn1_dec.c:63-1373
* `csnStreamEncoder`, src/csn1_enc.c:46-1260
* the items, src/csn1.h:218-600

The C structure a message is decoded to is modelled as a map from paths to numbers. A path is the list of
members (and array positions) that lead to a scalar, innermost first. Writing outside of an array is a
separate outcome, `spill`. Members of a C union have different paths; that they overlap in memory is not
modelled. The number of bits that remain is an integer, as in the code.

Only the kinds of items that occur in the modelled messages are modelled; `CSN_EXIST`, `CSN_CALLBACK`,
`CSN_VARIABLE_BITMAP_1`, `CSN_RECURSIVE_TARRAY_2` and the `_LH` kinds do not occur.
-/

namespace Verif.Csn1

open Verif.Bits (put)

/-- Where a scalar is stored: members and positions, innermost first. -/
abbrev Path := List Nat

/-- Content of a C structure. -/
abbrev Data := Path → Nat

/-- Assignment to a scalar. -/
def upd (d : Data) (q : Path) (v : Nat) : Data := fun x => if x = q then v else d x

mutual
/-- One entry of a table (src/csn1.h:128-190, macros 218-600). `f` is the member, `size` the declared number
of elements of an array, `orNull` the flag `may_be_null`. -/
inductive Item
  /-- `M_BIT` -/
  | bit (f : Nat)
  /-- `CSN_NULL`: nothing. -/
  | null
  /-- `M_UINT`, `M_UINT_OR_NULL` with `n ≤ 32` bits. -/
  | uint (n f : Nat) (orNull : Bool)
  /-- `M_UINT_OFFSET` with `n ≤ 8` bits. -/
  | uintOffset (n f off : Nat)
  /-- `M_UINT_ARRAY` of `cnt > 0` elements with `n ≤ 8` bits. -/
  | uintArray (n f cnt size : Nat)
  /-- `M_TYPE_ARRAY` -/
  | typeArray (d : Items) (f cnt size : Nat)
  /-- `M_VAR_TARRAY`, `M_VAR_TARRAY_OFFSET`: the count is in member `cf`. -/
  | varTArray (d : Items) (f cf size : Nat)
  /-- `M_BITMAP` of `n ≤ 64` bits. -/
  | bitmap (n f size : Nat)
  /-- `M_TYPE`, `M_TYPE_OR_NULL` -/
  | type (d : Items) (f : Nat) (orNull : Bool)
  /-- `M_CHOICE` -/
  | choice (f : Nat) (alts : Alts)
  /-- `M_SERIALIZE`: `n` bits of length. `fs` is the member, none when it is the structure itself. -/
  | serialize (n : Nat) (fs : List Nat) (d : Items)
  /-- `M_UNION` with the entries that follow it: `n` bits of index. -/
  | union (n f : Nat) (els : Items)
  /-- `M_VAR_BITMAP`, right aligned, length in `cf`. -/
  | varBitmap (f cf size : Nat)
  /-- `M_LEFT_VAR_BMP`, length in `cf`. -/
  | leftVarBmp (f cf size : Nat)
  /-- `M_LEFT_VAR_BMP_1`: all bits that remain, their number is stored in `cf`. -/
  | leftVarBmp1 (f cf size : Nat)
  /-- `M_PADDING_BITS` -/
  | padding
  /-- `M_VAR_ARRAY` of octets, count in `cf`. -/
  | varArray (f cf size : Nat)
  /-- `M_REC_ARRAY` of elements of `n` bits, count stored in `cf`. -/
  | recArray (n f cf size : Nat)
  /-- `M_REC_TARRAY` -/
  | recTArray (d : Items) (f cf size : Nat)
  /-- `M_REC_TARRAY_1` -/
  | recTArray1 (d : Items) (f cf size : Nat)
  /-- `M_FIXED` -/
  | fixed (n v : Nat)
  /-- `CSN_ERROR` -/
  | trap
/-- A table up to `CSN_END`. -/
inductive Items
  | nil
  | cons (i : Item) (is : Items)
  /-- `M_NEXT_EXIST`, `M_NEXT_EXIST_OR_NULL`: `skip` entries are left out if it is 0. `nulls`: all of them
  may be null. -/
  | opt (f : Nat) (orNull nulls : Bool) (skip : Nat) (is : Items)
/-- A table of `CSN_ChoiceElement_t` (src/csn1.h:189-195); `keep_bits` is 0 in all of them. -/
inductive Alts
  | nil
  | cons (bits value : Nat) (i : Item) (as : Alts)
end

/-- Whether the table is at its end. -/
def Items.isEnd : Items → Bool
  | .nil => true
  | _ => false

/-! ## Decoder -/

/-- `remaining_bits_len`, `*readIndex` and the structure. -/
structure S where
  rem : Int
  pos : Nat
  data : Data

/-- Error code, a store outside of an array, or success. -/
inductive R
  | err
  | spill
  | ok (s : S)

/-- Continue after success. -/
def R.bind (r : R) (k : S → R) : R :=
  match r with
  | .err => .err
  | .spill => .spill
  | .ok s => k s

/-- Most significant bit first. -/
def num (l : List Bool) : Nat := l.foldl (fun a b => 2 * a + b.toNat) 0

/-- `bitvec_read_field`: 0, and the position stays, when the field ends behind the vector. -/
def readField (blk : List Bool) (pos n : Nat) : Nat × Nat :=
  if pos + n ≤ blk.length then (num ((blk.drop pos).take n), pos + n) else (0, pos)

/-- Field of `n` bits to `q`, without a look at the number of bits that remain. -/
def store (blk : List Bool) (n : Nat) (q : Path) (s : S) : S :=
  let r := readField blk s.pos n
  ⟨s.rem, r.2, upd s.data q r.1⟩

/-- `cnt` elements of `n` bits to positions `k`, `k + 1`, … of the array at `q`. -/
def storeArray (blk : List Bool) (n : Nat) (q : Path) : (cnt k : Nat) → S → S
  | 0, _, s => s
  | cnt + 1, k, s => storeArray blk n q cnt (k + 1) (store blk n (k :: q) s)

/-- `while (nCount > 0)` over the elements of an array. -/
def loop (size : Nat) (el : Nat → S → R) : (cnt k : Nat) → S → R
  | 0, _, s => .ok s
  | cnt + 1, k, s => if size ≤ k then .spill else (el k s).bind (loop size el cnt (k + 1))

/-- `existNextElement` (csn1_dec.c:48-57): the position moves in any case; no bit there is no element. -/
def nextElement (blk : List Bool) (s : S) : Bool × S :=
  (blk.getD s.pos false, ⟨s.rem - 1, s.pos + 1, s.data⟩)

/-- The loop of `CSN_RECURSIVE_TARRAY` (csn1_dec.c:1180-1228). `fuel` is at least the number of bits that
remain plus one: each round uses one and fails below zero. -/
def recLoop (blk : List Bool) (size : Nat) (el : Nat → S → R) (cq : Path) : (fuel k : Nat) → S → R
  | 0, _, _ => .err
  | fuel + 1, k, s =>
    let x := nextElement blk s
    if x.1 then
      if size < k + 1 then .err
      else (el k x.2).bind fun s => if s.rem < 0 then .err else recLoop blk size el cq fuel (k + 1) s
    else .ok ⟨x.2.rem, x.2.pos, upd x.2.data cq (k % 256)⟩

/-- The loop of `CSN_RECURSIVE_TARRAY_1` (csn1_dec.c:1244-1300). -/
def recLoop1 (blk : List Bool) (size : Nat) (el : Nat → S → R) (cq : Path) : (fuel k : Nat) → S → R
  | 0, _, _ => .err
  | fuel + 1, k, s =>
    if size < k + 1 then .err
    else (el k s).bind fun s =>
      if s.rem < 0 then .err else
      let x := nextElement blk s
      if x.1 then recLoop1 blk size el cq fuel (k + 1) x.2
      else .ok ⟨x.2.rem, x.2.pos, upd x.2.data cq ((k + 1) % 256)⟩

/-- The loop of `CSN_RECURSIVE_ARRAY` (csn1_dec.c:1129-1163), which does not look at the size. -/
def recArrayLoop (blk : List Bool) (n size : Nat) (q cq : Path) : (fuel k : Nat) → S → R
  | 0, _, _ => .err
  | fuel + 1, k, s =>
    let x := nextElement blk s
    if x.1 then
      if size ≤ k then .spill
      else
        let s := store blk n (k :: q) x.2
        let s := { s with rem := s.rem - n }
        if s.rem < 0 then .err else recArrayLoop blk n size q cq fuel (k + 1) s
    else .ok ⟨x.2.rem, x.2.pos, upd x.2.data cq (k % 256)⟩

/-- Left aligned bitmap of `n` bits to the octets at `q` (csn1_dec.c:1003-1040). -/
def storeLeft (blk : List Bool) (n : Nat) (q : Path) (s : S) : S :=
  let s := storeArray blk 8 q (n / 8) 0 s
  if n % 8 = 0 then s else store blk (n % 8) (n / 8 :: q) s

/-- Right aligned bitmap of `n` bits (csn1_dec.c:936-975). -/
def storeRight (blk : List Bool) (n : Nat) (q : Path) (s : S) : S :=
  if n % 8 = 0 then storeArray blk 8 q (n / 8) 0 s
  else storeArray blk 8 q (n / 8) 1 (store blk (n % 8) (0 :: q) s)

mutual
/-- One entry of the table, the cases of the `switch` of `csnStreamDecoder` (csn1_dec.c:81-1360).
Entries of a union: UINT, TYPE, NULL, BIT, UINT_ARRAY, TYPE_ARRAY and
CSN_ERROR occur; for these the inner `switch` does the same as the outer one, apart from the error code. -/
def decItem (blk : List Bool) : Item → Path → S → R
  | .bit f, p, s =>
    if 0 < s.rem then
      let s := store blk 1 (f :: p) s
      .ok { s with rem := s.rem - 1 }
    else .err
  | .null, _, s => .ok s
  | .uint n f orNull, p, s =>
    if n ≤ s.rem then
      let s := store blk n (f :: p) s
      .ok { s with rem := s.rem - n }
    else if orNull then .ok { s with data := upd s.data (f :: p) 0 }
    else .err
  | .uintOffset n f off, p, s =>
    if n ≤ s.rem then
      let r := readField blk s.pos n
      .ok ⟨s.rem - n, r.2, upd s.data (f :: p) ((r.1 + off) % 256)⟩
    else .err
  | .uintArray n f cnt size, p, s =>
    if ((n * cnt : Nat) : Int) ≤ s.rem then
      if size < cnt then .spill
      else
        let s := storeArray blk n (f :: p) cnt 0 s
        .ok { s with rem := s.rem - (n * cnt : Nat) }
    else .err
  | .typeArray d f cnt size, p, s =>
    loop size (fun k s => if s.rem < 0 then .err else decItems blk d 0 (k :: f :: p) s) cnt 0 s
  | .varTArray d f cf size, p, s =>
    loop size (fun k s => if s.rem < 0 then .err else decItems blk d 0 (k :: f :: p) s) (s.data (cf :: p)) 0 s
  | .bitmap n f size, p, s =>
    if n = 0 then .ok s
    else if s.rem < n then .err
    else
      let m := if n ≤ 32 then 4 else 8
      if size < m then .spill
      else
        let s := storeArray blk 8 (f :: p) m 0 s
        .ok { s with rem := s.rem - n }
  | .type d f orNull, p, s =>
    if orNull && s.rem = 0 then .ok s
    else if s.rem < 0 then .err else decItems blk d 0 (f :: p) s
  | .choice f alts, p, s => decAlts blk alts 0 f p s
  | .serialize n fs d, p, s =>
    let r := readField blk s.pos n
    let len := r.1 % 256
    let rem : Int := s.rem - (n : Int)
    let sub : Int := if 0 < len then len else rem
    if sub < 0 then .err
    else (decItems blk d 0 (fs ++ p) ⟨sub, r.2, s.data⟩).bind fun s' =>
      .ok ⟨if 0 < len then rem - len else s'.rem, s'.pos + s'.rem.toNat, s'.data⟩
  | .union n f els, p, s =>
    let r := readField blk s.pos n
    decUnion blk els r.1 p ⟨s.rem - n, r.2, upd s.data (f :: p) r.1⟩
  | .varBitmap f cf size, p, s =>
    let n := s.data (cf :: p)
    let rem : Int := s.rem - (n : Int)
    if n = 0 then .ok s
    else if rem < 0 then .err
    else if size < (n + 7) / 8 then .spill
    else
      let s := storeRight blk n (f :: p) s
      .ok { s with rem := rem }
  | .leftVarBmp f cf size, p, s =>
    let n := s.data (cf :: p)
    let rem : Int := s.rem - (n : Int)
    if n = 0 then .ok s
    else if rem < 0 then .err
    else if size < (n + 7) / 8 then .spill
    else
      let s := storeLeft blk n (f :: p) s
      .ok { s with rem := rem }
  | .leftVarBmp1 f cf size, p, s =>
    let n := s.rem.toNat % 256
    let s := { s with data := upd s.data (cf :: p) n }
    let rem : Int := s.rem - (n : Int)
    if n = 0 then .ok s
    else if rem < 0 then .err
    else if size < (n + 7) / 8 then .spill
    else
      let s := storeLeft blk n (f :: p) s
      .ok { s with rem := rem }
  | .padding, _, s => .ok { s with rem := 0 }
  | .varArray f cf size, p, s =>
    let n := s.data (cf :: p)
    let rem : Int := s.rem - ((8 * n : Nat) : Int)
    if n = 0 then .ok s
    else if rem < 0 then .err
    else if size < n then .spill
    else
      let s := storeArray blk 8 (f :: p) n 0 s
      .ok { s with rem := rem }
  | .recArray n f cf size, p, s => recArrayLoop blk n size (f :: p) (cf :: p) (s.rem.toNat + 2) 0 s
  | .recTArray d f cf size, p, s =>
    recLoop blk size (fun k s => if s.rem < 0 then .err else decItems blk d 0 (k :: f :: p) s) (cf :: p) (s.rem.toNat + 2) 0 s
  | .recTArray1 d f cf size, p, s =>
    recLoop1 blk size (fun k s => if s.rem < 0 then .err else decItems blk d 0 (k :: f :: p) s) (cf :: p) (s.rem.toNat + 2) 0 s
  | .fixed n v, _, s =>
    let r := readField blk s.pos n
    if r.1 = v then .ok ⟨s.rem - n, r.2, s.data⟩ else .err
  | .trap, _, _ => .err

/-- The loop `do … while (remaining_bits_len >= 0)` over the table (csn1_dec.c:79-1372) up to `CSN_END`,
with the number of entries still to skip. -/
def decItems (blk : List Bool) : Items → Nat → Path → S → R
  | .nil, _, _, s => .ok s
  | .cons _ is, skip + 1, p, s => decItems blk is skip p s
  | .opt _ _ _ _ is, skip + 1, p, s => decItems blk is skip p s
  | .opt f orNull nulls skip is, 0, p, s =>
    -- csn1_dec.c:826-873
    if orNull && s.rem = 0 then decItems blk is skip p { s with data := upd s.data (f :: p) 0 }
    else
      let r := readField blk s.pos 1
      let isnull := if r.1 = 1 then (if s.rem = 1 then nulls else false) else true
      let s' : S := ⟨s.rem - 1, r.2, upd s.data (f :: p) (!isnull).toNat⟩
      if s'.rem < 0 then .err
      else decItems blk is (if isnull then skip else 0) p s'
  | .cons i is, 0, p, s =>
    (decItem blk i p s).bind fun s' => if s'.rem < 0 then .err else decItems blk is 0 p s'

/-- `CSN_CHOICE` (csn1_dec.c:403-456): the alternatives in turn. Going back to the start of the selector
also moves when it could not be read. -/
def decAlts (blk : List Bool) : Alts → Nat → Nat → Path → S → R
  | .nil, _, _, _, _ => .err
  | .cons bits value i as, k, f, p, s =>
    let r := readField blk s.pos bits
    if r.1 = value then
      let s' : S := ⟨s.rem - bits, r.2, upd s.data (f :: p) k⟩
      if s'.rem < 0 then .err
      else (decItem blk i p s').bind fun s' => if s'.rem < 0 then .err else .ok s'
    else decAlts blk as (k + 1) f p { s with pos := r.2 - bits }

/-- `CSN_UNION` (csn1_dec.c:498-810): element `k`, the last one when there are fewer. -/
def decUnion (blk : List Bool) : Items → Nat → Path → S → R
  | .nil, _, _, _ => .err
  | .opt _ _ _ _ _, _, _, _ => .err
  | .cons i is, k, p, s => if k = 0 || is.isEnd then decItem blk i p s else decUnion blk is (k - 1) p s
end

/-- A call of `csnStreamDecoder` (csn1_dec.c:63-80). -/
def decode (blk : List Bool) (d : Items) (s : S) : R :=
  if s.rem < 0 then .err else decItems blk d 0 [] s

/-! ## Encoder -/

/-- `remaining_bits_len` and the bits written so far. -/
structure E where
  rem : Int
  out : List Bool

/-- `bitvec_write_field` of the low `n` bits of `v`. Bits behind the end of the vector are lost in the code;
then fewer than 0 bits remain and the encoder fails. -/
def emit (e : E) (n v : Nat) : E := ⟨e.rem - n, e.out ++ put n v⟩

/-- `cnt` elements of `n` bits from positions `k`, `k + 1`, … of the array at `q`. -/
def emitArray (dat : Data) (n : Nat) (q : Path) : (cnt k : Nat) → E → E
  | 0, _, e => e
  | cnt + 1, k, e => emitArray dat n q cnt (k + 1) (emit e n (dat (k :: q)))

/-- `while (nCount > 0)` over the elements of an array. -/
def eloop (el : Nat → E → Option E) : (cnt k : Nat) → E → Option E
  | 0, _, e => some e
  | cnt + 1, k, e => (el k e).bind (eloop el cnt (k + 1))

/-- `CSN_RECURSIVE_ARRAY` (csn1_enc.c:1043-1085). -/
def emitRec (dat : Data) (n : Nat) (q : Path) : (cnt k : Nat) → E → Option E
  | 0, _, e => some (emit e 1 0)
  | cnt + 1, k, e =>
    if e.rem - 1 < 0 then none else emitRec dat n q cnt (k + 1) (emit (emit e 1 1) n (dat (k :: q)))

/-- `CSN_PADDING_BITS` (csn1_enc.c:970-1012): a zero and spare padding up to the next octet, then `0x2b`. -/
def padBits (rem : Nat) : List Bool :=
  put (rem % 8) (if rem % 8 = 0 then 0 else 0x2b % 2 ^ (rem % 8 - 1)) ++ (List.replicate (rem / 8) (put 8 0x2b)).flatten

mutual
/-- One entry of the table, the cases of the `switch` of `csnStreamEncoder` (csn1_enc.c:64-1255), as far as
they occur in the messages the PCU encodes this way; the others are left out. Union: csn1_enc.c:472-515
writes the index and takes the element by what was written. -/
def encItem (dat : Data) : Item → Path → E → Option E
  | .bit f, p, e => if 0 < e.rem then some (emit e 1 (dat (f :: p))) else none
  | .null, _, e => some e
  | .uint n f orNull, p, e =>
    if n ≤ e.rem then some (emit e n (dat (f :: p))) else if orNull then some e else none
  | .uintOffset n f off, p, e =>
    if n ≤ e.rem then some (emit e n ((dat (f :: p) + (2 ^ 32 - off)) % 2 ^ 32)) else none
  | .uintArray n f cnt _, p, e =>
    if ((n * cnt : Nat) : Int) ≤ e.rem then some (emitArray dat n (f :: p) cnt 0 e) else none
  | .typeArray d f cnt _, p, e =>
    eloop (fun k e => if e.rem < 0 then none else encItems dat d 0 (k :: f :: p) e) cnt 0 e
  | .type d f _, p, e => if e.rem < 0 then none else encItems dat d 0 (f :: p) e
  | .choice f alts, p, e => encAlts dat alts (dat (f :: p)) p e
  | .union n f els, p, e => encUnion dat els (dat (f :: p) % 2 ^ n) p (emit e n (dat (f :: p)))
  | .varBitmap f cf _, p, e =>
    let n := dat (cf :: p)
    if n % 8 = 0 then some (emitArray dat 8 (f :: p) (n / 8) 0 e)
    else some (emitArray dat 8 (f :: p) (n / 8) 1 (emit e (n % 8) (dat (0 :: f :: p))))
  | .padding, _, e => if e.rem < 0 then none else some ⟨0, e.out ++ padBits e.rem.toNat⟩
  | .varArray f cf _, p, e => some (emitArray dat 8 (f :: p) (dat (cf :: p)) 0 e)
  | .recArray n f cf _, p, e => emitRec dat n (f :: p) (dat (cf :: p)) 0 e
  | .fixed n v, _, e => some (emit e n v)
  | .trap, _, _ => none
  | _, _, _ => none

/-- The loop over the table (csn1_enc.c:62-1260). -/
def encItems (dat : Data) : Items → Nat → Path → E → Option E
  | .nil, _, _, e => some e
  | .cons _ is, skip + 1, p, e => encItems dat is skip p e
  | .opt _ _ _ _ is, skip + 1, p, e => encItems dat is skip p e
  | .opt f orNull _ skip is, 0, p, e =>
    -- csn1_enc.c:826-857
    if orNull && e.rem = 0 then encItems dat is skip p e
    else
      let e' := emit e 1 (dat (f :: p))
      if e'.rem < 0 then none
      else encItems dat is (if dat (f :: p) = 0 then skip else 0) p e'
  | .cons i is, 0, p, e =>
    (encItem dat i p e).bind fun e' => if e'.rem < 0 then none else encItems dat is 0 p e'

/-- `CSN_CHOICE` (csn1_enc.c:387-436). -/
def encAlts (dat : Data) : Alts → Nat → Path → E → Option E
  | .nil, _, _, _ => none
  | .cons bits value i _, 0, p, e =>
    let e' := emit e bits value
    if e'.rem < 0 then none
    else (encItem dat i p e').bind fun e' => if e'.rem < 0 then none else some e'
  | .cons _ _ _ as, k + 1, p, e => encAlts dat as k p e

/-- The element of a union. -/
def encUnion (dat : Data) : Items → Nat → Path → E → Option E
  | .nil, _, _, _ => none
  | .opt _ _ _ _ _, _, _, _ => none
  | .cons i is, k, p, e => if k = 0 || is.isEnd then encItem dat i p e else encUnion dat is (k - 1) p e
end

end Verif.Csn1
