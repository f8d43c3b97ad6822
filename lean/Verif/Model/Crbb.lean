/-
Model of the compressed EGPRS receive bitmap (CRBB): code tables, decoder tree,
`decompress_crbb`, `compress_rbb`.

Source: /repo/src/egprs_rlc_compression.cpp. The numeric tables below are copied from it.
-/
namespace Verif.Crbb

/-- egprs_rlc_compression.cpp:91-158 `t4_term[0]` -/
def t4TermZero : List Nat := [
  0b0000110111, 0b10, 0b11, 0b010, 0b011, 0b0011, 0b0010, 0b00011, 0b000101, 0b000100,
  0b0000100, 0b0000101, 0b0000111, 0b00000100, 0b00000111, 0b000011000, 0b0000010111,
  0b0000011000, 0b0000001000, 0b00001100111, 0b00001101000, 0b00001101100, 0b00000110111,
  0b00000101000, 0b00000010111, 0b00000011000, 0b000011001010, 0b000011001011,
  0b000011001100, 0b000011001101, 0b000001101000, 0b000001101001, 0b000001101010,
  0b000001101011, 0b000011010010, 0b000011010011, 0b000011010100, 0b000011010101,
  0b000011010110, 0b000011010111, 0b000001101100, 0b000001101101, 0b000011011010,
  0b000011011011, 0b000001010100, 0b000001010101, 0b000001010110, 0b000001010111,
  0b000001100100, 0b000001100101, 0b000001010010, 0b000001010011, 0b000000100100,
  0b000000110111, 0b000000111000, 0b000000100111, 0b000000101000, 0b000001011000,
  0b000001011001, 0b000000101011, 0b000000101100, 0b000001011010, 0b000001100110,
  0b000001100111]

/-- egprs_rlc_compression.cpp:159-225 `t4_term[1]` -/
def t4TermOne : List Nat := [
  0b00110101, 0b000111, 0b0111, 0b1000, 0b1011, 0b1100, 0b1110, 0b1111, 0b10011, 0b10100,
  0b00111, 0b01000, 0b001000, 0b000011, 0b110100, 0b110101, 0b101010, 0b101011, 0b0100111,
  0b0001100, 0b0001000, 0b0010111, 0b0000011, 0b0000100, 0b0101000, 0b0101011, 0b0010011,
  0b0100100, 0b0011000, 0b00000010, 0b00000011, 0b00011010, 0b00011011, 0b00010010,
  0b00010011, 0b00010100, 0b00010101, 0b00010110, 0b00010111, 0b00101000, 0b00101001,
  0b00101010, 0b00101011, 0b00101100, 0b00101101, 0b00000100, 0b00000101, 0b00001010,
  0b00001011, 0b01010010, 0b01010011, 0b01010100, 0b01010101, 0b00100100, 0b00100101,
  0b01011000, 0b01011001, 0b01011010, 0b01011011, 0b01001010, 0b01001011, 0b00110010,
  0b00110011, 0b00110100]

/-- egprs_rlc_compression.cpp:226-227 `t4_term_length[0]` -/
def t4TermLenZero : List Nat := [
  10, 2, 2, 3, 3, 4, 4, 5, 6, 6, 7, 7, 7, 8, 8, 9, 10, 10, 10, 11, 11, 11, 11, 11, 11, 11,
  12, 12, 12, 12, 12, 12, 12, 12, 12, 12, 12, 12, 12, 12, 12, 12, 12, 12, 12, 12, 12, 12,
  12, 12, 12, 12, 12, 12, 12, 12, 12, 12, 12, 12, 12, 12, 12, 12]

/-- egprs_rlc_compression.cpp:228 `t4_term_length[1]` -/
def t4TermLenOne : List Nat := [
  8, 6, 4, 4, 4, 4, 4, 4, 5, 5, 5, 5, 6, 6, 6, 6, 6, 6, 7, 7, 7, 7, 7, 7, 7, 7, 7, 7, 7, 8,
  8, 8, 8, 8, 8, 8, 8, 8, 8, 8, 8, 8, 8, 8, 8, 8, 8, 8, 8, 8, 8, 8, 8, 8, 8, 8, 8, 8, 8, 8,
  8, 8, 8, 8]

/-- egprs_rlc_compression.cpp:237-238 `t4_make_up_length[0]` -/
def t4MakeUpLenZero : List Nat := [
  10, 12, 12, 12, 12, 12, 12, 13, 13, 13, 13, 13, 13, 13, 13]

/-- egprs_rlc_compression.cpp:239 `t4_make_up_length[1]` -/
def t4MakeUpLenOne : List Nat := [
  5, 5, 6, 7, 8, 8, 8, 8, 8, 8, 9, 9, 9, 9, 9]

/-- egprs_rlc_compression.cpp:242 `t4_make_up_ind` -/
def t4MakeUpInd : List Nat := [
  64, 128, 192, 256, 320, 384, 448, 512, 576, 640, 704, 768, 832, 896, 960]

/-- egprs_rlc_compression.cpp:244-261 `t4_make_up[0]` -/
def t4MakeUpZero : List Nat := [
  0b0000001111, 0b000011001000, 0b000011001001, 0b000001011011, 0b000000110011,
  0b000000110100, 0b000000110101, 0b0000001101100, 0b0000001101101, 0b0000001001010,
  0b0000001001011, 0b0000001001100, 0b0000001001101, 0b0000001110010, 0b0000001110011]

/-- egprs_rlc_compression.cpp:262-279 `t4_make_up[1]` -/
def t4MakeUpOne : List Nat := [
  0b11011, 0b10010, 0b010111, 0b0110111, 0b00110110, 0b00110111, 0b01100100, 0b01100101,
  0b01101000, 0b01100111, 0b011001100, 0b011001101, 0b011010010, 0b011010011, 0b011010100]

/-- egprs_rlc_compression.cpp:285-365 `one_run_len_code_list`; a string of `n` binary digits is the pair (n, value) -/
def oneCodes : List (Nat × Nat) := [
  (8, 0b00110101), (6, 0b000111), (4, 0b0111), (4, 0b1000), (4, 0b1011), (4, 0b1100),
  (4, 0b1110), (4, 0b1111), (5, 0b10011), (5, 0b10100), (5, 0b00111), (5, 0b01000),
  (6, 0b001000), (6, 0b000011), (6, 0b110100), (6, 0b110101), (6, 0b101010), (6, 0b101011),
  (7, 0b0100111), (7, 0b0001100), (7, 0b0001000), (7, 0b0010111), (7, 0b0000011),
  (7, 0b0000100), (7, 0b0101000), (7, 0b0101011), (7, 0b0010011), (7, 0b0100100),
  (7, 0b0011000), (8, 0b00000010), (8, 0b00000011), (8, 0b00011010), (8, 0b00011011),
  (8, 0b00010010), (8, 0b00010011), (8, 0b00010100), (8, 0b00010101), (8, 0b00010110),
  (8, 0b00010111), (8, 0b00101000), (8, 0b00101001), (8, 0b00101010), (8, 0b00101011),
  (8, 0b00101100), (8, 0b00101101), (8, 0b00000100), (8, 0b00000101), (8, 0b00001010),
  (8, 0b00001011), (8, 0b01010010), (8, 0b01010011), (8, 0b01010100), (8, 0b01010101),
  (8, 0b00100100), (8, 0b00100101), (8, 0b01011000), (8, 0b01011001), (8, 0b01011010),
  (8, 0b01011011), (8, 0b01001010), (8, 0b01001011), (8, 0b00110010), (8, 0b00110011),
  (8, 0b00110100), (5, 0b11011), (5, 0b10010), (6, 0b010111), (7, 0b0110111),
  (8, 0b00110110), (8, 0b00110111), (8, 0b01100100), (8, 0b01100101), (8, 0b01101000),
  (8, 0b01100111), (9, 0b011001100), (9, 0b011001101), (9, 0b011010010), (9, 0b011010011),
  (9, 0b011010100)]

/-- egprs_rlc_compression.cpp:367-447 `zero_run_len_code_list` -/
def zeroCodes : List (Nat × Nat) := [
  (10, 0b0000110111), (2, 0b10), (2, 0b11), (3, 0b010), (3, 0b011), (4, 0b0011),
  (4, 0b0010), (5, 0b00011), (6, 0b000101), (6, 0b000100), (7, 0b0000100), (7, 0b0000101),
  (7, 0b0000111), (8, 0b00000100), (8, 0b00000111), (9, 0b000011000), (10, 0b0000010111),
  (10, 0b0000011000), (10, 0b0000001000), (11, 0b00001100111), (11, 0b00001101000),
  (11, 0b00001101100), (11, 0b00000110111), (11, 0b00000101000), (11, 0b00000010111),
  (11, 0b00000011000), (12, 0b000011001010), (12, 0b000011001011), (12, 0b000011001100),
  (12, 0b000011001101), (12, 0b000001101000), (12, 0b000001101001), (12, 0b000001101010),
  (12, 0b000001101011), (12, 0b000011010010), (12, 0b000011010011), (12, 0b000011010100),
  (12, 0b000011010101), (12, 0b000011010110), (12, 0b000011010111), (12, 0b000001101100),
  (12, 0b000001101101), (12, 0b000011011010), (12, 0b000011011011), (12, 0b000001010100),
  (12, 0b000001010101), (12, 0b000001010110), (12, 0b000001010111), (12, 0b000001100100),
  (12, 0b000001100101), (12, 0b000001010010), (12, 0b000001010011), (12, 0b000000100100),
  (12, 0b000000110111), (12, 0b000000111000), (12, 0b000000100111), (12, 0b000000101000),
  (12, 0b000001011000), (12, 0b000001011001), (12, 0b000000101011), (12, 0b000000101100),
  (12, 0b000001011010), (12, 0b000001100110), (12, 0b000001100111), (10, 0b0000001111),
  (12, 0b000011001000), (12, 0b000011001001), (12, 0b000001011011), (12, 0b000000110011),
  (12, 0b000000110100), (12, 0b000000110101), (13, 0b0000001101100), (13, 0b0000001101101),
  (13, 0b0000001001010), (13, 0b0000001001011), (13, 0b0000001001100),
  (13, 0b0000001001101), (13, 0b0000001110010), (13, 0b0000001110011)]

/-- The low `len` bits of `v`, most significant first: what `bitvec_write_field(.., v, len)`
of libosmocore writes. -/
def bitsOf (len v : Nat) : List Bool := (List.range len).map fun i => v.testBit (len - 1 - i)

/-! ### Decoder -/

/-- egprs_rlc_compression.cpp:20-24 `egprs_compress_node`; `none` is run_length -1. -/
inductive Tree where
  | nil
  | node (l r : Tree) (run : Option Nat)

/-- egprs_rlc_compression.cpp:64-83: one iteration of `build_codewords`, walk down and
create missing nodes (`create_tree_node`, 30-39), then set the run length. -/
def Tree.insert (run : Nat) : List Bool → Tree → Tree
  | [], .nil => .node .nil .nil (some run)
  | [], .node l r _ => .node l r (some run)
  | b :: bs, .nil =>
    if b then .node .nil (Tree.insert run bs .nil) none else .node (Tree.insert run bs .nil) .nil none
  | b :: bs, .node l r x =>
    if b then .node l (Tree.insert run bs r) x else .node (Tree.insert run bs l) r x

/-- egprs_rlc_compression.cpp:84-91: run length of code word number `idx`. -/
def runOf (idx : Nat) : Nat := if idx < 64 then idx else (idx - 63) * 64

/-- egprs_rlc_compression.cpp:54-92 `build_codewords`. -/
def buildFrom : Nat → List (Nat × Nat) → Tree → Tree
  | _, [], t => t
  | idx, (len, v) :: cs, t => buildFrom (idx + 1) cs (Tree.insert (runOf idx) (bitsOf len v) t)

def build (cs : List (Nat × Nat)) : Tree := buildFrom 0 cs (.node .nil .nil none)

/-- `true` = ones list. -/
def codes (start : Bool) : List (Nat × Nat) := if start then oneCodes else zeroCodes

/-- egprs_rlc_compression.cpp:550-556 `decode_tree_init`. -/
def tree (start : Bool) : Tree := build (codes start)

/-- egprs_rlc_compression.cpp:457-491 `search_runlen`; the list holds the bits from
`bit_pos` to `length`. Result: code word length and run length. -/
def search : Tree → List Bool → Option (Nat × Nat)
  | .nil, _ => none
  | .node _ _ (some run), _ => some (0, run)
  | .node _ _ none, [] => none
  | .node l r none, b :: bs =>
    match search (if b then r else l) bs with
    | none => none
    | some (n, run) => some (n + 1, run)

/-- A libosmocore bit vector: the bits up to `cur_bit`, and its capacity in bits. -/
structure BV where
  bits : List Bool
  cap : Nat

/-- `bitvec_set_bit`: fails without effect when full. -/
def BV.setBit (v : BV) (b : Bool) : BV :=
  if v.bits.length < v.cap then { v with bits := v.bits ++ [b] } else v

/-- `bitvec_write_field(v, &wp, ..)`: sets `cur_bit = wp`, writes bit by bit until full;
`wp` advances only if everything was written. -/
def BV.writeField (v : BV) (wp : Nat) (field : List Bool) : BV × Nat :=
  let l := v.bits.take wp ++ field
  if l.length ≤ v.cap then ({ v with bits := l }, wp + field.length)
  else ({ v with bits := l.take v.cap }, wp)

/-- egprs_rlc_compression.cpp:535-543: write `run` bits of colour `start`, at most 8 at a
time. `fuel ≥ run` iterations suffice. -/
def writeRun (start : Bool) : Nat → Nat → BV × Nat → BV × Nat
  | 0, _, p => p
  | fuel+1, run, (v, wp) =>
    if run = 0 then (v, wp)
    else if run > 8 then writeRun start fuel (run - 8) (v.writeField wp (List.replicate 8 start))
    else v.writeField wp (List.replicate run start)

/-- egprs_rlc_compression.cpp:517-546: main loop of `decompress_crbb`. `rem` are the
compressed bits not yet consumed (`remaining_bmap_len` of them); every iteration consumes
at least one. Second component: `false` for `return -1`. -/
def decompLoop : Nat → Bool → List Bool → BV × Nat → BV × Bool
  | 0, _, _, (v, _) => (v, true)
  | fuel+1, start, rem, (v, wp) =>
    if rem.length = 0 then (v, true)
    else
      match search (tree start) rem with
      | none => (v, false)
      | some (n, run) =>
        decompLoop fuel (if run < 64 then !start else start) (rem.drop n) (writeRun start run run (v, wp))

/-- egprs_rlc_compression.cpp:500-548 `decompress_crbb`. `compress_bmap_len` is an int8;
its value comes from a 7-bit message field (gsm_rlcmac.c:177), so it is never negative. -/
def decompress (start : Bool) (crbb : List Bool) (dest : BV) : BV × Bool :=
  decompLoop crbb.length start crbb (dest, dest.bits.length)

/-! ### Encoder -/

/-- egprs_rlc_compression.cpp:568-591 `compress_bitmap`: the code word written for a run. A
run length of 64 or more without table entry writes nothing. -/
def codeword (start : Bool) (run : Nat) : List Bool :=
  if run ≥ 64 then
    match t4MakeUpInd.idxOf? run with
    | some i =>
      bitsOf ((if start then t4MakeUpLenOne else t4MakeUpLenZero)[i]!)
        ((if start then t4MakeUpOne else t4MakeUpZero)[i]!)
    | none => []
  else
    bitsOf ((if start then t4TermLenOne else t4TermLenZero)[run]!)
      ((if start then t4TermOne else t4TermZero)[run]!)

/-- Encoder result: bits written, `crbb_vec->cur_bit`, and `uclen` before it is stored into
a uint8. -/
structure Enc where
  out : List Bool
  clen : Nat
  uclen : Nat

/-- libosmocore `bitvec_rl_curbit`: number of leading bits equal to `b`. -/
def runLength (b : Bool) (bits : List Bool) : Nat := (bits.takeWhile (· == b)).length

/-- egprs_rlc_compression.cpp:641-687: loop of `compress_rbb`. `bits` are the bits from the
read position on. A run is at least one bit long, which bounds the iterations. -/
def compLoop (maxBits : Nat) : Nat → List Bool → Bool → Enc → Enc
  | 0, _, _, e => e
  | fuel+1, bits, b, e =>
    if bits.length = 0 then e
    else
      let rlen := runLength b bits
      let mk := if rlen ≥ 64 then codeword b (rlen / 64 * 64) else []
      let tm := codeword b (rlen % 64)
      let e' : Enc := { out := e.out ++ mk ++ tm
                        clen := e.clen + mk.length + tm.length
                        uclen := e.uclen + rlen }
      if e'.clen > maxBits then
        -- 682-686: only the terminating code is taken back
        { e' with clen := e'.clen - tm.length, uclen := e'.uclen - rlen }
      else compLoop maxBits fuel (bits.drop rlen) (!b) e'

/-- egprs_rlc_compression.cpp:640, encoding.cpp:1027: starting colour = first bit. -/
def startColor (bits : List Bool) : Bool := bits.headD false

structure CompResult where
  crbb : List Bool
  /-- `*uclen_crbb`, a uint8 (689) -/
  uclen : Nat
  /-- return value (690-695) -/
  gain : Bool

/-- egprs_rlc_compression.cpp:623-696 `compress_rbb`. -/
def compress (maxBits : Nat) (bits : List Bool) : CompResult :=
  let e := compLoop maxBits bits.length bits (startColor bits) { out := [], clen := 0, uclen := 0 }
  { crbb := e.out.take e.clen, uclen := e.uclen % 256, gain := e.clen < e.uclen }

end Verif.Crbb
