/-!
# Fields of bits

`bitvec_write_field` and `bitvec_read_field` of libosmocore on a list of bits, first bit first.
-/

namespace Verif.Bits

/-- What `bitvec_write_field(.., v, w)` writes: the low `w` bits of `v`, most significant first. -/
def put : Nat → Nat → List Bool
  | 0, _ => []
  | w + 1, v => v.testBit w :: put w v

/-- `bitvec_read_field(.., w)`: value and rest; `none` past the end. -/
def get : Nat → List Bool → Option (Nat × List Bool)
  | 0, l => some (0, l)
  | _ + 1, [] => none
  | w + 1, b :: l => (get w l).map fun x => ((if b then 2 ^ w else 0) + x.1, x.2)

/-- Octets, most significant bit first. -/
def putOctets (l : List Nat) : List Bool := l.flatMap (put 8)

/-- `n` octets. -/
def getOctets : Nat → List Bool → Option (List Nat × List Bool)
  | 0, l => some ([], l)
  | n + 1, l =>
    match get 8 l with
    | none => none
    | some (o, l) => (getOctets n l).map fun x => (o :: x.1, x.2)

end Verif.Bits
