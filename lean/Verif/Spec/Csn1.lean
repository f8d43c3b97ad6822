import Verif.Model.Csn1
/-!
# What a CSN.1 table says

The bits of the message a table describes for given values of the members, the members that are in it, and when
values are valid. Written from the meaning of the constructs (3GPP TS 24.007 annex B), not from the interpreters.
-/

namespace Verif.Csn1

open Verif.Bits (put)

/-- Octets or other elements `k`, …, `k + cnt - 1` of an array. -/
def elems (σ : Data) (n : Nat) (q : Path) (cnt : Nat) : List Bool :=
  (List.range cnt).flatMap fun k => put n (σ (k :: q))

/-- A bitmap of `n` bits in octets, the last one holds the remainder. -/
def leftBits (σ : Data) (n : Nat) (q : Path) : List Bool :=
  elems σ 8 q (n / 8) ++ put (n % 8) (σ (n / 8 :: q))

/-- A bitmap of `n` bits in octets, the first one holds the remainder if there is one. -/
def rightBits (σ : Data) (n : Nat) (q : Path) : List Bool :=
  if n % 8 = 0 then elems σ 8 q (n / 8)
  else put (n % 8) (σ (0 :: q)) ++ (List.range (n / 8)).flatMap fun k => put 8 (σ ((k + 1) :: q))

mutual
/-- Bits of one item. -/
def bitsItem (σ : Data) : Item → Path → List Bool
  | .bit f, p => put 1 (σ (f :: p))
  | .null, _ => []
  | .uint n f _, p => put n (σ (f :: p))
  | .uintOffset n f off, p => put n (σ (f :: p) - off)
  | .uintArray n f cnt _, p => elems σ n (f :: p) cnt
  | .typeArray d f cnt _, p => (List.range cnt).flatMap fun k => bitsItems σ d 0 (k :: f :: p)
  | .varTArray d f cf _, p => (List.range (σ (cf :: p))).flatMap fun k => bitsItems σ d 0 (k :: f :: p)
  | .bitmap n f _, p => elems σ 8 (f :: p) (n / 8)
  | .type d f _, p => bitsItems σ d 0 (f :: p)
  | .choice f alts, p => bitsAlts σ alts (σ (f :: p)) p
  | .serialize n fs d, p => put n (bitsItems σ d 0 (fs ++ p)).length ++ bitsItems σ d 0 (fs ++ p)
  | .union n f els, p => put n (σ (f :: p)) ++ bitsUnion σ els (σ (f :: p)) p
  | .varBitmap f cf _, p => rightBits σ (σ (cf :: p)) (f :: p)
  | .leftVarBmp f cf _, p => leftBits σ (σ (cf :: p)) (f :: p)
  | .leftVarBmp1 f cf _, p => leftBits σ (σ (cf :: p)) (f :: p)
  | .padding, _ => []
  | .varArray f cf _, p => elems σ 8 (f :: p) (σ (cf :: p))
  | .recArray n f cf _, p => ((List.range (σ (cf :: p))).flatMap fun k => true :: put n (σ (k :: f :: p))) ++ [false]
  | .recTArray d f cf _, p => ((List.range (σ (cf :: p))).flatMap fun k => true :: bitsItems σ d 0 (k :: f :: p)) ++ [false]
  | .recTArray1 d f cf _, p => bitsItems σ d 0 (0 :: f :: p) ++ ((List.range (σ (cf :: p) - 1)).flatMap fun k => true :: bitsItems σ d 0 ((k + 1) :: f :: p)) ++ [false]
  | .fixed n v, _ => put n v
  | .trap, _ => []

/-- Bits of a table, `skip` items left out. -/
def bitsItems (σ : Data) : Items → Nat → Path → List Bool
  | .nil, _, _ => []
  | .cons _ is, skip + 1, p => bitsItems σ is skip p
  | .opt _ _ _ _ is, skip + 1, p => bitsItems σ is skip p
  | .cons i is, 0, p => bitsItem σ i p ++ bitsItems σ is 0 p
  | .opt f _ _ skip is, 0, p => put 1 (σ (f :: p)) ++ bitsItems σ is (if σ (f :: p) = 0 then skip else 0) p

/-- Bits of alternative `k`, with its selector. -/
def bitsAlts (σ : Data) : Alts → Nat → Path → List Bool
  | .nil, _, _ => []
  | .cons bits value i _, 0, p => put bits value ++ bitsItem σ i p
  | .cons _ _ _ as, k + 1, p => bitsAlts σ as k p

/-- Bits of element `k` of a union. -/
def bitsUnion (σ : Data) : Items → Nat → Path → List Bool
  | .nil, _, _ => []
  | .opt _ _ _ _ _, _, _ => []
  | .cons i is, k, p => if k = 0 || is.isEnd then bitsItem σ i p else bitsUnion σ is (k - 1) p
end

mutual
/-- Members in an item. -/
def hasItem (σ : Data) : Item → Path → Path → Prop
  | .bit f, p, q => q = f :: p
  | .null, _, _ => False
  | .uint _ f _, p, q => q = f :: p
  | .uintOffset _ f _, p, q => q = f :: p
  | .uintArray _ f cnt _, p, q => ∃ k, k < cnt ∧ q = k :: f :: p
  | .typeArray d f cnt _, p, q => ∃ k, k < cnt ∧ hasItems σ d 0 (k :: f :: p) q
  | .varTArray d f cf _, p, q => ∃ k, k < σ (cf :: p) ∧ hasItems σ d 0 (k :: f :: p) q
  | .bitmap n f _, p, q => ∃ k, k < n / 8 ∧ q = k :: f :: p
  | .type d f _, p, q => hasItems σ d 0 (f :: p) q
  | .choice f alts, p, q => q = f :: p ∨ hasAlts σ alts (σ (f :: p)) p q
  | .serialize _ fs d, p, q => hasItems σ d 0 (fs ++ p) q
  | .union _ f els, p, q => q = f :: p ∨ hasUnion σ els (σ (f :: p)) p q
  | .varBitmap f cf _, p, q => ∃ k, k < (σ (cf :: p) + 7) / 8 ∧ q = k :: f :: p
  | .leftVarBmp f cf _, p, q => ∃ k, k < (σ (cf :: p) + 7) / 8 ∧ q = k :: f :: p
  | .leftVarBmp1 f cf _, p, q => q = cf :: p ∨ ∃ k, k < (σ (cf :: p) + 7) / 8 ∧ q = k :: f :: p
  | .padding, _, _ => False
  | .varArray f cf _, p, q => ∃ k, k < σ (cf :: p) ∧ q = k :: f :: p
  | .recArray _ f cf _, p, q => q = cf :: p ∨ ∃ k, k < σ (cf :: p) ∧ q = k :: f :: p
  | .recTArray d f cf _, p, q => q = cf :: p ∨ ∃ k, k < σ (cf :: p) ∧ hasItems σ d 0 (k :: f :: p) q
  | .recTArray1 d f cf _, p, q => q = cf :: p ∨ ∃ k, k < σ (cf :: p) ∧ hasItems σ d 0 (k :: f :: p) q
  | .fixed _ _, _, _ => False
  | .trap, _, _ => False

/-- Members in a table. -/
def hasItems (σ : Data) : Items → Nat → Path → Path → Prop
  | .nil, _, _, _ => False
  | .cons _ is, skip + 1, p, q => hasItems σ is skip p q
  | .opt _ _ _ _ is, skip + 1, p, q => hasItems σ is skip p q
  | .cons i is, 0, p, q => hasItem σ i p q ∨ hasItems σ is 0 p q
  | .opt f _ _ skip is, 0, p, q => q = f :: p ∨ hasItems σ is (if σ (f :: p) = 0 then skip else 0) p q

/-- Members in an alternative. -/
def hasAlts (σ : Data) : Alts → Nat → Path → Path → Prop
  | .nil, _, _, _ => False
  | .cons _ _ i _, 0, p, q => hasItem σ i p q
  | .cons _ _ _ as, k + 1, p, q => hasAlts σ as k p q

/-- Members in an element of a union. -/
def hasUnion (σ : Data) : Items → Nat → Path → Path → Prop
  | .nil, _, _, _ => False
  | .opt _ _ _ _ _, _, _, _ => False
  | .cons i is, k, p, q => if k = 0 || is.isEnd then hasItem σ i p q else hasUnion σ is (k - 1) p q
end

mutual
/-- Values fit the fields. -/
def fitsItem (σ : Data) : Item → Path → Prop
  | .bit f, p => σ (f :: p) < 2
  | .null, _ => True
  | .uint n f _, p => σ (f :: p) < 2 ^ n
  | .uintOffset n f off, p => off ≤ σ (f :: p) ∧ σ (f :: p) < 2 ^ n + off ∧ σ (f :: p) < 256
  | .uintArray n f cnt _, p => ∀ k, k < cnt → σ (k :: f :: p) < 2 ^ n
  | .typeArray d f cnt _, p => ∀ k, k < cnt → fitsItems σ d (k :: f :: p)
  | .varTArray d f cf size, p => σ (cf :: p) ≤ size ∧ ∀ k, k < σ (cf :: p) → fitsItems σ d (k :: f :: p)
  | .bitmap n f _, p => ∀ k, k < n / 8 → σ (k :: f :: p) < 256
  | .type d f _, p => fitsItems σ d (f :: p)
  | .choice f alts, p => fitsAlts σ alts (σ (f :: p)) p
  | .serialize n fs d, p => fitsItems σ d (fs ++ p) ∧ 0 < (bitsItems σ d 0 (fs ++ p)).length ∧ (bitsItems σ d 0 (fs ++ p)).length < 2 ^ n ∧ n ≤ 8
  | .union n f els, p => σ (f :: p) < 2 ^ n ∧ fitsUnion σ els (σ (f :: p)) p
  | .varBitmap f cf size, p => (σ (cf :: p) + 7) / 8 ≤ size ∧ (∀ k, k < (σ (cf :: p) + 7) / 8 → σ (k :: f :: p) < 256) ∧ (σ (cf :: p) % 8 ≠ 0 → σ (0 :: f :: p) < 2 ^ (σ (cf :: p) % 8))
  | .leftVarBmp f cf size, p => (σ (cf :: p) + 7) / 8 ≤ size ∧ (∀ k, k < σ (cf :: p) / 8 → σ (k :: f :: p) < 256) ∧ (σ (cf :: p) % 8 ≠ 0 → σ (σ (cf :: p) / 8 :: f :: p) < 2 ^ (σ (cf :: p) % 8))
  | .leftVarBmp1 f cf size, p => σ (cf :: p) < 256 ∧ (σ (cf :: p) + 7) / 8 ≤ size ∧ (∀ k, k < σ (cf :: p) / 8 → σ (k :: f :: p) < 256) ∧ (σ (cf :: p) % 8 ≠ 0 → σ (σ (cf :: p) / 8 :: f :: p) < 2 ^ (σ (cf :: p) % 8))
  | .padding, _ => True
  | .varArray f cf size, p => σ (cf :: p) ≤ size ∧ ∀ k, k < σ (cf :: p) → σ (k :: f :: p) < 256
  | .recArray n f cf size, p => σ (cf :: p) ≤ size ∧ σ (cf :: p) < 256 ∧ ∀ k, k < σ (cf :: p) → σ (k :: f :: p) < 2 ^ n
  | .recTArray d f cf size, p => σ (cf :: p) ≤ size ∧ σ (cf :: p) < 256 ∧ ∀ k, k < σ (cf :: p) → fitsItems σ d (k :: f :: p)
  | .recTArray1 d f cf size, p => 0 < σ (cf :: p) ∧ σ (cf :: p) ≤ size ∧ σ (cf :: p) < 256 ∧ ∀ k, k < σ (cf :: p) → fitsItems σ d (k :: f :: p)
  | .fixed n v, _ => v < 2 ^ n
  | .trap, _ => False

/-- Values fit the fields, also those that are left out. -/
def fitsItems (σ : Data) : Items → Path → Prop
  | .nil, _ => True
  | .cons i is, p => fitsItem σ i p ∧ fitsItems σ is p
  | .opt f _ _ _ is, p => σ (f :: p) < 2 ∧ fitsItems σ is p

/-- Values fit the fields of an alternative. -/
def fitsAlts (σ : Data) : Alts → Nat → Path → Prop
  | .nil, _, _ => False
  | .cons bits value i _, 0, p => value < 2 ^ bits ∧ fitsItem σ i p
  | .cons _ _ _ as, k + 1, p => fitsAlts σ as k p

/-- Values fit the fields of an element of a union. -/
def fitsUnion (σ : Data) : Items → Nat → Path → Prop
  | .nil, _, _ => False
  | .opt _ _ _ _ _, _, _ => False
  | .cons i is, k, p => if k = 0 || is.isEnd then fitsItem σ i p else fitsUnion σ is (k - 1) p
end

end Verif.Csn1
