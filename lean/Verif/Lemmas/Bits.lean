/-! Bit-mask facts used to read C expressions as arithmetic. -/
namespace Verif.Bits

/-- `x & (2^k - 1)` is `x % 2^k`. -/
theorem and_mask (x k : Nat) : x &&& (2^k - 1) = x % 2^k := Nat.and_two_pow_sub_one_eq_mod x k

/-- rlc_window.h:68-71 with `sns = 128`. -/
theorem and_127 (x : Nat) : x &&& 127 = x % 128 := and_mask x 7
/-- rlc_window.h:68-71 with `sns = 2048`. -/
theorem and_2047 (x : Nat) : x &&& 2047 = x % 2048 := and_mask x 11
/-- rlc.h:119-122 `mod_sns_half()`. -/
theorem and_1023 (x : Nat) : x &&& 1023 = x % 1024 := and_mask x 10

end Verif.Bits
