/-! Bit-mask lemmas on natural numbers. -/
namespace Armips.Bits

theorem and_mask (x k : Nat) : x &&& (2 ^ k - 1) = x % 2 ^ k := Nat.and_two_pow_sub_one_eq_mod x k

theorem and_0x1 (x : Nat) : x &&& 0x1 = x % 2 := and_mask x 1
theorem and_0x3 (x : Nat) : x &&& 0x3 = x % 4 := and_mask x 2
theorem and_0x7 (x : Nat) : x &&& 0x7 = x % 8 := and_mask x 3
theorem and_0xF (x : Nat) : x &&& 0xF = x % 16 := and_mask x 4
theorem and_0x1F (x : Nat) : x &&& 0x1F = x % 32 := and_mask x 5
theorem and_0x3F (x : Nat) : x &&& 0x3F = x % 64 := and_mask x 6
theorem and_0x7F (x : Nat) : x &&& 0x7F = x % 128 := and_mask x 7
theorem and_0xFF (x : Nat) : x &&& 0xFF = x % 256 := and_mask x 8
theorem and_0x7FF (x : Nat) : x &&& 0x7FF = x % 2048 := and_mask x 11
theorem and_0xFFFF (x : Nat) : x &&& 0xFFFF = x % 65536 := and_mask x 16
theorem and_0xFFFFFF (x : Nat) : x &&& 0xFFFFFF = x % 16777216 := and_mask x 24
theorem and_0x3FFFFFF (x : Nat) : x &&& 0x3FFFFFF = x % 67108864 := and_mask x 26
theorem and_0xFFFFFFFF (x : Nat) : x &&& 0xFFFFFFFF = x % 4294967296 := and_mask x 32

/-- Disjoint `or` is addition: multiple of `2^k` with something below `2^k`. -/
theorem or_add (k a b : Nat) (h : b < 2 ^ k) : (2 ^ k * a) ||| b = 2 ^ k * a + b :=
  (Nat.two_pow_add_eq_or_of_lt h a).symm

theorem or_add' (k a b : Nat) (h : b < 2 ^ k) : b ||| (2 ^ k * a) = 2 ^ k * a + b := by
  rw [Nat.or_comm]; exact or_add k a b h

/-- `a ||| b = a + b` when `a` is a multiple of `2^k` and `b < 2^k`. -/
theorem or_eq_add_of_dvd {a b : Nat} (k : Nat) (h1 : a % 2 ^ k = 0) (h2 : b < 2 ^ k) : a ||| b = a + b := by
  have : a = 2 ^ k * (a / 2 ^ k) := by
    have := Nat.div_add_mod a (2 ^ k); omega
  rw [this]; exact or_add k _ b h2

theorem shl (x k : Nat) : x <<< k = x * 2 ^ k := Nat.shiftLeft_eq x k
theorem shr (x k : Nat) : x >>> k = x / 2 ^ k := Nat.shiftRight_eq_div_pow x k

end Armips.Bits
