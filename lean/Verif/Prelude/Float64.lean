/-!
# Rounding to binary64

Positive rationals rounded to 53 significant bits, ties to even (IEEE 754 binary64 without the exponent
limits, which the values here never reach).  A rounded value is represented by its numerator over the fixed
denominator `2^200`; all values the code computes are above `2^-140`.
-/

namespace Sigstore

/-- `n / d` rounded to the nearest natural number, ties to even -/
def roundHalfEven (n d : Nat) : Nat :=
  let q := n / d
  let r := n % d
  if 2 * r < d then q
  else if d < 2 * r then q + 1
  else if q % 2 = 0 then q else q + 1

/-- the binary64 value nearest to `n / d`, as numerator over `2^200` -/
def f64 (n d : Nat) : Nat :=
  let e := Nat.log2 (n * 2 ^ 200 / d) - 52
  roundHalfEven (n * 2 ^ 200) (d * 2 ^ e) * 2 ^ e

/-- truncation of such a value to a natural number (Python `int(x)`) -/
def f64Trunc (v : Nat) : Nat := v / 2 ^ 200

/-! ## Error bounds -/

theorem roundHalfEven_le (n d : Nat) (hd : 0 < d) : 2 * (roundHalfEven n d * d) ≤ 2 * n + d := by
  have h := Nat.div_add_mod n d
  have hm := Nat.mod_lt n hd
  have hc : n / d * d = d * (n / d) := Nat.mul_comm ..
  unfold roundHalfEven
  dsimp only
  split
  · omega
  · split
    · rw [Nat.add_mul]; omega
    · split
      · omega
      · rw [Nat.add_mul]; omega

theorem le_roundHalfEven (n d : Nat) (hd : 0 < d) : 2 * n ≤ 2 * (roundHalfEven n d * d) + d := by
  have h := Nat.div_add_mod n d
  have hm := Nat.mod_lt n hd
  have hc : n / d * d = d * (n / d) := Nat.mul_comm ..
  unfold roundHalfEven
  dsimp only
  split
  · omega
  · split
    · rw [Nat.add_mul]; omega
    · split
      · omega
      · rw [Nat.add_mul]; omega

/-- a number strictly closer than half a unit to `m` rounds to `m` -/
theorem roundHalfEven_eq {n d m : Nat} (h1 : 2 * n < 2 * (m * d) + d) (h2 : 2 * (m * d) < 2 * n + d) :
    roundHalfEven n d = m := by
  have hd : 0 < d := by omega
  have a := roundHalfEven_le n d hd
  have b := le_roundHalfEven n d hd
  generalize roundHalfEven n d = r at a b
  rcases Nat.lt_trichotomy r m with h | h | h
  · have : (r + 1) * d ≤ m * d := Nat.mul_le_mul_right d h
    rw [Nat.add_mul] at this; omega
  · exact h
  · have : (m + 1) * d ≤ r * d := Nat.mul_le_mul_right d h
    rw [Nat.add_mul] at this; omega

theorem roundHalfEven_scale (n d x : Nat) (hx : 0 < x) : roundHalfEven (n * x) (d * x) = roundHalfEven n d := by
  unfold roundHalfEven
  rw [Nat.mul_div_mul_right _ _ hx, Nat.mul_mod_mul_right]
  dsimp only
  have e1 : (2 * (n % d * x) < d * x) ↔ 2 * (n % d) < d := by
    rw [← Nat.mul_assoc]; exact Nat.mul_lt_mul_right hx
  have e2 : (d * x < 2 * (n % d * x)) ↔ d < 2 * (n % d) := by
    rw [← Nat.mul_assoc]; exact Nat.mul_lt_mul_right hx
  simp only [e1, e2]

theorem log2_eq {n k : Nat} (h1 : 2 ^ k ≤ n) (h2 : n < 2 ^ (k + 1)) : Nat.log2 n = k := by
  have hn : n ≠ 0 := by have := Nat.two_pow_pos k; omega
  have a := (Nat.log2_lt hn).2 h2
  have b := (Nat.le_log2 hn).2 h1
  omega

end Sigstore
