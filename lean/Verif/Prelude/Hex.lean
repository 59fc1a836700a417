import Verif.Prelude.Basic

/-!
# Hexadecimal text: Python `bytes.hex()` and `bytes.fromhex()`
-/

namespace Sigstore

/-- lower-case hex digit of a number below 16 -/
def hexDigit (n : Nat) : Char :=
  if n < 10 then Char.ofNat (48 + n) else Char.ofNat (87 + n)

/-- value of a hex digit (either case), as accepted by `bytes.fromhex` -/
def hexVal (c : Char) : Option Nat :=
  let n := c.toNat
  if 48 ≤ n ∧ n ≤ 57 then some (n - 48)
  else if 97 ≤ n ∧ n ≤ 102 then some (n - 87)
  else if 65 ≤ n ∧ n ≤ 70 then some (n - 55)
  else none

/-- Python `b.hex()` -/
def hexEncode : Bytes → Str
  | [] => []
  | b :: bs => hexDigit (b.toNat / 16) :: hexDigit (b.toNat % 16) :: hexEncode bs

/-- C `isspace` in the "C" locale, as used by `bytes.fromhex` to skip blanks between bytes -/
def isAsciiSpace (c : Char) : Bool :=
  c.toNat = 32 || (9 ≤ c.toNat && c.toNat ≤ 13)

/-- Python `bytes.fromhex(s)`; `none` stands for `ValueError`.  Blanks are skipped before each pair of
digits. -/
def hexDecode : Str → Option Bytes
  | [] => some []
  | [c] => if isAsciiSpace c then some [] else none
  | c :: d :: rest =>
    if isAsciiSpace c then hexDecode (d :: rest)
    else
      match hexVal c, hexVal d with
      | some a, some b => (hexDecode rest).map (UInt8.ofNat (16 * a + b) :: ·)
      | _, _ => none

theorem hexVal_hexDigit : ∀ n, n < 16 → hexVal (hexDigit n) = some n := by decide

theorem isAsciiSpace_hexDigit : ∀ n, n < 16 → isAsciiSpace (hexDigit n) = false := by decide

theorem hexDigit_inj {a b : Nat} (ha : a < 16) (hb : b < 16) (h : hexDigit a = hexDigit b) : a = b := by
  have h1 := hexVal_hexDigit a ha
  rw [h, hexVal_hexDigit b hb] at h1
  exact (Option.some.inj h1).symm

/-- hex decoding inverts hex encoding -/
theorem hexDecode_hexEncode (bs : Bytes) : hexDecode (hexEncode bs) = some bs := by
  induction bs with
  | nil => rfl
  | cons b bs ih =>
    have hb : b.toNat < 256 := b.toNat_lt
    have h1 : b.toNat / 16 < 16 := by omega
    have h2 : b.toNat % 16 < 16 := by omega
    rw [hexEncode, hexDecode, isAsciiSpace_hexDigit _ h1, hexVal_hexDigit _ h1, hexVal_hexDigit _ h2, ih]
    simp only [Bool.false_eq_true, if_false, Option.map_some, Option.some.injEq, List.cons.injEq, and_true]
    rw [show 16 * (b.toNat / 16) + b.toNat % 16 = b.toNat by omega]
    exact UInt8.ofNat_toNat

theorem hexEncode_injective : Function.Injective hexEncode := by
  intro a b h
  have := hexDecode_hexEncode a
  rw [h, hexDecode_hexEncode] at this
  exact (Option.some.inj this).symm

theorem length_hexEncode (bs : Bytes) : (hexEncode bs).length = 2 * bs.length := by
  induction bs with
  | nil => rfl
  | cons b bs ih => simp only [hexEncode, List.length_cons, ih]; omega

end Sigstore
