import Verif.Prelude.Basic

/-!
# Big-endian integers: `struct.pack("!B/H/I/Q")` and `int.from_bytes(.., "big")`
-/

namespace Sigstore

/-- the low `k` bytes of `n`, most significant first -/
def beBytes : Nat → Nat → Bytes
  | 0, _ => []
  | k + 1, n => beBytes k (n / 256) ++ [UInt8.ofNat (n % 256)]

/-- value of a big-endian byte string -/
def beVal (b : Bytes) : Nat := b.foldl (fun a x => 256 * a + x.toNat) 0

theorem length_beBytes (k : Nat) : ∀ n, (beBytes k n).length = k := by
  induction k with
  | zero => intro n; rfl
  | succ k ih => intro n; rw [beBytes, List.length_append, ih]; rfl

theorem beVal_append_singleton (b : Bytes) (x : UInt8) : beVal (b ++ [x]) = 256 * beVal b + x.toNat := by
  simp [beVal, List.foldl_append]

theorem beVal_beBytes (k : Nat) : ∀ n, n < 256 ^ k → beVal (beBytes k n) = n := by
  induction k with
  | zero => intro n h; simp at h; subst h; rfl
  | succ k ih =>
    intro n h
    have h1 : n / 256 < 256 ^ k := by
      rw [Nat.div_lt_iff_lt_mul (by omega)]
      rw [Nat.pow_succ] at h; exact h
    rw [beBytes, beVal_append_singleton, ih _ h1]
    have : (UInt8.ofNat (n % 256)).toNat = n % 256 := by
      simp
    rw [this]; omega

theorem beBytes_injective {k n m : Nat} (hn : n < 256 ^ k) (hm : m < 256 ^ k) (h : beBytes k n = beBytes k m) :
    n = m := by
  rw [← beVal_beBytes k n hn, h, beVal_beBytes k m hm]

theorem eq_nil_or_snoc {α : Type} (l : List α) : l = [] ∨ ∃ i x, l = i ++ [x] := by
  rcases List.eq_nil_or_concat l with h | ⟨i, x, h⟩
  · exact .inl h
  · exact .inr ⟨i, x, by simpa using h⟩

theorem beBytes_beVal (k : Nat) : ∀ b : Bytes, b.length = k → beBytes k (beVal b) = b := by
  induction k with
  | zero => intro b h; cases b with
    | nil => rfl
    | cons _ _ => simp at h
  | succ k ih =>
    intro b h
    rcases eq_nil_or_snoc b with rfl | ⟨i, x, rfl⟩
    · simp at h
    · have hx : x.toNat < 256 := x.toNat_lt
      rw [beVal_append_singleton, beBytes]
      have h1 : (256 * beVal i + x.toNat) / 256 = beVal i := by omega
      have h2 : (256 * beVal i + x.toNat) % 256 = x.toNat := by omega
      rw [h1, h2, ih i (by simpa using h)]
      simp

theorem beVal_lt (b : Bytes) : beVal b < 256 ^ b.length := by
  generalize hk : b.length = k
  induction k generalizing b with
  | zero => cases b with
    | nil => simp [beVal]
    | cons _ _ => simp at hk
  | succ k ih =>
    rcases eq_nil_or_snoc b with rfl | ⟨i, x, rfl⟩
    · simp at hk
    · have hx : x.toNat < 256 := x.toNat_lt
      have := ih i (by simpa using hk)
      rw [beVal_append_singleton, Nat.pow_succ]
      omega

end Sigstore
