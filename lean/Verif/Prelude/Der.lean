import Verif.Prelude.BigEndian
import Verif.Prelude.Utf8

/-!
# DER `UTF8String`: `cryptography.hazmat.asn1.decode_der(str, data)`
-/

namespace Sigstore

/-- DER length octets for lengths below 2^32 (the largest the decoder of `cryptography` reads) -/
def derLen (n : Nat) : Bytes :=
  if n < 128 then [UInt8.ofNat n]
  else if n < 256 then 0x81 :: beBytes 1 n
  else if n < 65536 then 0x82 :: beBytes 2 n
  else if n < 16777216 then 0x83 :: beBytes 3 n
  else 0x84 :: beBytes 4 n

/-- the DER encoding of a `UTF8String` -/
def derUtf8String (s : Str) : Bytes := 0x0C :: derLen (utf8 s).length ++ utf8 s

/-- smallest length that needs `k` extra octets -/
def derMin : Nat → Nat
  | 1 => 128
  | 2 => 256
  | 3 => 65536
  | _ => 16777216

/-- read DER length octets; non-minimal and indefinite forms are rejected -/
def derReadLen : Bytes → Option (Nat × Bytes)
  | [] => none
  | b :: rest =>
    let n := b.toNat
    if n < 0x80 then some (n, rest)
    else
      let k := n - 0x80
      if 1 ≤ k ∧ k ≤ 4 ∧ k ≤ rest.length ∧ derMin k ≤ beVal (rest.take k) then
        some (beVal (rest.take k), rest.drop k)
      else none

/-- `asn1.decode_der(str, data)`: exactly one `UTF8String` element, no trailing data; `none` stands for
the `ValueError` it raises otherwise -/
def derDecodeUtf8String : Bytes → Option Str
  | [] => none
  | tag :: rest =>
    if tag = 0x0C then
      match derReadLen rest with
      | none => none
      | some (n, content) => if content.length = n then utf8Decode content else none
    else none

theorem derReadLen_derLen (n : Nat) (h : n < 4294967296) (rest : Bytes) :
    derReadLen (derLen n ++ rest) = some (n, rest) := by
  unfold derLen
  split
  · rename_i h1
    have : (UInt8.ofNat n).toNat = n := by simp; omega
    simp only [List.cons_append, List.nil_append, derReadLen, this]
    rw [if_pos (by omega)]
  · rename_i h1
    have key : ∀ (b : UInt8) (k : Nat), b.toNat = 0x80 + k → 1 ≤ k → k ≤ 4 → n < 256 ^ k → derMin k ≤ n →
        derReadLen ((b :: beBytes k n) ++ rest) = some (n, rest) := by
      intro b k hb h1 h4 hn hm
      have hl := length_beBytes k n
      have ht : (beBytes k n ++ rest).take k = beBytes k n := List.take_left' hl
      have hd : (beBytes k n ++ rest).drop k = rest := List.drop_left' hl
      have hk : b.toNat - 0x80 = k := by omega
      simp only [List.cons_append, derReadLen, hk, ht, hd, beVal_beBytes k n hn]
      rw [if_neg (by omega), if_pos]
      exact ⟨h1, h4, by simp [hl], hm⟩
    split
    · exact key 0x81 1 rfl (by omega) (by omega) (by omega) (by simp [derMin]; omega)
    · split
      · exact key 0x82 2 rfl (by omega) (by omega) (by omega) (by simp [derMin]; omega)
      · split
        · exact key 0x83 3 rfl (by omega) (by omega) (by omega) (by simp [derMin]; omega)
        · exact key 0x84 4 rfl (by omega) (by omega) (by omega) (by simp [derMin]; omega)

theorem derReadLen_some {b rest : Bytes} {n : Nat} (h : derReadLen b = some (n, rest)) :
    n < 4294967296 ∧ b = derLen n ++ rest := by
  cases b with
  | nil => simp [derReadLen] at h
  | cons x xs =>
    simp only [derReadLen] at h
    split at h
    · rename_i hx
      cases h
      refine ⟨by omega, ?_⟩
      unfold derLen
      rw [if_pos (by omega)]
      simp
    · rename_i hx
      split at h
      · rename_i hc
        obtain ⟨h1, h4, hl, hm⟩ := hc
        generalize hk : x.toNat - 0x80 = k at *
        rw [Option.some.injEq, Prod.mk.injEq] at h
        obtain ⟨rfl, rfl⟩ := h
        have hlen : (xs.take k).length = k := by simp; omega
        have hlt := beVal_lt (xs.take k)
        rw [hlen] at hlt
        have hx' : x = UInt8.ofNat (0x80 + k) := by
          have : x.toNat = 0x80 + k := by omega
          rw [← this]; simp
        have hb : beBytes k (beVal (xs.take k)) = xs.take k := beBytes_beVal k _ hlen
        have hxs : xs.take k ++ xs.drop k = xs := List.take_append_drop k xs
        generalize hv : beVal (xs.take k) = v at *
        have : k = 1 ∨ k = 2 ∨ k = 3 ∨ k = 4 := by omega
        rcases this with rfl | rfl | rfl | rfl
        · simp only [derMin] at hm
          refine ⟨by omega, ?_⟩
          unfold derLen
          rw [if_neg (by omega), if_pos (by omega), hb, hx', List.cons_append, hxs]; rfl
        · simp only [derMin] at hm
          refine ⟨by omega, ?_⟩
          unfold derLen
          rw [if_neg (by omega), if_neg (by omega), if_pos (by omega), hb, hx', List.cons_append, hxs]; rfl
        · simp only [derMin] at hm
          refine ⟨by omega, ?_⟩
          unfold derLen
          rw [if_neg (by omega), if_neg (by omega), if_neg (by omega), if_pos (by omega), hb, hx',
            List.cons_append, hxs]; rfl
        · simp only [derMin] at hm
          refine ⟨by omega, ?_⟩
          unfold derLen
          rw [if_neg (by omega), if_neg (by omega), if_neg (by omega), if_neg (by omega), hb, hx',
            List.cons_append, hxs]; rfl
      · simp at h

/-- decoding succeeds exactly on the DER encodings of strings (of less than 4 GiB) -/
theorem derDecodeUtf8String_iff (b : Bytes) (s : Str) :
    derDecodeUtf8String b = some s ↔ (utf8 s).length < 4294967296 ∧ b = derUtf8String s := by
  constructor
  · intro h
    cases b with
    | nil => simp [derDecodeUtf8String] at h
    | cons t rest =>
      rw [derDecodeUtf8String] at h
      split at h
      · rename_i ht
        subst ht
        split at h
        · simp at h
        · rename_i n content hr
          split at h
          · rename_i hl
            obtain ⟨hn, rfl⟩ := derReadLen_some hr
            have := (utf8Decode_eq_some_iff _ _).1 h
            subst this
            subst hl
            exact ⟨hn, by simp [derUtf8String]⟩
          · simp at h
      · simp at h
  · rintro ⟨hl, rfl⟩
    rw [derUtf8String, List.cons_append, derDecodeUtf8String, if_pos rfl, derReadLen_derLen _ hl]
    simp [utf8Decode_utf8]

end Sigstore
