import Verif.Prelude.Basic

/-!
# Base64 as implemented by CPython's `binascii`
-/

namespace Sigstore

/-- the `n`-th character of the standard alphabet -/
def b64Char (n : Nat) : Char :=
  if n < 26 then Char.ofNat (65 + n)
  else if n < 52 then Char.ofNat (71 + n)
  else if n < 62 then Char.ofNat (n - 4)
  else if n = 62 then '+' else '/'

/-- position of a character in the standard alphabet -/
def b64Val (c : Char) : Option Nat :=
  let n := c.toNat
  if 65 ≤ n ∧ n ≤ 90 then some (n - 65)
  else if 97 ≤ n ∧ n ≤ 122 then some (n - 71)
  else if 48 ≤ n ∧ n ≤ 57 then some (n + 4)
  else if n = 43 then some 62
  else if n = 47 then some 63
  else none

/-- Python `base64.b64encode(b).decode()` -/
def b64Encode : Bytes → Str
  | [] => []
  | [a] => [b64Char (a.toNat / 4), b64Char (a.toNat % 4 * 16), '=', '=']
  | [a, b] =>
    [b64Char (a.toNat / 4), b64Char (a.toNat % 4 * 16 + b.toNat / 16), b64Char (b.toNat % 16 * 4), '=']
  | a :: b :: c :: rest =>
    b64Char (a.toNat / 4) :: b64Char (a.toNat % 4 * 16 + b.toNat / 16) ::
      b64Char (b.toNat % 16 * 4 + c.toNat / 64) :: b64Char (c.toNat % 64) :: b64Encode rest

/-- The main loop of CPython's non-strict `binascii.a2b_base64`: `quad` is the position in the current
group of four, `left` the bits left over, `pads` the number of `=` seen since the last data character.
Bits that CPython joins with `|` are disjoint, so they are added here.
`none` stands for `binascii.Error`. -/
def a2bBase64 (quad left pads : Nat) : Str → Option Bytes
  | [] => if quad = 0 then some [] else none
  | c :: cs =>
    if c = '=' then
      if quad ≥ 2 ∧ quad + (pads + 1) ≥ 4 then some []
      else a2bBase64 quad left (if quad ≥ 2 then pads + 1 else pads) cs
    else
      match b64Val c with
      | none => a2bBase64 quad left pads cs
      | some v =>
        match quad with
        | 0 => a2bBase64 1 v 0 cs
        | 1 => (a2bBase64 2 (v % 16) 0 cs).map (UInt8.ofNat (left * 4 + v / 16) :: ·)
        | 2 => (a2bBase64 3 (v % 4) 0 cs).map (UInt8.ofNat (left * 16 + v / 4) :: ·)
        | _ => (a2bBase64 0 0 0 cs).map (UInt8.ofNat (left * 64 + v) :: ·)

/-- Python `base64.b64decode(s)` for a `str` argument: non-ASCII text is a `ValueError`, then the
lenient decoder runs. -/
def b64Decode (s : Str) : Py Bytes :=
  if s.any (fun c => 128 ≤ c.toNat) then .error .valueError
  else
    match a2bBase64 0 0 0 s with
    | some b => .ok b
    | none => .error .binasciiError

theorem b64Val_b64Char : ∀ n, n < 64 → b64Val (b64Char n) = some n := by decide

theorem b64Char_ne_pad : ∀ n, n < 64 → b64Char n ≠ '=' := by decide

theorem b64Char_ascii : ∀ n, n < 64 → (b64Char n).toNat < 128 := by decide

theorem a2bBase64_char0 {v : Nat} (hv : v < 64) (left pads : Nat) (cs : Str) :
    a2bBase64 0 left pads (b64Char v :: cs) = a2bBase64 1 v 0 cs := by
  rw [a2bBase64, if_neg (b64Char_ne_pad v hv), b64Val_b64Char v hv]
  rfl

theorem a2bBase64_char1 {v : Nat} (hv : v < 64) (left pads : Nat) (cs : Str) :
    a2bBase64 1 left pads (b64Char v :: cs) =
      (a2bBase64 2 (v % 16) 0 cs).map (UInt8.ofNat (left * 4 + v / 16) :: ·) := by
  rw [a2bBase64, if_neg (b64Char_ne_pad v hv), b64Val_b64Char v hv]
  rfl

theorem a2bBase64_char2 {v : Nat} (hv : v < 64) (left pads : Nat) (cs : Str) :
    a2bBase64 2 left pads (b64Char v :: cs) =
      (a2bBase64 3 (v % 4) 0 cs).map (UInt8.ofNat (left * 16 + v / 4) :: ·) := by
  rw [a2bBase64, if_neg (b64Char_ne_pad v hv), b64Val_b64Char v hv]
  rfl

theorem a2bBase64_char3 {v : Nat} (hv : v < 64) (left pads : Nat) (cs : Str) :
    a2bBase64 3 left pads (b64Char v :: cs) =
      (a2bBase64 0 0 0 cs).map (UInt8.ofNat (left * 64 + v) :: ·) := by
  rw [a2bBase64, if_neg (b64Char_ne_pad v hv), b64Val_b64Char v hv]
  rfl

theorem a2bBase64_b64Encode (bs : Bytes) : a2bBase64 0 0 0 (b64Encode bs) = some bs := by
  match bs with
  | [] => rfl
  | [a] =>
    have ha : a.toNat < 256 := a.toNat_lt
    rw [b64Encode, a2bBase64_char0 (by omega), a2bBase64_char1 (by omega),
      show a.toNat / 4 * 4 + a.toNat % 4 * 16 / 16 = a.toNat by omega]
    simp [a2bBase64]
  | [a, b] =>
    have ha : a.toNat < 256 := a.toNat_lt
    have hb : b.toNat < 256 := b.toNat_lt
    rw [b64Encode, a2bBase64_char0 (by omega), a2bBase64_char1 (by omega), a2bBase64_char2 (by omega),
      show a.toNat / 4 * 4 + (a.toNat % 4 * 16 + b.toNat / 16) / 16 = a.toNat by omega,
      show (a.toNat % 4 * 16 + b.toNat / 16) % 16 * 16 + b.toNat % 16 * 4 / 4 = b.toNat by omega]
    simp [a2bBase64]
  | a :: b :: c :: rest =>
    have ha : a.toNat < 256 := a.toNat_lt
    have hb : b.toNat < 256 := b.toNat_lt
    have hc : c.toNat < 256 := c.toNat_lt
    rw [b64Encode, a2bBase64_char0 (by omega), a2bBase64_char1 (by omega), a2bBase64_char2 (by omega),
      a2bBase64_char3 (by omega), a2bBase64_b64Encode rest,
      show a.toNat / 4 * 4 + (a.toNat % 4 * 16 + b.toNat / 16) / 16 = a.toNat by omega,
      show (a.toNat % 4 * 16 + b.toNat / 16) % 16 * 16 + (b.toNat % 16 * 4 + c.toNat / 64) / 4 = b.toNat by omega,
      show (b.toNat % 16 * 4 + c.toNat / 64) % 4 * 64 + c.toNat % 64 = c.toNat by omega]
    simp

/-- characters produced by the encoder: the alphabet and the padding sign -/
theorem b64Encode_chars (bs : Bytes) : ∀ c ∈ b64Encode bs, c = '=' ∨ ∃ n, n < 64 ∧ c = b64Char n := by
  match bs with
  | [] => intro c h; simp [b64Encode] at h
  | [a] =>
    have ha : a.toNat < 256 := a.toNat_lt
    intro c h
    simp only [b64Encode, List.mem_cons, List.not_mem_nil, or_false] at h
    rcases h with h | h | h | h
    · exact .inr ⟨_, by omega, h⟩
    · exact .inr ⟨_, by omega, h⟩
    · exact .inl h
    · exact .inl h
  | [a, b] =>
    have ha : a.toNat < 256 := a.toNat_lt
    have hb : b.toNat < 256 := b.toNat_lt
    intro c h
    simp only [b64Encode, List.mem_cons, List.not_mem_nil, or_false] at h
    rcases h with h | h | h | h
    · exact .inr ⟨_, by omega, h⟩
    · exact .inr ⟨_, by omega, h⟩
    · exact .inr ⟨_, by omega, h⟩
    · exact .inl h
  | a :: b :: c :: rest =>
    have ha : a.toNat < 256 := a.toNat_lt
    have hb : b.toNat < 256 := b.toNat_lt
    have hc : c.toNat < 256 := c.toNat_lt
    intro x h
    simp only [b64Encode, List.mem_cons] at h
    rcases h with h | h | h | h | h
    · exact .inr ⟨_, by omega, h⟩
    · exact .inr ⟨_, by omega, h⟩
    · exact .inr ⟨_, by omega, h⟩
    · exact .inr ⟨_, by omega, h⟩
    · exact b64Encode_chars rest x h

theorem b64Encode_ascii (bs : Bytes) : ∀ c ∈ b64Encode bs, c.toNat < 128 := by
  intro c h
  rcases b64Encode_chars bs c h with h | ⟨n, hn, h⟩
  · subst h; decide
  · subst h; exact b64Char_ascii n hn

/-- base64 decoding inverts base64 encoding -/
theorem b64Decode_b64Encode (bs : Bytes) : b64Decode (b64Encode bs) = .ok bs := by
  rw [b64Decode, if_neg, a2bBase64_b64Encode]
  rw [List.any_eq_true]
  rintro ⟨c, hc, h⟩
  have := b64Encode_ascii bs c hc
  simp at h; omega

theorem b64Encode_injective : Function.Injective b64Encode := by
  intro a b h
  have := b64Decode_b64Encode a
  rw [h, b64Decode_b64Encode] at this
  exact (Except.ok.inj this).symm

end Sigstore
