import Verif.Prelude.Base64
import Verif.Prelude.Hex
import Verif.Prelude.Utf8
import Verif.Prelude.Decimal

/-!
# C54: lossless encodings
-/

namespace Sigstore.Props

/-- **C54** base64: decoding what was encoded gives the original bytes, for every byte string -/
theorem C54_base64_roundtrip (b : Bytes) : b64Decode (b64Encode b) = .ok b := b64Decode_b64Encode b

/-- **C54** different byte strings have different base64 texts -/
theorem C54_base64_injective : Function.Injective b64Encode := b64Encode_injective

/-- **C54** base64 text is RFC 4648 shaped: a multiple of four characters, long enough for the input -/
theorem C54_base64_length (b : Bytes) : (b64Encode b).length = 4 * ((b.length + 2) / 3) := by
  match b with
  | [] => rfl
  | [_] => simp [b64Encode]
  | [_, _] => simp [b64Encode]
  | a :: b :: c :: rest =>
    rw [b64Encode]
    simp only [List.length_cons, C54_base64_length rest]
    omega

/-- **C54** hex: decoding what was encoded gives the original bytes -/
theorem C54_hex_roundtrip (b : Bytes) : hexDecode (hexEncode b) = some b := hexDecode_hexEncode b

/-- **C54** different byte strings have different hex texts -/
theorem C54_hex_injective : Function.Injective hexEncode := hexEncode_injective

/-- **C54** hex text has two characters per byte, all lower-case hex digits -/
theorem C54_hex_shape (b : Bytes) : (hexEncode b).length = 2 * b.length ∧
    ∀ c ∈ hexEncode b, c ∈ "0123456789abcdef".toList := by
  refine ⟨length_hexEncode b, ?_⟩
  have hd : ∀ n, n < 16 → hexDigit n ∈ "0123456789abcdef".toList := by decide
  induction b with
  | nil => intro c h; simp [hexEncode] at h
  | cons x b ih =>
    intro c h
    have hx : x.toNat < 256 := x.toNat_lt
    rw [hexEncode] at h
    rcases List.mem_cons.1 h with rfl | h
    · exact hd _ (by omega)
    · rcases List.mem_cons.1 h with rfl | h
      · exact hd _ (by omega)
      · exact ih c h

/-- **C54** UTF-8: strict decoding succeeds exactly on encodings, and encoding is injective -/
theorem C54_utf8_exact (b : Bytes) (s : Str) : utf8Decode b = some s ↔ b = utf8 s := utf8Decode_eq_some_iff b s

/-- **C54** different texts have different UTF-8 bytes -/
theorem C54_utf8_injective : Function.Injective utf8 := utf8_injective

/-- concrete values, including padding, the last alphabet characters and multi-byte characters -/
example : b64Encode [0xfb, 0xff, 0xfe, 0] = "+//+AA==".toList ∧ hexEncode [0xde, 0xad, 0x0f] = "dead0f".toList ∧
    utf8 "aé—😀".toList = [0x61, 0xc3, 0xa9, 0xe2, 0x80, 0x94, 0xf0, 0x9f, 0x98, 0x80] ∧
    utf8Decode [0xc0, 0x80] = none ∧ utf8Decode [0xed, 0xa0, 0x80] = none := by decide

end Sigstore.Props
