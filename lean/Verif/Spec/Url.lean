import Verif.Prelude.Utf8
import Mathlib.Data.List.Forall2

/-!
# URLs and forms

RFC 3986 as far as it is needed to say what a URL points to; the `application/x-www-form-urlencoded` format (WHATWG URL
standard, section 5.1); base64url without padding (RFC 4648, section 5) and proof keys (RFC 7636).
-/

namespace Sigstore.Spec

/-! ## URLs -/

/-- the start of a URL: the scheme and the authority -/
structure Origin where
  scheme : Str
  authority : Str

/-- A web origin: `http` or `https`, and an authority of printable ASCII characters.  (IPv6 literals are left out.) -/
def Origin.WF (o : Origin) : Prop :=
  (o.scheme = "http".toList ∨ o.scheme = "https".toList) ∧ o.authority ≠ [] ∧
    ∀ c ∈ o.authority, 32 < c.toNat ∧ c.toNat < 127 ∧ c ≠ '/' ∧ c ≠ '?' ∧ c ≠ '#' ∧ c ≠ '[' ∧ c ≠ ']'

/-- `https://example.com` -/
def Origin.text (o : Origin) : Str := o.scheme ++ "://".toList ++ o.authority

/-- A segment of a path: not empty, not `.` or `..`, without delimiters and line breaks. -/
def IsSegment (s : Str) : Prop :=
  s ≠ [] ∧ s ≠ ".".toList ∧ s ≠ "..".toList ∧
    ∀ c ∈ s, c ≠ '/' ∧ c ≠ '?' ∧ c ≠ '#' ∧ c ≠ '\t' ∧ c ≠ '\r' ∧ c ≠ '\n'

/-- `/a/b` -/
def pathText (segments : List Str) : Str := segments.flatMap fun s => '/' :: s

/-- What may follow the authority: a path, a query, a fragment, or nothing. -/
def FollowsAuthority (rest : Str) : Prop :=
  rest = [] ∨ ∃ c t, rest = c :: t ∧ (c = '/' ∨ c = '?' ∨ c = '#')

/-- The query of a URL: what is between the first `?` and the fragment. -/
def QueryOf (url query : Str) : Prop :=
  ∃ before rest, url = before ++ '?' :: query ++ rest ∧ '?' ∉ before ∧ '#' ∉ before ∧ '#' ∉ query ∧
    (rest = [] ∨ ∃ f, rest = '#' :: f)

/-! ## Forms -/

/-- value of a hexadecimal digit -/
def hexDigitValue (c : Char) : Option Nat :=
  if '0' ≤ c ∧ c ≤ '9' then some (c.toNat - 48)
  else if 'a' ≤ c ∧ c ≤ 'f' then some (c.toNat - 87)
  else if 'A' ≤ c ∧ c ≤ 'F' then some (c.toNat - 55)
  else none

/-- The bytes that a text in a form stands for: `+` is a space, `%` and two hex digits a byte. -/
def formBytes : Str → Bytes
  | [] => []
  | [c] => if c = '+' then [32] else utf8 [c]
  | [c, d] => (if c = '+' then [32] else utf8 [c]) ++ formBytes [d]
  | c :: d :: e :: rest =>
    if c = '+' then 32 :: formBytes (d :: e :: rest)
    else if c = '%' then
      match hexDigitValue d, hexDigitValue e with
      | some x, some y => UInt8.ofNat (16 * x + y) :: formBytes rest
      | _, _ => utf8 [c] ++ formBytes (d :: e :: rest)
    else utf8 [c] ++ formBytes (d :: e :: rest)

/-- the text, if the bytes are UTF-8 -/
def formText (s : Str) : Option Str := utf8Decode (formBytes s)

/-- `piece` is `name=value`, each part encoded. -/
def IsField (piece : Str) (field : Str × Str) : Prop :=
  ∃ n v, piece = n ++ '=' :: v ∧ '=' ∉ n ∧ formText n = some field.1 ∧ formText v = some field.2

/-- The fields that a form stands for: its pieces between `&` are the fields, in order. -/
def IsForm (form : Str) (fields : List (Str × Str)) : Prop :=
  ∃ pieces : List Str, form = (pieces.intersperse ['&']).flatten ∧ (∀ p ∈ pieces, '&' ∉ p) ∧
    List.Forall₂ IsField pieces fields

/-! ## Proof keys -/

/-- the base64url alphabet -/
def base64urlChar (n : Nat) : Char :=
  if n < 26 then Char.ofNat (65 + n) else if n < 52 then Char.ofNat (71 + n) else if n < 62 then Char.ofNat (n - 4)
  else if n = 62 then '-' else '_'

/-- the number whose big-endian bytes these are -/
def bigEndianValue (b : Bytes) : Nat := b.foldl (fun n x => 256 * n + x.toNat) 0

/-- `t` is the base64url text of `b` without padding: as many characters as needed for the bits, which are the digits in
base 64 of the bits with zeros appended. -/
def IsBase64Url (b : Bytes) (t : Str) : Prop :=
  t.length = (8 * b.length + 5) / 6 ∧
    ∀ i (h : i < t.length),
      t[i] = base64urlChar (bigEndianValue b * 2 ^ (6 * t.length - 8 * b.length) / 64 ^ (t.length - 1 - i) % 64)

/-- RFC 7636, section 4.1: 43 to 128 unreserved characters -/
def IsCodeVerifier (v : Str) : Prop :=
  43 ≤ v.length ∧ v.length ≤ 128 ∧
    ∀ c ∈ v, ('A' ≤ c ∧ c ≤ 'Z') ∨ ('a' ≤ c ∧ c ≤ 'z') ∨ ('0' ≤ c ∧ c ≤ '9') ∨ c = '-' ∨ c = '.' ∨ c = '_' ∨ c = '~'

end Sigstore.Spec
