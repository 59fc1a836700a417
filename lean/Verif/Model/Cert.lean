import Verif.Prelude.Crypto
import Verif.Prelude.Base64
import Verif.Prelude.Utf8
import Verif.Prelude.Der

/-!
# Certificates

X.509 parsing (`cryptography.x509.load_der_x509_certificate`) is not modelled: a certificate is the
record of everything the code reads from the parsed object.  Certificates whose extensions cannot be
parsed (duplicate or malformed extensions, which make `cert.extensions` raise) are out of scope.
-/

namespace Sigstore

/-- object identifiers -/
abbrev Oid := List Nat

/-- the kinds of general name the code distinguishes (`x509.RFC822Name`, `UniformResourceIdentifier`,
`OtherName`); any other kind is `other` -/
inductive GeneralName where
  | rfc822 (value : Str)
  | uri (value : Str)
  | otherName (typeId : Oid) (value : Bytes)
  | other (tag : Nat)
deriving DecidableEq, Repr

/-- `x509.BasicConstraints` with its criticality -/
structure BasicConstraints where
  critical : Bool
  ca : Bool
deriving DecidableEq, Repr

/-- the bits of `x509.KeyUsage` the code reads -/
structure KeyUsage where
  digitalSignature : Bool
  keyCertSign : Bool
deriving DecidableEq, Repr

/-- `LogEntryType` of `cryptography.x509.certificate_transparency` -/
inductive SctEntryType where
  | x509Certificate | preCertificate
deriving DecidableEq, Repr

/-- numeric value of a `LogEntryType` -/
def SctEntryType.value : SctEntryType → Nat
  | .x509Certificate => 0
  | .preCertificate => 1

/-- `x509.certificate_transparency.SignedCertificateTimestamp`.  The timestamp is the 64 bit number of
milliseconds of the wire format, which `cryptography` turns into a `datetime`. -/
structure Sct where
  version : UInt8
  timestamp : Nat
  entryType : SctEntryType
  logId : Bytes
  extensionBytes : Bytes
  /-- `signature_hash_algorithm`; `none` is any algorithm outside SHA-2 -/
  hashAlgorithm : Option HashAlg
  signature : Bytes
deriving DecidableEq, Repr

/-- extended key usages -/
inductive Eku where
  | codeSigning
  | certificateTransparency
  | other (oid : Oid)
deriving DecidableEq, Repr

/-- A parsed certificate. -/
structure Cert where
  der : Bytes
  /-- `tbs_precertificate_bytes` -/
  tbsPrecert : Bytes
  isV3 : Bool
  pubKey : PubKey
  /-- `isinstance(cert.signature_algorithm_parameters, padding.PKCS1v15)` -/
  sigParamsPkcs1 : Bool
  notBefore : Time
  notAfter : Time
  basicConstraints : Option BasicConstraints
  keyUsage : Option KeyUsage
  eku : Option (List Eku)
  san : Option (List GeneralName)
  scts : Option (List Sct)
  /-- unrecognised extensions: OID and raw value -/
  exts : List (Oid × Bytes)
  /-- whether `cert.verify_directly_issued_by(cert)` succeeds -/
  selfIssued : Bool
deriving DecidableEq, Repr

/-- `cert.extensions.get_extension_for_oid(oid).value.value` for unrecognised extensions; `none` stands
for `ExtensionNotFound` -/
def Cert.ext? (cert : Cert) (oid : Oid) : Option Bytes :=
  match cert.exts.find? (fun e => e.1 = oid) with
  | none => none
  | some e => some e.2

/-- split into lines of `n` characters -/
def chunks (n : Nat) : Nat → Str → List Str
  | 0, _ => []
  | fuel + 1, s => if s = [] then [] else s.take n :: chunks n fuel (s.drop n)

/-- `cert.public_bytes(Encoding.PEM)`, RFC 7468: base64 of the DER in lines of 64 characters -/
def pemText (der : Bytes) : Str :=
  let b := b64Encode der
  "-----BEGIN CERTIFICATE-----\n".toList ++ ((chunks 64 b.length b).map (· ++ ['\n'])).flatten ++
    "-----END CERTIFICATE-----\n".toList

/-- `base64_encode_pem_cert` (`/repo/sigstore/_utils.py:120-127`); PEM text is ASCII -/
def base64EncodePemCert (cert : Cert) : Str := b64Encode (utf8 (pemText cert.der))

theorem chunks_flatten (n : Nat) (hn : 0 < n) : ∀ (fuel : Nat) (s : Str), s.length ≤ fuel →
    (chunks n fuel s).flatten = s := by
  intro fuel
  induction fuel with
  | zero => intro s h; simp at h; simp [h, chunks]
  | succ f ih =>
    intro s h
    rw [chunks]
    split
    · rename_i hs; simp [hs]
    · rename_i hs
      have : 0 < s.length := List.length_pos_iff.2 hs
      rw [List.flatten_cons, ih _ (by simp; omega), List.take_append_drop]

theorem b64Encode_no_newline (bs : Bytes) : '\n' ∉ b64Encode bs := by
  have hc : ∀ n, n < 64 → b64Char n ≠ '\n' := by decide
  intro h
  rcases b64Encode_chars bs _ h with h | ⟨n, hn, h⟩
  · revert h; decide
  · exact hc n hn h.symm

theorem filter_newline_map (ls : List Str) (h : ∀ l ∈ ls, '\n' ∉ l) :
    ((ls.map (· ++ ['\n'])).flatten).filter (· ≠ '\n') = ls.flatten := by
  induction ls with
  | nil => rfl
  | cons l ls ih =>
    rw [List.map_cons, List.flatten_cons, List.filter_append, ih (fun x hx => h x (List.mem_cons_of_mem _ hx)),
      List.filter_append]
    have hl : l.filter (· ≠ '\n') = l := by
      rw [List.filter_eq_self]
      intro c hc
      have := h l (List.mem_cons_self ..)
      simp only [decide_eq_true_eq]
      rintro rfl; exact this hc
    rw [hl]; simp

theorem pemText_injective : Function.Injective pemText := by
  intro a b h
  unfold pemText at h
  have h := List.append_cancel_right h
  have h := List.append_cancel_left h
  have h := congrArg (fun l => l.filter (· ≠ '\n')) h
  have hc : ∀ d : Bytes, ∀ l ∈ chunks 64 (b64Encode d).length (b64Encode d), '\n' ∉ l := by
    intro d l hl hn
    have : '\n' ∈ (chunks 64 (b64Encode d).length (b64Encode d)).flatten := List.mem_flatten.2 ⟨l, hl, hn⟩
    rw [chunks_flatten 64 (by omega) _ _ (Nat.le_refl _)] at this
    exact b64Encode_no_newline d this
  rw [filter_newline_map _ (hc a), filter_newline_map _ (hc b), chunks_flatten 64 (by omega) _ _ (Nat.le_refl _),
    chunks_flatten 64 (by omega) _ _ (Nat.le_refl _)] at h
  exact b64Encode_injective h

theorem base64EncodePemCert_inj {a b : Cert} (h : base64EncodePemCert a = base64EncodePemCert b) : a.der = b.der :=
  pemText_injective (utf8_injective (b64Encode_injective h))

end Sigstore
