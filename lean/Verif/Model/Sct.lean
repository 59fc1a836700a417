import Verif.Prelude.BigEndian
import Verif.Prelude.Float64
import Verif.Model.CertUtils
import Verif.Model.Trust

/-!
# Model of `/repo/sigstore/_internal/sct.py`
-/

namespace Sigstore.Sct

open Sigstore.Trust

/-- `struct.unpack("!4B", struct.pack("!I", len(cert_der)))`, the check of the unused byte, and the packing
of the three remaining bytes followed by the data (`sct.py:74-86`) -/
def packOpaque24 (der : Bytes) : Py Bytes :=
  if 2 ^ 32 ≤ der.length then .error .structError
  else
    match beBytes 4 der.length with
    | [unused, len1, len2, len3] =>
      if unused ≠ 0 then .error .verification else .ok ([len1, len2, len3] ++ der)
    | _ => .error .structError

/-- `_pack_signed_entry` (`sct.py:48-88`); the last branch of the code (unknown entry types) cannot be
represented. -/
def packSignedEntry (sct : Sct) (cert : Cert) (issuerKeyId : Option Bytes) : Py Bytes :=
  match sct.entryType with
  | .x509Certificate => packOpaque24 cert.der
  | .preCertificate =>
    match issuerKeyId with
    | none => .error .verification
    | some id =>
      if id.length ≠ 32 then .error .verification
      else match packOpaque24 cert.tbsPrecert with
        | .error e => .error e
        | .ok b => .ok (id ++ b)

/-- `int(timestamp.timestamp() * 1000)` (`sct.py:113,118`) for the aware `datetime` of a whole number of
milliseconds: `timestamp()` divides the integer number of microseconds by `10^6` in binary64, the product
is a binary64 product, `int` truncates. -/
def sctMillis (ms : Nat) : Nat :=
  let seconds := f64 (ms * 1000) 1000000
  f64Trunc (f64 (seconds * 1000) (2 ^ 200))

/-- the last millisecond of year 9999: beyond it `cryptography` cannot make a `datetime` -/
def maxDatetimeMillis : Nat := 253402300799999

/-- `_pack_digitally_signed` (`sct.py:91-126`).  Reading `sct.timestamp` raises `ValueError` beyond year
9999; extensions of more than 65535 bytes make `struct.pack` fail. -/
def packDigitallySigned (sct : Sct) (cert : Cert) (issuerKeyId : Option Bytes) : Py Bytes :=
  match packSignedEntry sct cert issuerKeyId with
  | .error e => .error e
  | .ok signedEntry =>
    if maxDatetimeMillis < sct.timestamp then .error .valueError
    else if 2 ^ 16 ≤ sct.extensionBytes.length then .error .structError
    else .ok ([sct.version] ++ [0] ++ beBytes 8 (sctMillis sct.timestamp) ++ beBytes 2 sct.entryType.value ++
      signedEntry ++ beBytes 2 sct.extensionBytes.length ++ sct.extensionBytes)

/-- `_is_preissuer` (`sct.py:129-136`) -/
def isPreissuer (issuer : Cert) : Bool :=
  match issuer.eku with
  | none => false
  | some usages => usages.contains .certificateTransparency

/-- `_get_issuer_cert` (`sct.py:139-143`) -/
def getIssuerCert (chain : List Cert) : Py Cert :=
  match chain with
  | [] => .error .indexError
  | issuer :: rest =>
    if isPreissuer issuer then
      match rest with
      | [] => .error .indexError
      | issuer' :: _ => .ok issuer'
    else .ok issuer

/-- `_get_signed_certificate_timestamp` (`sct.py:146-167`) -/
def getSct (cert : Cert) : Py Sct :=
  match cert.scts with
  | none => .error .verification
  | some [sct] => .ok sct
  | some _ => .error .verification

/-- `_cert_is_ca` (`sct.py:170-177`): the *result* of `cert_is_ca` is ignored, only its exception counts -/
def sctCertIsCa (cert : Cert) : Py Bool :=
  match certIsCa cert with
  | .ok _ => .ok true
  | .error e => if e.isVerificationError then .ok false else .error e

/-- the issuer key id of `verify_sct` (`sct.py:196-215`) -/
def issuerKeyIdFor (c : Crypto) (sct : Sct) (chain : List Cert) : Py (Option Bytes) :=
  match sct.entryType with
  | .x509Certificate => .ok none
  | .preCertificate =>
    match getIssuerCert chain with
    | .error e => .error e
    | .ok issuer =>
      match sctCertIsCa issuer with
      | .error e => .error e
      | .ok false => .error .verification
      | .ok true =>
        if issuer.pubKey.isRsa || issuer.pubKey.isEc then .ok (some (pubKeyId c issuer.pubKey))
        else .error .verification

/-- `verify_sct` (`sct.py:180-235`) -/
def verifySct (c : Crypto) (cert : Cert) (chain : List Cert) (kr : Keyring) : Py Unit :=
  match getSct cert with
  | .error e => .error e
  | .ok sct =>
    match issuerKeyIdFor c sct chain with
    | .error e => .error e
    | .ok issuerKeyId =>
      match packDigitallySigned sct cert issuerKeyId with
      | .error e => .error e
      | .ok digitallySigned =>
        if sct.hashAlgorithm ≠ some .sha256 then .error .verification
        else match kr.verify c sct.logId sct.signature digitallySigned with
          | .ok () => .ok ()
          | .error e => if e.isVerificationError then .error .verification else .error e

end Sigstore.Sct
