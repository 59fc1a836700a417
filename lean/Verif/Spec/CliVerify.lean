import Verif.Model.CliVerify

/-!
# Specification of `sigstore verify`
-/

namespace Sigstore.Spec

open Sigstore.Trust Sigstore.LogEntry Sigstore.Dsse Sigstore.Cli Sigstore.Tuf

/-- value of a hexadecimal digit of either case -/
inductive HexDigit : Char → Nat → Prop
  | digit (i : Fin 10) : HexDigit ("0123456789".toList.get i) i
  | lower (i : Fin 6) : HexDigit ("abcdef".toList.get i) (10 + i)
  | upper (i : Fin 6) : HexDigit ("ABCDEF".toList.get i) (10 + i)

/-- pairs of hexadecimal digits, with blanks before, between and after pairs -/
inductive HexText : Str → Bytes → Prop
  | nil : HexText [] []
  | blank {c : Char} {s : Str} {d : Bytes} : c ∈ " \t\n\x0b\x0c\r".toList → HexText s d → HexText (c :: s) d
  | byte {c c' : Char} {m n : Nat} {s : Str} {d : Bytes} : HexDigit c m → HexDigit c' n → HexText s d →
      HexText (c :: c' :: s) (UInt8.ofNat (16 * m + n) :: d)

/-- an argument that stands for a digest: `sha256`, any character, and hexadecimal text for 32 bytes -/
def DigestArg (arg : Str) (d : Bytes) : Prop :=
  ∃ c s, arg = "sha256".toList ++ c :: s ∧ HexText s d ∧ d.length = 32

/-- what a positional argument stands for -/
inductive ArgDenotes (fs : Fs) (arg : Str) : VerifyInput → Prop
  | file : fs.isFile (Path.ofStr arg) = true → ArgDenotes fs arg (.file (Path.ofStr arg))
  | digest {d : Bytes} : fs.isFile (Path.ofStr arg) = false → DigestArg arg d → ArgDenotes fs arg (.digest ⟨.sha2_256, d⟩)

/-- the options fit together -/
structure Consistent (args : VerifyArgs) : Prop where
  /-- explicit materials belong to a single input -/
  single : args.certificate ≠ none ∨ args.signature ≠ none ∨ args.bundle ≠ none → args.inputs.length ≤ 1
  /-- a bundle excludes detached materials -/
  exclusive : args.bundle ≠ none → args.certificate = none ∧ args.signature = none
  /-- digests need explicit materials -/
  digests : ∀ h, .digest h ∈ args.inputs → args.bundle ≠ none ∨ (args.certificate ≠ none ∧ args.signature ≠ none)
  /-- detached materials need the network -/
  offline : args.trust.offline = true → args.certificate = none ∧ args.signature = none

/-- a file next to another, named by appending a suffix -/
def Beside (file : Path) (suffix : Str) : Path := file.parent.join (file.name ++ suffix)

/-- the materials an input is verified with -/
inductive MaterialsFor (fs : Fs) (args : VerifyArgs) : VerifyInput → Materials → Prop
  /-- `--bundle` -/
  | explicitBundle {i : VerifyInput} {b : Path} : args.bundle = some b → fs.isFile b = true → MaterialsFor fs args i (.bundled b)
  /-- the bundle next to the file -/
  | foundBundle {p : Path} : args.bundle = none → args.certificate = none → args.signature = none →
      fs.isFile (Beside p ".sigstore.json".toList) = true → fs.isFile (Beside p ".sigstore".toList) = false →
      MaterialsFor fs args (.file p) (.bundled (Beside p ".sigstore.json".toList))
  /-- the bundle with the old name -/
  | foundLegacy {p : Path} : args.bundle = none → args.certificate = none → args.signature = none →
      fs.isFile (Beside p ".sigstore.json".toList) = false → fs.isFile (Beside p ".sigstore".toList) = true →
      MaterialsFor fs args (.file p) (.bundled (Beside p ".sigstore".toList))
  /-- a file with at least one of `--certificate` and `--signature`; the other is found next to the file -/
  | detachedFile {p : Path} : args.bundle = none → args.certificate ≠ none ∨ args.signature ≠ none →
      ¬ (fs.isFile (Beside p ".sigstore.json".toList) = true ∧ fs.isFile (Beside p ".sigstore".toList) = true) →
      fs.isFile (args.certificate.getD (Beside p ".crt".toList)) = true →
      fs.isFile (args.signature.getD (Beside p ".sig".toList)) = true →
      MaterialsFor fs args (.file p)
        (.unbundled (args.certificate.getD (Beside p ".crt".toList)) (args.signature.getD (Beside p ".sig".toList)))
  /-- a digest with both options -/
  | detachedDigest {h : Hashed} {c s : Path} : args.bundle = none → args.certificate = some c → args.signature = some s →
      fs.isFile c = true → fs.isFile s = true → MaterialsFor fs args (.digest h) (.unbundled c s)

/-- the digest of an input -/
inductive DigestOf (c : Crypto) (fs : Fs) : VerifyInput → Hashed → Prop
  | digest {h : Hashed} : DigestOf c fs (.digest h) h
  | file {p : Path} {content : Bytes} : fs.read p = .ok content → DigestOf c fs (.file p) ⟨.sha2_256, c.sha256 content⟩

/-- the bundle that materials give -/
inductive Loads (venv : VerifyEnv) (fs : Fs) (h : Hashed) : Materials → Bundle → Prop
  | bundled {p : Path} {bytes : Bytes} {m : BundleMsg} {b : Bundle} : fs.read p = .ok bytes → venv.parseBundle bytes = .ok m →
      Bundle.init venv.env m = .ok b → Loads venv fs h (.bundled p) b
  | detached {cp sp : Path} {pem : Bytes} {cert : Cert} {text : Str} {sig : Bytes} {entry : LogEntry} {b : Bundle} :
      fs.read cp = .ok pem → venv.loadPem pem = some cert → fs.read sp = .ok (utf8 text) → b64Decode text = .ok sig →
      h.algorithm = .sha2_256 →
      venv.retrieve ⟨"0.0.1".toList, some (b64Encode sig), some (base64EncodePemCert cert),
        some ("sha256".toList, hexEncode h.digest)⟩ = .ok (some entry) →
      Bundle.init venv.env ⟨"application/vnd.dev.sigstore.bundle.v0.3+json".toList, some cert.der, none, [entry], [],
        some ⟨none, sig⟩, none⟩ = .ok b →
      Loads venv fs h (.unbundled cp sp) b

/-- a statement has a subject with this digest -/
def HasSubject (s : StatementInner) (h : Hashed) : Prop :=
  ∃ sub ∈ s.subjects, Dict.get? sub.digest "sha256".toList = some (hexEncode h.digest)

/-- a bundle is accepted for a digest: without an envelope, as a signature of the digest; with one, as an in-toto
attestation with that digest as subject.  A command that prints the statement as text (`decode`) needs it to be text. -/
def Accepted (venv : VerifyEnv) (now : Time) (v : Verifier) (policy : Cert → Py Unit) (decode : Bool) (h : Hashed)
    (b : Bundle) : Prop :=
  (b.inner.dsseEnvelope = none ∧ verifyArtifact venv.env now v (.hashed h) b policy = .ok ()) ∨
  (b.inner.dsseEnvelope ≠ none ∧ ∃ payload inner,
    verifyDsse venv.env now v b policy = .ok ("application/vnd.in-toto+json".toList, payload) ∧
    venv.codec.parse payload = some inner ∧ h.algorithm = .sha2_256 ∧ HasSubject inner h ∧
    (decode = true → ∃ text, payload = utf8 text))

/-- an input is verified with its own materials -/
def InputVerified (venv : VerifyEnv) (fs : Fs) (now : Time) (args : VerifyArgs) (v : Verifier) (policy : Cert → Py Unit)
    (decode : Bool) (i : VerifyInput) : Prop :=
  ∃ m h b, MaterialsFor fs args i m ∧ DigestOf venv.env.crypto fs i h ∧ Loads venv fs h m b ∧
    Accepted venv now v policy decode h b

/-- `verify identity` prints statements as text -/
def PrintsText : VerifyCommand → Bool
  | .identity _ _ => true
  | .github _ => false

/-- where the trust configuration comes from -/
inductive Chosen (args : TrustArgs) : TrustSource → Prop
  | explicitFile {p : Path} : args.trustConfig = some p → Chosen args (.file p)
  | custom {url : Str} : args.trustConfig = none → args.instance_ = some url → url ≠ [] → Chosen args (.tuf url)
  | staging : args.trustConfig = none → args.instance_ = none ∨ args.instance_ = some [] → args.staging = true →
      Chosen args (.tuf "https://tuf-repo-cdn.sigstage.dev".toList)
  | production : args.trustConfig = none → args.instance_ = none ∨ args.instance_ = some [] → args.staging = false →
      Chosen args (.tuf "https://tuf-repo-cdn.sigstore.dev".toList)

end Sigstore.Spec
