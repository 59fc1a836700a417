import Verif.Model.Moving
import Verif.Spec.CliVerify

/-!
# Specification of `sigstore verify` while others change files
-/

namespace Sigstore.Spec

open Sigstore.Trust Sigstore.LogEntry Sigstore.Dsse Sigstore.Cli Sigstore.Tuf

/-- the files that were read, in order -/
def FilesRead : List Moving.Access → List Path
  | [] => []
  | .read p :: rest => p :: FilesRead rest
  | .test _ :: rest => FilesRead rest

/-- reading the file gave this content during the run -/
def WasRead (fs : Nat → Fs) (log : List Moving.Access) (p : Path) (content : Bytes) : Prop :=
  ∃ n, log[n]? = some (.read p) ∧ (fs n).read p = .ok content

/-- the digest of what was read of an input -/
inductive DigestRead (c : Crypto) (fs : Nat → Fs) (log : List Moving.Access) : VerifyInput → Hashed → Prop
  | digest {h : Hashed} : DigestRead c fs log (.digest h) h
  | file {p : Path} {content : Bytes} : WasRead fs log p content → DigestRead c fs log (.file p) ⟨.sha2_256, c.sha256 content⟩

/-- the bundle that was read, or made from the certificate and the signature that were read -/
inductive BundleRead (venv : VerifyEnv) (fs : Nat → Fs) (log : List Moving.Access) (h : Hashed) : Materials → Bundle → Prop
  | bundled {p : Path} {bytes : Bytes} {m : BundleMsg} {b : Bundle} : WasRead fs log p bytes → venv.parseBundle bytes = .ok m →
      Bundle.init venv.env m = .ok b → BundleRead venv fs log h (.bundled p) b
  | detached {cp sp : Path} {pem : Bytes} {cert : Cert} {text : Str} {sig : Bytes} {entry : LogEntry} {b : Bundle} :
      WasRead fs log cp pem → venv.loadPem pem = some cert → WasRead fs log sp (utf8 text) → b64Decode text = .ok sig →
      h.algorithm = .sha2_256 →
      venv.retrieve ⟨"0.0.1".toList, some (b64Encode sig), some (base64EncodePemCert cert),
        some ("sha256".toList, hexEncode h.digest)⟩ = .ok (some entry) →
      Bundle.init venv.env ⟨"application/vnd.dev.sigstore.bundle.v0.3+json".toList, some cert.der, none, [entry], [],
        some ⟨none, sig⟩, none⟩ = .ok b →
      BundleRead venv fs log h (.unbundled cp sp) b

/-- the materials that options or names give to an input -/
inductive NamedMaterials (certificate signature bundle : Option Path) : VerifyInput → Materials → Prop
  | explicitBundle {i : VerifyInput} {b : Path} : bundle = some b → NamedMaterials certificate signature bundle i (.bundled b)
  | foundBundle {p : Path} : bundle = none → certificate = none → signature = none →
      NamedMaterials certificate signature bundle (.file p) (.bundled (Beside p ".sigstore.json".toList))
  | foundLegacy {p : Path} : bundle = none → certificate = none → signature = none →
      NamedMaterials certificate signature bundle (.file p) (.bundled (Beside p ".sigstore".toList))
  | detachedFile {p : Path} : bundle = none → certificate ≠ none ∨ signature ≠ none →
      NamedMaterials certificate signature bundle (.file p)
        (.unbundled (certificate.getD (Beside p ".crt".toList)) (signature.getD (Beside p ".sig".toList)))
  | detachedDigest {h : Hashed} {c s : Path} : bundle = none → certificate = some c → signature = some s →
      NamedMaterials certificate signature bundle (.digest h) (.unbundled c s)

/-- the files that have to be read for an input -/
def FilesOf : VerifyInput × Materials → List Path
  | (.file p, .bundled b) => [p, b]
  | (.file p, .unbundled c s) => [p, c, s]
  | (.digest _, .bundled b) => [b]
  | (.digest _, .unbundled c s) => [c, s]

end Sigstore.Spec
