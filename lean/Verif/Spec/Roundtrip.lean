import Verif.Spec.Honest
import Verif.Spec.CliSign
import Verif.Spec.CliVerify
import Verif.Model.CliMain

/-!
# Signing and then verifying

The circumstances under which what `sigstore sign` or `sigstore attest` left behind should be accepted by `sigstore verify`.
-/

namespace Sigstore.Spec

open Sigstore.Trust Sigstore.LogEntry Sigstore.Dsse Sigstore.Signing Sigstore.Cli

/-- The libraries do their part: signatures that are made are accepted, SHA-256 has 32 bytes, `int` reads decimal numbers, and
the JSON of a bundle, with the newline of `print`, is read as that bundle. -/
structure FaithfulLibs (env : Env) (kp : KeyPairs) (toJson : Bundle → Str) (parseBundle : Bytes → Py BundleMsg) : Prop where
  keys : CorrectKeys env.crypto kp
  sha256 : ∀ x, (env.crypto.sha256 x).length = 32
  numbers : ∀ n : Nat, n < 2 ^ 64 → env.pyInt (decimal n) = some (n : Int)
  json : ∀ b, Bundle.init env b.inner = .ok b → parseBundle (utf8 (toJson b ++ "\n".toList)) = .ok b.inner

/-- The services that issued the certificate and answered the signing calls follow their specifications, and the verifier
trusts them at the time. -/
structure HonestServices (env : Env) (now : Time) (v : Verifier) (ct log : ServiceKey) (cert : Cert) (first : Answers)
    (Asked : Answers → Prop) : Prop where
  ctTrusted : ct.TrustedIn env.crypto (startedKeys now v.root.ctlogs)
  logTrusted : log.TrustedIn env.crypto (startedKeys now v.root.tlogs)
  properTsas : ProperTsas v.root
  fulcio : HonestFulcio env v.fulcioCerts ct first.fulcio
  rekor : ∀ a, Asked a → HonestLog env log (startedKeys now v.root.tlogs) cert a.rekor
  tsas : ∀ a, Asked a → HonestTsas env now v.root cert a.tsas

/-- where `sigstore verify` looks for the bundle of a file: at the path given with `--bundle`, or next to the file, where no
bundle with the old name may be -/
inductive LooksAt (e : DiskEnv) (d : Disk) (bundle : Option Path) (file : Path) : Path → Prop
  | explicit {p : Path} : bundle = some p → LooksAt e d bundle file p
  | beside : bundle = none → (∀ c, d (e.resolve (file.parent.join (file.name ++ ".sigstore".toList))) ≠ some (.file c)) →
      LooksAt e d bundle file (file.parent.join (file.name ++ ".sigstore.json".toList))

/-- the bytes of the statements that `attest` makes with these predicates are text, and are read as those statements -/
def ReadsBack (codec : StatementCodec) (predicate : Option (Str × Dict Str Json)) : Prop :=
  ∀ pt pred, predicate = some (pt, pred) → ∀ name digest,
    codec.parse (codec.dump ⟨[⟨some name, [("sha256".toList, digest)]⟩], pt, some pred⟩) =
      some ⟨[⟨some name, [("sha256".toList, digest)]⟩], pt, some pred⟩ ∧
    ∃ text, codec.dump ⟨[⟨some name, [("sha256".toList, digest)]⟩], pt, some pred⟩ = utf8 text

/-- What `sigstore verify` is asked to do after signing: at least one file, each with its bundle where it looks for it, and the
trust configuration loads. -/
structure VerifyRequest (libs : MainLibs) (d : Disk) (now : Time) (positional : List Str) (bundle : Option Path)
    (trust : TrustArgs) (w : VerifyWorld) (config : LoadedConfig) (certs : List Cert) (Signed : Path → Path → Prop) : Prop where
  nonempty : positional ≠ []
  single : bundle ≠ none → positional.length ≤ 1
  signed : ∀ arg ∈ positional, ∃ p, Signed (Path.ofStr arg) p ∧ libs.sign.disk.canRead p = true ∧
    LooksAt libs.sign.disk d bundle (Path.ofStr arg) p
  loads : (getTrustConfig (libs.sign.disk.fs d) libs.sign.tuf libs.sign.parsers trust w.tuf).1 = .ok config
  rootType : config.rootMediaType = "application/vnd.dev.sigstore.trustedroot+json;version=0.1".toList
  fulcio : getFulcioCerts now config.root = .ok certs

end Sigstore.Spec
