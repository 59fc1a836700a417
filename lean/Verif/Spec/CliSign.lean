import Verif.Model.CliSign

/-!
# Specification of `sigstore sign` and `sigstore attest`
-/

namespace Sigstore.Spec

open Sigstore.Trust Sigstore.Dsse Sigstore.Signing Sigstore.Cli

/-- the options of `sign` fit together -/
structure ConsistentSign (args : SignArgs) : Prop where
  /-- `--bundle` excludes `--no-default-files` -/
  defaults : args.noDefaultFiles = true → args.bundle = none
  /-- explicit outputs belong to a single input -/
  single : args.signature ≠ none ∨ args.certificate ≠ none ∨ args.bundle ≠ none → args.files.length ≤ 1
  /-- a directory excludes explicit outputs -/
  directory : args.outputDirectory ≠ none → args.signature = none ∧ args.certificate = none ∧ args.bundle = none
  /-- detached outputs come in pairs -/
  pair : args.signature = none ↔ args.certificate = none

/-- the paths that `sign` writes for a file -/
inductive SignOutput (args : SignArgs) (file : Path) : Path → Prop
  | signature {p : Path} : args.signature = some p → SignOutput args file p
  | certificate {p : Path} : args.certificate = some p → SignOutput args file p
  | bundle {p : Path} : args.bundle = some p → SignOutput args file p
  | inDirectory {dir : Path} : args.bundle = none → args.noDefaultFiles = false → args.outputDirectory = some dir →
      SignOutput args file (dir.join (file.name ++ ".sigstore.json".toList))
  | beside : args.bundle = none → args.noDefaultFiles = false → args.outputDirectory = none →
      SignOutput args file (file.parent.join (file.name ++ ".sigstore.json".toList))

/-- where `sign` puts the bundle of a file -/
inductive SignBundlePath (args : SignArgs) (file : Path) : Path → Prop
  | explicit {p : Path} : args.bundle = some p → SignBundlePath args file p
  | inDirectory {dir : Path} : args.bundle = none → args.noDefaultFiles = false → args.outputDirectory = some dir →
      SignBundlePath args file (dir.join (file.name ++ ".sigstore.json".toList))
  | beside : args.bundle = none → args.noDefaultFiles = false → args.outputDirectory = none →
      SignBundlePath args file (file.parent.join (file.name ++ ".sigstore.json".toList))

/-- where `attest` puts the bundle of a file -/
inductive AttestBundlePath (args : AttestArgs) (file : Path) : Path → Prop
  | explicit {p : Path} : args.bundle = some p → AttestBundlePath args file p
  | beside : args.bundle = none → AttestBundlePath args file (file.parent.join (file.name ++ ".sigstore.json".toList))

/-- every file of `d` is in `d'` with the same content, and every directory is still there -/
def Kept (d d' : Disk) : Prop := ∀ l n, d l = some n → d' l = some n

/-- `d'` is `d` with directories added where there was nothing -/
def OnlyDirectories (d d' : Disk) : Prop := ∀ l, d' l = d l ∨ (d l = none ∧ d' l = some .dir)

/-- `b` is a signature with the `k`-th key over the file name and content, with the given certificate: over the digest
of the content or, with a predicate, over the statement about this name and digest -/
def BundleOf (c : Crypto) (kp : KeyPairs) (codec : StatementCodec) (k : Nat) (cert : Cert) (predicate : Option (Str × Dict Str Json))
    (name : Str) (content : Bytes) (b : Bundle) : Prop :=
  b.inner.certificate = some cert.der ∧
  ∃ nonce,
    match predicate with
    | none => b.inner.dsseEnvelope = none ∧
        b.inner.messageSignature = some ⟨some (c.sha256 content), kp.sign k nonce (c.sha256 content)⟩
    | some (pt, pred) => b.inner.messageSignature = none ∧
        ∃ payload, payload = codec.dump ⟨[⟨some name, [("sha256".toList, hexEncode (c.sha256 content))]⟩], pt, some pred⟩ ∧
          b.inner.dsseEnvelope = some ⟨payload, "application/vnd.in-toto+json".toList,
            [kp.sign k nonce (c.sha256 (pae "application/vnd.in-toto+json".toList payload))]⟩

/-- the file at `p` holds the JSON of `b` -/
def HoldsBundle (e : DiskEnv) (toJson : Bundle → Str) (d : Disk) (b : Bundle) (p : Path) : Prop :=
  d (e.resolve p) = some (.file (utf8 (toJson b ++ "\n".toList)))

/-- the file at `p` holds the base64 text of the signature of `b` -/
def HoldsSignature (e : DiskEnv) (d : Disk) (b : Bundle) (p : Path) : Prop :=
  ∃ sig, b.signature = .ok sig ∧ d (e.resolve p) = some (.file (utf8 (b64Encode sig ++ "\n".toList)))

/-- the file at `p` holds the PEM text of a certificate -/
def HoldsCertificate (e : DiskEnv) (d : Disk) (cert : Cert) (p : Path) : Prop :=
  d (e.resolve p) = some (.file (utf8 (pemText cert.der ++ "\n".toList)))

/-- the outputs of `sign` lead to different places: those of different files, and those of one file -/
structure SignOutputsApart (e : DiskEnv) (args : SignArgs) : Prop where
  files : ∀ f ∈ args.files, ∀ g ∈ args.files, f ≠ g → ∀ p q, SignOutput args f p → SignOutput args g q →
    e.resolve p ≠ e.resolve q
  detached : ∀ p q, args.signature = some p → args.certificate = some q → e.resolve p ≠ e.resolve q
  bundled : ∀ f ∈ args.files, ∀ p q, args.signature = some p ∨ args.certificate = some p → SignBundlePath args f q →
    e.resolve p ≠ e.resolve q

/-- no output of `sign` leads to an input -/
def SignInputsApart (e : DiskEnv) (args : SignArgs) : Prop :=
  ∀ f ∈ args.files, ∀ g ∈ args.files, ∀ p, SignOutput args f p → e.resolve p ≠ e.resolve g

/-- the outputs that belong to `f` hold the bundle `b`, its signature and the certificate -/
structure OutputsHold (libs : SignLibs) (args : SignArgs) (d : Disk) (f : Path) (cert : Cert) (b : Bundle) : Prop where
  bundle : ∀ p, SignBundlePath args f p → HoldsBundle libs.disk libs.toJson d b p
  signature : ∀ p, args.signature = some p → HoldsSignature libs.disk d b p
  certificate : ∀ p, args.certificate = some p → HoldsCertificate libs.disk d cert p

/-- components that a parsed path can have -/
def ProperPath (p : Path) : Prop := p.parts ≠ [] ∧ ∀ x ∈ p.parts, '/' ∉ x ∧ x ≠ [] ∧ x ≠ ['.']

/-- no token is given on the command line -/
def NoExplicitToken (args : IdentityArgs) : Prop := ∀ tok, args.identityToken = some tok → tok = []

/-- nothing is found in the environment, or it is not looked at -/
def NoAmbientToken (libs : IdentityLibs) (args : IdentityArgs) : Prop :=
  args.disableAmbient = true ∨ libs.detect args.clientId = .ok none ∨ libs.detect args.clientId = .ok (some [])

/-- the issuer for the OAuth flow: the one on the command line, else the first one of the instance -/
inductive FlowIssuer (now : Time) (args : IdentityArgs) (cfg : LoadedConfig) : Str → Prop
  | option {url : Str} : args.issuer = some url → FlowIssuer now args cfg url
  | config {sc : Config.SigningConfig} {service : Config.Service} {rest : List Config.Service} : args.issuer = none →
      Config.SigningConfig.init now cfg.signingConfig cfg.forceTlogVersion = .ok sc → sc.oidcs = service :: rest →
      FlowIssuer now args cfg service.url

/-- where the identity of the signing commands comes from -/
inductive IdentityFrom (libs : IdentityLibs) (now : Time) (args : IdentityArgs) (cfg : LoadedConfig) (t : Oidc.IdentityToken) : Prop
  /-- a token on the command line -/
  | explicit {tok : Str} : args.identityToken = some tok → tok ≠ [] → libs.token tok args.clientId = .ok t →
      IdentityFrom libs now args cfg t
  /-- otherwise a token found in the environment, unless that is disabled -/
  | ambient {tok : Str} : NoExplicitToken args → args.disableAmbient = false →
      libs.detect args.clientId = .ok (some tok) → tok ≠ [] → libs.token tok args.clientId = .ok t →
      IdentityFrom libs now args cfg t
  /-- otherwise the OAuth flow -/
  | interactive {url : Str} : NoExplicitToken args → NoAmbientToken libs args → FlowIssuer now args cfg url →
      libs.issuer url = .ok () → libs.interactive url args.clientId (args.clientSecret.getD []) args.forceOob = .ok t →
      IdentityFrom libs now args cfg t

end Sigstore.Spec
