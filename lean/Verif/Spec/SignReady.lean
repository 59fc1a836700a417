import Verif.Spec.Roundtrip
import Verif.Spec.Usage

/-!
# Specification of a signing session that has all it needs
-/

namespace Sigstore.Spec

open Sigstore.Trust Sigstore.LogEntry Sigstore.Dsse Sigstore.Signing Sigstore.Cli Sigstore.Rekor

/-- The trust configuration can be loaded, it names the services (and the version of the log), and there is an identity. -/
structure SetUp (libs : SignLibs) (o : SignOracle) (trust : TrustArgs) (ident : IdentityArgs) (tuf : Tuf.World) (d : Disk)
    (config : LoadedConfig) (services : Config.ContextServices) (token : Oidc.IdentityToken) : Prop where
  loads : (getTrustConfig (libs.disk.fs d) libs.tuf libs.parsers trust tuf).1 = .ok config
  context : Config.contextFromTrustConfig o.now ⟨config.rootMediaType, config.signingConfig, config.forceTlogVersion⟩ = .ok services
  identity : signIdentity libs.identity o.now ident config = .ok token

/-- The services answer in time: the token is valid, Fulcio issues the certificate, the client trusts the CT log, every
reading of the clock is before the end of the certificate, Rekor answers, and with a log of version 2 some timestamp authority
answers. -/
structure Answering (libs : SignLibs) (o : SignOracle) (files : List Path) (keys : Nat) (root : TrustedRoot Cert)
    (version : ApiVersion) (token : Oidc.IdentityToken) (ct : ServiceKey) (cert : Cert) : Prop where
  tokenValid : (o.first token).tokenValid = true
  issued : ∃ chain, (o.first token).fulcio ⟨libs.kp.pub keys⟩ = .ok (cert, chain)
  ctTrusted : ct.TrustedIn libs.env.crypto (getTlogKeys (o.first token).now root.ctlogs .sign)
  shown : o.shown.now ≤ cert.notAfter
  inTime : ∀ f ∈ files, (o.perFile f).1.now ≤ cert.notAfter ∧ (o.perFile f).2.now ≤ cert.notAfter
  replies : ∀ f ∈ files, ∀ request, (∃ r, Records libs.env.crypto request r) → ∃ entry, (o.perFile f).1.rekor request = .ok entry
  times : version = .v1 ∨ ∀ f ∈ files, ∃ tsa ∈ (o.perFile f).1.tsas, ∀ sig, ∃ t, tsa sig = .ok t

/-- where `sign` puts the bundle of a file by default -/
inductive SignDirectory (args : SignArgs) (file : Path) : Path → Prop
  | given {dir : Path} : args.outputDirectory = some dir → SignDirectory args file dir
  | beside : args.outputDirectory = none → SignDirectory args file file.parent

/-- The files can be read and the outputs written: their directories are there or can be made, and no output is a directory
or one of the directories that are made. -/
structure PlacesOk (e : DiskEnv) (args : SignArgs) (d : Disk) : Prop where
  readable : ∀ f ∈ args.files, e.canRead f = true
  writable : ∀ f ∈ args.files, ∀ p, SignOutput args f p → e.canWrite p = true ∧ d (e.resolve p) ≠ some .dir
  directories : ∀ f ∈ args.files, ∀ dir, SignDirectory args f dir →
    e.canMkdir dir = true ∧ ∀ c, d (e.resolve dir) ≠ some (.file c)
  apart : ∀ f ∈ args.files, ∀ p, SignOutput args f p → ∀ g ∈ args.files, ∀ dir, SignDirectory args g dir →
    ∀ q : Path, q.absolute = dir.absolute → q.parts <+: dir.parts → e.resolve p ≠ e.resolve q

/-- no write to an output of the file fails -/
def WritesSucceed (e : DiskEnv) (args : SignArgs) (f : Path) : Prop := ∀ p, SignOutput args f p → ∀ n, e.canPut p n = true

end Sigstore.Spec
