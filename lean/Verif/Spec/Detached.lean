import Verif.Spec.Roundtrip

/-!
# Signing and then verifying with detached materials
-/

namespace Sigstore.Spec

open Sigstore.Trust Sigstore.LogEntry Sigstore.Dsse Sigstore.Signing Sigstore.Cli

/-- what Rekor is asked for: the `hashedrekord` entry with this signature, certificate and digest -/
def detachedQuery (cert : Cert) (sig digest : Bytes) : HashedrekordBody :=
  ⟨"0.0.1".toList, some (b64Encode sig), some (b64Encode (utf8 (pemText cert.der))), some ("sha256".toList, hexEncode digest)⟩

/-- the PEM text of a certificate, with the newline of `print`, is read as that certificate -/
def FaithfulPem (env : Env) (loadPem : Bytes → Option Cert) : Prop :=
  ∀ cert, env.loadCert cert.der = some cert → loadPem (utf8 (pemText cert.der ++ "\n".toList)) = some cert

/-- The argument and the options of `sigstore verify` name an input and its detached materials: the file, with the option that
is absent (if one is) standing for the name next to the file, and not both names of a bundle next to it; or its digest, with
both options. -/
inductive NamesDetached (e : DiskEnv) (d : Disk) (arg : Str) (certificate signature : Option Path) (f cp sp : Path)
    (digest : Bytes) : Prop
  | file : Path.ofStr arg = f → certificate ≠ none ∨ signature ≠ none →
      certificate.getD (f.parent.join (f.name ++ ".crt".toList)) = cp →
      signature.getD (f.parent.join (f.name ++ ".sig".toList)) = sp →
      ((∀ c, d (e.resolve (f.parent.join (f.name ++ ".sigstore.json".toList))) ≠ some (.file c)) ∨
       (∀ c, d (e.resolve (f.parent.join (f.name ++ ".sigstore".toList))) ≠ some (.file c))) →
      NamesDetached e d arg certificate signature f cp sp digest
  | digest : (∀ c, d (e.resolve (Path.ofStr arg)) ≠ some (.file c)) → DigestArg arg digest →
      certificate = some cp → signature = some sp → NamesDetached e d arg certificate signature f cp sp digest

/-- What `sigstore verify` is asked to do: one input with its detached materials, online, and the trust configuration loads. -/
structure DetachedRequest (libs : MainLibs) (d : Disk) (now : Time) (arg : Str) (certificate signature : Option Path)
    (trust : TrustArgs) (w : VerifyWorld) (config : LoadedConfig) (certs : List Cert) (f cp sp : Path) (digest : Bytes) :
    Prop where
  online : trust.offline = false
  named : NamesDetached libs.sign.disk d arg certificate signature f cp sp digest
  readable : libs.sign.disk.canRead cp = true ∧ libs.sign.disk.canRead sp = true
  loads : (getTrustConfig (libs.sign.disk.fs d) libs.sign.tuf libs.sign.parsers trust w.tuf).1 = .ok config
  rootType : config.rootMediaType = "application/vnd.dev.sigstore.trustedroot+json;version=0.1".toList
  fulcio : getFulcioCerts now config.root = .ok certs

end Sigstore.Spec
