import Verif.Spec.SignReady

/-!
# Specification of what `sign` and `attest` leave behind whenever they stop
-/

namespace Sigstore.Spec

open Sigstore.Trust Sigstore.Dsse Sigstore.Signing Sigstore.Cli

/-- the place is as it was, except that a directory may have been made where there was nothing -/
def Untouched (d₀ d : Disk) (l : Path) : Prop := d l = d₀ l ∨ (d₀ l = none ∧ d l = some .dir)

/-- the place is as it was, or holds a beginning of `data`; the whole of it if `whole` -/
def Begun (d₀ d : Disk) (whole : Prop) (l : Path) (data : Bytes) : Prop :=
  Untouched d₀ d l ∨ ∃ n, d l = some (.file (data.take n)) ∧ (whole → data.length ≤ n)

/-- each output that belongs to `f` is as it was or holds a beginning of what belongs to the bundle `b`, the whole of it if
`whole`; and the bundle is begun only when signature and certificate are complete -/
structure OutputsBegun (libs : SignLibs) (args : SignArgs) (d₀ d : Disk) (whole : Prop) (f : Path) (cert : Cert) (b : Bundle) :
    Prop where
  bundle : ∀ p, SignBundlePath args f p → Begun d₀ d whole (libs.disk.resolve p) (utf8 (libs.toJson b ++ "\n".toList))
  signature : ∀ p, args.signature = some p → Untouched d₀ d (libs.disk.resolve p) ∨ ∃ sig, b.signature = .ok sig ∧
    Begun d₀ d whole (libs.disk.resolve p) (utf8 (b64Encode sig ++ "\n".toList))
  certificate : ∀ p, args.certificate = some p →
    Begun d₀ d whole (libs.disk.resolve p) (utf8 (pemText cert.der ++ "\n".toList))
  order : ∀ p, SignBundlePath args f p → Untouched d₀ d (libs.disk.resolve p) ∨
    ((∀ q, args.signature = some q → HoldsSignature libs.disk d b q) ∧
      ∀ q, args.certificate = some q → HoldsCertificate libs.disk d cert q)

end Sigstore.Spec
