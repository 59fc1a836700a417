import Verif.Spec.CliSign
import Verif.Spec.Report
import Verif.Model.SignReport

/-!
# Specification of what `sigstore sign` and `sigstore attest` report
-/

namespace Sigstore.Spec

open Sigstore.Trust Sigstore.Dsse Sigstore.Signing Sigstore.Cli

/-- the line that announces the certificate -/
def CertificateHeader : Said := .out "Using ephemeral certificate:".toList

/-- the record about an entry in the log -/
def EntryRecord (index : Int) : Said :=
  .log 20 (.text ("Transparency log entry created at index: ".toList ++ decimalInt index))

/-- the record about a token that expired before it was used -/
def TokenExpired : Said := .log 40 (.text "Signature failed: identity token has expired".toList)

/-- the record about a certificate that expired before it was used -/
def CertificateExpired : Said := .log 40 (.text "Signature failed: Fulcio signing certificate has expired".toList)

/-- an optional line -/
def OptionalLine (what : Str) (p : Option Path) (lines : List Said) : Prop :=
  match p with
  | none => lines = []
  | some p => lines = [.out (what ++ " written to ".toList ++ Path.str p)]

/-- the lines about the outputs of a signed file: signature, certificate, bundle, as far as they were asked for -/
def SignLines (args : SignArgs) (f : Path) (lines : List Said) : Prop :=
  ∃ l₁ l₂ l₃, lines = l₁ ++ l₂ ++ l₃ ∧ OptionalLine "Signature".toList args.signature l₁ ∧
    OptionalLine "Certificate".toList args.certificate l₂ ∧
    ((∃ p, SignBundlePath args f p ∧ OptionalLine "Sigstore bundle".toList (some p) l₃) ∨
     ((∀ p, ¬ SignBundlePath args f p) ∧ l₃ = []))

/-- the line about the output of an attestation -/
def AttestLines (args : AttestArgs) (f : Path) (lines : List Said) : Prop :=
  ∃ p, AttestBundlePath args f p ∧ OptionalLine "Sigstore bundle".toList (some p) lines

/-- what the records of thread `i` are -/
def RecordsOf (i : Nat) (records : List (Nat × Said)) : List Said := (records.filter fun x => x.1 = i).map (·.2)

/-- the lines of the files, one after the other -/
def LinesFor (lines : Path → List Said → Prop) (files : List Path) (said : List Said) : Prop :=
  ∃ blocks, List.Forall₂ lines files blocks ∧ said = blocks.flatten

/-- **What a signing command writes.** Nothing at all, if it fails before it has a certificate; else a certificate that was
issued for its fresh key, unless that had expired already; then each thread writes at most one record; and only after all threads
have succeeded come the lines about outputs, file by file in the order of their first mention. -/
inductive SignReport (libs : SignLibs) (o : SignOracle) (key : Nat) (files : List Path) (lines : Path → List Said → Prop) :
    Option (Py Unit) → List Said → List (Nat × Said) → List Said → Prop
  | early {e : Exc} : SignReport libs o key files lines (some (.error e)) [] [] []
  | expired {token : Oidc.IdentityToken} {cert : Cert} {chain : List Cert} :
      (o.first token).fulcio { pubKey := libs.kp.pub key } = .ok (cert, chain) → o.shown.now > cert.notAfter →
      SignReport libs o key files lines (some (.error .expiredCertificate)) [CertificateHeader] [] []
  | threads {token : Oidc.IdentityToken} {cert : Cert} {chain : List Cert} {r : Option (Py Unit)} {records : List (Nat × Said)}
      {after : List Said} :
      (o.first token).fulcio { pubKey := libs.kp.pub key } = .ok (cert, chain) → o.shown.now ≤ cert.notAfter →
      (∀ x ∈ records, x.1 < (Mentioned files).length) →
      (∀ i < (Mentioned files).length, RecordsOf i records = [] ∨ (∃ n, RecordsOf i records = [EntryRecord n]) ∨
        ((RecordsOf i records = [TokenExpired] ∨ RecordsOf i records = [CertificateExpired]) ∧ r ≠ some (.ok ()))) →
      ((r ≠ some (.ok ()) ∧ after = []) ∨ (r = some (.ok ()) ∧ LinesFor lines (Mentioned files) after)) →
      SignReport libs o key files lines r [CertificateHeader, .out (pemText cert.der)] records after

end Sigstore.Spec
