import Verif.Props.Detached

/-!
# C102 and C105 for the program: `sigstore sign` or `attest`, and later `sigstore verify identity` or `verify github`
-/

namespace Sigstore.Props

open Sigstore.Trust Sigstore.LogEntry Sigstore.Dsse Sigstore.Signing Sigstore.Cli Sigstore.Spec Sigstore.Args Sigstore.Rekor
open Sigstore.Policy (ExtClass)

/-- the command line asks for a verification command with these options -/
inductive AsksFor (environ : Environ) (line : CommandLine) : VerifyCommand → Prop
  | identity {identity issuer : Str} : line.command = .verifyIdentity → LastGiven ["--cert-identity"] line.sub identity →
      LastGiven ["--cert-oidc-issuer"] line.sub issuer → AsksFor environ line (.identity identity issuer)
  | github {args : GithubArgs} : line.command = .verifyGithub → GithubOptions environ line.sub args →
      AsksFor environ line (.github args)

/-- The certificate is what the user asks for.  `verify identity`: it was issued to the identity and claims the issuer (unless
that is empty).  `verify github`: an identity or a repository is asked for, the issuer is GitHub Actions, and everything that is
asked for is as in the certificate. -/
def CertAsAsked (cert : Cert) : VerifyCommand → Prop
  | .identity identity issuer => (issuer ≠ [] → Claims cert .oidcIssuer issuer) ∧ IssuedTo cert identity ∧
      (∀ names, cert.san = some names → OtherNamesDecodable names)
  | .github args => ((∃ v, Given args.certIdentity v) ∨ (∃ v, Given args.workflowRepository v)) ∧
      Claims cert .oidcIssuer "https://token.actions.githubusercontent.com".toList ∧
      (∀ v, Given args.certIdentity v → IssuedTo cert v ∧ ∀ names, cert.san = some names → OtherNamesDecodable names) ∧
      (∀ v, Given args.workflowTrigger v → Claims cert .githubWorkflowTrigger v) ∧
      (∀ v, Given args.workflowSha v → Claims cert .githubWorkflowSha v) ∧
      (∀ v, Given args.workflowName v → Claims cert .githubWorkflowName v) ∧
      (∀ v, Given args.workflowRepository v → Claims cert .githubWorkflowRepository v) ∧
      (∀ v, Given args.workflowRef v → Claims cert .githubWorkflowRef v)

/-- the values that are compared with extensions are shorter than 4 GiB -/
def ShortValues : VerifyCommand → Prop
  | .identity _ issuer => (utf8 issuer).length < 4294967296
  | .github args => ∀ o ∈ [args.workflowTrigger, args.workflowSha, args.workflowName, args.workflowRepository,
      args.workflowRef], ∀ v, o = some v → (utf8 v).length < 4294967296

/-- if the policy decides, then the certificate must be as asked -/
theorem asked_of_policy {cmd : VerifyCommand} {cert : Cert} {P : Prop} (hu : UniqueExts cert) (hs : ShortValues cmd)
    (hne : P → ∃ policy, cmd.policy = .ok policy)
    (h : ∀ policy, cmd.policy = .ok policy → (P ↔ policy.verify cert = .ok ())) : P ↔ CertAsAsked cert cmd := by
  cases cmd with
  | identity identity issuer =>
    refine (h _ rfl).trans ((C22_identity_iff identity (some issuer) cert hu (by
      intro x hx; rw [← Option.some.inj hx]; exact hs)).trans ?_)
    constructor
    · rintro ⟨g1, g2⟩; exact ⟨g1 issuer rfl, g2⟩
    · rintro ⟨g1, g2⟩
      refine ⟨?_, g2⟩
      intro i hi; cases hi; exact g1
  | github args =>
    constructor
    · intro hP
      obtain ⟨policy, hp⟩ := hne hP
      obtain ⟨g1, g2⟩ := C25_github_iff args policy hp cert hu hs
      exact ⟨g1, g2.1 ((h policy hp).1 hP)⟩
    · rintro ⟨g1, g2⟩
      obtain ⟨policy, hp⟩ := (C25_github_requires_identity_or_repository args).2.2 g1
      exact (h policy hp).2 ((C25_github_iff args policy hp cert hu hs).2.2 g2)

/-- a run that returns normally had a policy -/
theorem policy_of_run {venv : VerifyEnv} {fs : Fs} {now : Time} {cmd : VerifyCommand} {verbose : Bool} {positional : List Str}
    {certificate signature bundle : Option Path} {trust : TrustArgs} {w : VerifyWorld}
    (h : (verifyMain venv fs now cmd verbose positional certificate signature bundle trust w).1 = .ok ()) :
    ∃ policy, cmd.policy = .ok policy := by
  obtain ⟨_, _, _, _, _, hv⟩ := (C44_returns_iff _ _ _ _ _ _ _ _ _ _ _).1 h
  obtain ⟨policy, _, hp, _⟩ := hv.inputs
  exact ⟨policy, hp⟩

section Program

variable (libs : MainLibs) (hf : FaithfulLibs libs.sign.env libs.sign.kp libs.sign.toJson libs.parseBundle) (o o₂ : SignOracle)
  {environ environ₂ : Environ} {line line₂ : CommandLine} (s s₂ : MainState)
  (he : EnvironOk environ) (hl : LineOk line) {trust : TrustArgs} {ident : IdentityArgs}
  (ht : TrustOptions environ line.top line.sub false trust) (hv : RekorVersion libs.int line.sub trust.rekorVersion)
  (hi : IdentityOptions environ line.sub true ident)
  (he₂ : EnvironOk environ₂) (hl₂ : LineOk line₂) {cmd : VerifyCommand} (hc₂ : AsksFor environ₂ line₂ cmd)
  {trust₂ : TrustArgs} (ht₂ : TrustOptions environ₂ line₂.top line₂.sub true trust₂) (hv₂ : trust₂.rekorVersion = none)
  {certificate signature bundle : Option Path}

section Run

variable (hm₂ : VerifyOptions environ₂ line₂.sub certificate signature bundle)

include he₂ hl₂ hc₂ ht₂ hv₂ hm₂ in
/-- what the program does for either command -/
theorem main_verify : Cli.main libs o₂ environ₂ line₂ s₂ =
    (some (verifyRun libs o₂ line₂ s₂ cmd trust₂ certificate signature bundle).1,
     s₂.ofVerify (verifyRun libs o₂ line₂ s₂ cmd trust₂ certificate signature bundle).2) := by
  cases hc₂ with
  | identity h1 h2 h3 => exact C89_verify_identity libs o₂ s₂ he₂ hl₂ h1 ht₂ hv₂ hm₂ h2 h3
  | github h1 h2 => exact C89_verify_github libs o₂ s₂ he₂ hl₂ h1 ht₂ hv₂ hm₂ h2

end Run

variable (hkept : Kept (Cli.main libs o environ line s).2.sign.disk s₂.sign.disk)

section Bundles

variable (hm₂ : VerifyOptions environ₂ line₂.sub none none bundle)

include hf he hl ht hv hi he₂ hl₂ hc₂ ht₂ hv₂ hm₂ hkept

/-- **C102** `sigstore sign` and later `sigstore verify identity` or `verify github`, two runs of the program: if the first
completed, its outputs are at different places which are no inputs, and nothing it left behind has changed, then the second, for
files that were signed and with bundles where they were put, completes exactly if the certificate of the signer is what the user
asks for; provided that the services were honest and the verifier trusts them. -/
theorem C102_main_sign_any (hc : line.command = .sign) {args : SignArgs}
    (hargs : SignOptions environ line.sub line.positional args)
    (h : (Cli.main libs o environ line s).1 = some (.ok ()))
    (ha : SignOutputsApart libs.sign.disk args) (how : args.overwrite = false ∨ SignInputsApart libs.sign.disk args) :
    ∃ token cert, (∃ cfg, signIdentity libs.sign.identity o.now ident cfg = .ok token) ∧
      IssuedFor libs.sign.kp (o.first token) s.sign.world.keys cert ∧
      ∀ config certs ct log,
        HonestServices libs.sign.env o₂.now ⟨config.root, certs⟩ ct log cert (o.first token)
          (fun a => ∃ f ∈ args.files, a = (o.perFile f).1) →
        VerifyRequest libs s₂.sign.disk o₂.now line₂.positional bundle trust₂ ⟨s₂.sign.tuf, s₂.queries⟩ config certs
          (fun f p => f ∈ args.files ∧ SignBundlePath args f p) →
        UniqueExts cert → ShortValues cmd →
        ((Cli.main libs o₂ environ₂ line₂ s₂).1 = some (.ok ()) ↔ CertAsAsked cert cmd) := by
  rw [C89_sign libs o s he hl hc ht hv hi hargs] at h hkept
  obtain ⟨token, cert, h1, h2, h3⟩ := C102_sign libs hf o trust ident args s.sign ha how (map_mainHandler_ok h)
  refine ⟨token, cert, h1, h2, ?_⟩
  intro config certs ct log hs hreq hu hsz
  rw [main_verify libs o₂ s₂ he₂ hl₂ hc₂ ht₂ hv₂ hm₂, Option.some.injEq]
  exact asked_of_policy hu hsz policy_of_run fun policy hp => h3 s₂.sign.disk hkept o₂.now cmd (verboseOf line₂)
    line₂.positional bundle trust₂ ⟨s₂.sign.tuf, s₂.queries⟩ config certs policy ct log hs hreq hp

/-- **C102** The same for `sigstore attest`. -/
theorem C102_main_attest_any (hback : StatementsReadBack libs.sign) (hc : line.command = .attest) {args : AttestArgs}
    (hargs : AttestOptions environ line.sub line.positional args)
    (h : (Cli.main libs o environ line s).1 = some (.ok ()))
    (ha : ∀ f ∈ args.files, ∀ g ∈ args.files, f ≠ g → ∀ p q, AttestBundlePath args f p → AttestBundlePath args g q →
      libs.sign.disk.resolve p ≠ libs.sign.disk.resolve q)
    (how : args.overwrite = false ∨
      ∀ f ∈ args.files, ∀ g ∈ args.files, ∀ p, AttestBundlePath args f p → libs.sign.disk.resolve p ≠ libs.sign.disk.resolve g) :
    ∃ token cert, (∃ cfg, signIdentity libs.sign.identity o.now ident cfg = .ok token) ∧
      IssuedFor libs.sign.kp (o.first token) s.sign.world.keys cert ∧
      ∀ config certs ct log,
        HonestServices libs.sign.env o₂.now ⟨config.root, certs⟩ ct log cert (o.first token)
          (fun a => ∃ f ∈ args.files, a = (o.perFile f).1) →
        VerifyRequest libs s₂.sign.disk o₂.now line₂.positional bundle trust₂ ⟨s₂.sign.tuf, s₂.queries⟩ config certs
          (fun f p => f ∈ args.files ∧ AttestBundlePath args f p) →
        UniqueExts cert → ShortValues cmd →
        ((Cli.main libs o₂ environ₂ line₂ s₂).1 = some (.ok ()) ↔ CertAsAsked cert cmd) := by
  rw [C89_attest libs o s he hl hc ht hv hi hargs] at h hkept
  obtain ⟨token, cert, h1, h2, h3⟩ := C102_attest libs hf hback o trust ident args s.sign ha how (map_mainHandler_ok h)
  refine ⟨token, cert, h1, h2, ?_⟩
  intro config certs ct log hs hreq hu hsz
  rw [main_verify libs o₂ s₂ he₂ hl₂ hc₂ ht₂ hv₂ hm₂, Option.some.injEq]
  exact asked_of_policy hu hsz policy_of_run fun policy hp => h3 s₂.sign.disk hkept o₂.now cmd (verboseOf line₂)
    line₂.positional bundle trust₂ ⟨s₂.sign.tuf, s₂.queries⟩ config certs policy ct log hs hreq hp

end Bundles

section Detached

variable (hpem : FaithfulPem libs.sign.env libs.loadPem) (hm₂ : VerifyOptions environ₂ line₂.sub certificate signature none)
  {arg : Str} (harg : line₂.positional = [arg])

include hf hpem he hl ht hv hi he₂ hl₂ hc₂ ht₂ hv₂ hm₂ harg hkept

/-- **C105** `sigstore sign --signature S --certificate C` and later `sigstore verify` of the file or its digest with `S` and `C`,
two runs of the program: if the first completed, and nothing it left behind has changed, the second sends one query, for the
entry with the signature, the certificate and the digest.  If the log answers with such an entry, the program completes exactly
if the certificate of the signer is what the user asks for; provided that the services are honest and the verifier trusts them.
-/
theorem C105_main_sign (hc : line.command = .sign) {args : SignArgs} (hargs : SignOptions environ line.sub line.positional args)
    (h : (Cli.main libs o environ line s).1 = some (.ok ())) {f sp cp : Path}
    (hfile : f ∈ args.files) (hsp : args.signature = some sp) (hcp : args.certificate = some cp)
    (ha : SignOutputsApart libs.sign.disk args) (how : args.overwrite = false ∨ SignInputsApart libs.sign.disk args) :
    ∃ token cert content sig, (∃ cfg, signIdentity libs.sign.identity o.now ident cfg = .ok token) ∧
      IssuedFor libs.sign.kp (o.first token) s.sign.world.keys cert ∧
      s.sign.disk (libs.sign.disk.resolve f) = some (.file content) ∧
      ∀ config certs ct log,
        HonestServices libs.sign.env o₂.now ⟨config.root, certs⟩ ct log cert (o.first token) (fun _ => False) →
        DetachedRequest libs s₂.sign.disk o₂.now arg certificate signature trust₂ ⟨s₂.sign.tuf, s₂.queries⟩ config certs f cp sp
          (libs.sign.env.crypto.sha256 content) →
        UniqueExts cert → ShortValues cmd → (∃ policy, cmd.policy = .ok policy) →
        (Cli.main libs o₂ environ₂ line₂ s₂).2.queries =
          s₂.queries ++ [detachedQuery cert sig (libs.sign.env.crypto.sha256 content)] ∧
        (libs.retrieve (detachedQuery cert sig (libs.sign.env.crypto.sha256 content)) = .ok none →
          (Cli.main libs o₂ environ₂ line₂ s₂).1 = some (.error (.systemExit 2))) ∧
        ∀ entry, libs.retrieve (detachedQuery cert sig (libs.sign.env.crypto.sha256 content)) = .ok (some entry) →
          Logged libs.sign.env log (startedKeys o₂.now config.root.tlogs) cert
            (.hashedrekord (detachedQuery cert sig (libs.sign.env.crypto.sha256 content))) entry →
          ((Cli.main libs o₂ environ₂ line₂ s₂).1 = some (.ok ()) ↔ CertAsAsked cert cmd) := by
  rw [C89_sign libs o s he hl hc ht hv hi hargs] at h hkept
  obtain ⟨token, cert, content, sig, h1, h2, h3, _, _, h4⟩ := C105_sign libs hf hpem o trust ident args s.sign hfile hsp hcp ha how
    (map_mainHandler_ok h)
  refine ⟨token, cert, content, sig, h1, h2, h3, ?_⟩
  intro config certs ct log hs hreq hu hsz ⟨policy, hp⟩
  rw [main_verify libs o₂ s₂ he₂ hl₂ hc₂ ht₂ hv₂ hm₂]
  unfold verifyRun
  rw [harg]
  obtain ⟨g1, g2, _⟩ := h4 s₂.sign.disk hkept o₂.now cmd (verboseOf line₂) arg certificate signature trust₂
    ⟨s₂.sign.tuf, s₂.queries⟩ config certs policy ct log hs hreq hp
  refine ⟨g1, fun hr => congrArg some (g2 hr), ?_⟩
  intro entry hr hlogged
  rw [Option.some.injEq]
  exact asked_of_policy hu hsz policy_of_run fun policy hp => (h4 s₂.sign.disk hkept o₂.now cmd (verboseOf line₂) arg certificate
    signature trust₂ ⟨s₂.sign.tuf, s₂.queries⟩ config certs policy ct log hs hreq hp).2.2 entry hr hlogged

end Detached

end Program

end Sigstore.Props
