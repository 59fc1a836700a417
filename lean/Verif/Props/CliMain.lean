import Verif.Props.Args
import Verif.Props.CliExitStatus
import Verif.Props.CliSignExamples
import Verif.Props.Policy

/-!
# C89-C92: `main`

What the command line and the environment mean for each command, what a successful `sigstore verify` says, and which
exceptions leave the program.
-/

namespace Sigstore.Props

open Sigstore.Trust Sigstore.LogEntry Sigstore.Dsse Sigstore.Signing Sigstore.Cli Sigstore.Spec Sigstore.Args

/-- how often `-v` is given after the command -/
def verboseOf (line : CommandLine) : Bool := decide (timesGiven ["-v", "--verbose"] line.sub ≥ 1)

theorem verbose_eq {environ : Environ} {line : CommandLine} {ns : Namespace} (h : parseArgs environ line = .ok ns) :
    decide (ns.verbosity ≥ 1) = verboseOf line := by
  unfold verboseOf
  rw [C90_verbosity_partial h]

theorem main_eq {libs : MainLibs} {o : SignOracle} {environ : Environ} {line : CommandLine} {s : MainState} {ns : Namespace}
    (h : parseArgs environ line = .ok ns) : Cli.main libs o environ line s = dispatch libs o ns line s := by
  unfold Cli.main
  rw [h]

theorem no_version {libs : MainLibs} {environ : Environ} {line : CommandLine} {ns : Namespace}
    (h : parseArgs environ line = .ok ns) (hc : line.command ≠ .sign) (hc' : line.command ≠ .attest) :
    rekorVersionArg libs ns = .ok none := by
  have : ns "rekor_version".toList = none := by
    apply foreign h
    · cases hcc : line.command
      case sign => exact absurd hcc hc
      case attest => exact absurd hcc hc'
      all_goals decide +kernel
    · decide
    · decide
  unfold rekorVersionArg
  rw [text_of_none this]

/-! ## C89: the commands run with the options that are meant -/

section C89

variable (libs : MainLibs) (o : SignOracle) {environ : Environ} {line : CommandLine} (s : MainState) (he : EnvironOk environ)
  (hl : LineOk line)

include he hl

/-- **C89** `sigstore sign` runs with the options that the command line and the environment mean -/
theorem C89_sign (hc : line.command = .sign) {trust : TrustArgs} {ident : IdentityArgs} {args : SignArgs}
    (ht : TrustOptions environ line.top line.sub false trust) (hv : RekorVersion libs.int line.sub trust.rekorVersion)
    (hi : IdentityOptions environ line.sub true ident) (ha : SignOptions environ line.sub line.positional args) :
    Cli.main libs o environ line s =
      ((signMain libs.sign o trust ident args s.sign).1.map (mainHandler (verboseOf line)),
       { s with sign := (signMain libs.sign o trust ident args s.sign).2 }) := by
  obtain ⟨ns, h⟩ := (C89_accepted_iff environ line).2 ⟨he, hl⟩
  rw [main_eq h]
  have e0 := (meaning_version h libs (.inl hc) _).2 hv
  have e1 : trustArgsOf ns trust.rekorVersion = trust := by
    refine trustOptions_unique ?_ ht rfl
    have := meaning_trust h trust.rekorVersion
    rw [hc] at this
    exact this
  have e2 : identityArgsOf ns = ident := by
    refine identityOptions_unique ?_ hi
    have := meaning_identity h (.inl hc)
    rw [hc] at this
    exact this
  have e3 := signOptions_unique (meaning_sign h hc) ha
  unfold dispatch
  rw [e0, hc, verbose_eq h]
  dsimp only
  rw [e1, e2, e3]

/-- **C89** the same for `sigstore attest` -/
theorem C89_attest (hc : line.command = .attest) {trust : TrustArgs} {ident : IdentityArgs} {args : AttestArgs}
    (ht : TrustOptions environ line.top line.sub false trust) (hv : RekorVersion libs.int line.sub trust.rekorVersion)
    (hi : IdentityOptions environ line.sub true ident) (ha : AttestOptions environ line.sub line.positional args) :
    Cli.main libs o environ line s =
      ((attestMain libs.sign o trust ident args s.sign).1.map (mainHandler (verboseOf line)),
       { s with sign := (attestMain libs.sign o trust ident args s.sign).2 }) := by
  obtain ⟨ns, h⟩ := (C89_accepted_iff environ line).2 ⟨he, hl⟩
  rw [main_eq h]
  have e0 := (meaning_version h libs (.inr hc) _).2 hv
  have e1 : trustArgsOf ns trust.rekorVersion = trust := by
    refine trustOptions_unique ?_ ht rfl
    have := meaning_trust h trust.rekorVersion
    rw [hc] at this
    exact this
  have e2 : identityArgsOf ns = ident := by
    refine identityOptions_unique ?_ hi
    have := meaning_identity h (.inr (.inl hc))
    rw [hc] at this
    exact this
  have e3 : attestArgsOf ns line.positional = .ok args := by
    obtain ⟨p, hp, hp'⟩ := sub_required h (names := ["--predicate"]) (dest := "predicate") (d := .null) (by rw [hc]; decide)
    obtain ⟨t, ht, ht'⟩ := sub_required h (names := ["--predicate-type"]) (dest := "predicate_type") (d := .null)
      (by rw [hc]; decide)
    have htt : t = args.predicateType := lastGiven_unique ht ha.predicateType
    have ok : ∃ a, attestArgsOf ns line.positional = .ok a := by
      unfold attestArgsOf Namespace.path
      rw [hp', ht']
      dsimp only [Option.map]
      rw [if_pos (by rw [htt]; exact ha.supported)]
      exact ⟨_, rfl⟩
    obtain ⟨a, hq⟩ := ok
    rw [hq, attestOptions_unique (meaning_attest h hc a hq) ha]
  unfold dispatch
  rw [e0, hc, verbose_eq h]
  dsimp only
  rw [e3]
  dsimp only
  rw [e1, e2]

/-- what `main` does for a command of `sigstore verify` -/
def verifyRun (libs : MainLibs) (o : SignOracle) (line : CommandLine) (s : MainState) (cmd : VerifyCommand) (trust : TrustArgs)
    (certificate signature bundle : Option Path) : Py Unit × VerifyWorld :=
  verifyMain libs.verify (libs.sign.disk.fs s.sign.disk) o.now cmd (verboseOf line) line.positional certificate signature
    bundle trust ⟨s.sign.tuf, s.queries⟩

/-- **C89** the same for `sigstore verify identity` -/
theorem C89_verify_identity (hc : line.command = .verifyIdentity) {trust : TrustArgs} {identity issuer : Str}
    {certificate signature bundle : Option Path} (ht : TrustOptions environ line.top line.sub true trust)
    (hv : trust.rekorVersion = none) (hm : VerifyOptions environ line.sub certificate signature bundle)
    (hi : LastGiven ["--cert-identity"] line.sub identity) (hs : LastGiven ["--cert-oidc-issuer"] line.sub issuer) :
    Cli.main libs o environ line s =
      (some (verifyRun libs o line s (.identity identity issuer) trust certificate signature bundle).1,
       s.ofVerify (verifyRun libs o line s (.identity identity issuer) trust certificate signature bundle).2) := by
  obtain ⟨ns, h⟩ := (C89_accepted_iff environ line).2 ⟨he, hl⟩
  rw [main_eq h]
  have e0 := no_version (libs := libs) h (by rw [hc]; decide) (by rw [hc]; decide)
  have e1 : trustArgsOf ns none = trust := by
    refine trustOptions_unique ?_ ht hv.symm
    have := meaning_trust h none
    rw [hc] at this
    exact this
  have hm' := meaning_verify h (.inl hc)
  obtain ⟨i, hi', ei⟩ := sub_required h (names := ["--cert-identity"]) (dest := "cert_identity")
    (d := env "SIGSTORE_CERT_IDENTITY") (by rw [hc]; decide)
  obtain ⟨j, hj', ej⟩ := sub_required h (names := ["--cert-oidc-issuer"]) (dest := "cert_oidc_issuer")
    (d := env "SIGSTORE_CERT_OIDC_ISSUER") (by rw [hc]; decide)
  obtain rfl := lastGiven_unique hi' hi
  obtain rfl := lastGiven_unique hj' hs
  unfold dispatch verifyRun
  rw [e0, hc, verbose_eq h]
  dsimp only
  rw [e1, ei, ej, pathValue_unique hm'.certificate hm.certificate, pathValue_unique hm'.signature hm.signature,
    pathValue_unique hm'.bundle hm.bundle]
  rfl

/-- **C89** the same for `sigstore verify github` -/
theorem C89_verify_github (hc : line.command = .verifyGithub) {trust : TrustArgs} {args : GithubArgs}
    {certificate signature bundle : Option Path} (ht : TrustOptions environ line.top line.sub true trust)
    (hv : trust.rekorVersion = none) (hm : VerifyOptions environ line.sub certificate signature bundle)
    (ha : GithubOptions environ line.sub args) :
    Cli.main libs o environ line s =
      (some (verifyRun libs o line s (.github args) trust certificate signature bundle).1,
       s.ofVerify (verifyRun libs o line s (.github args) trust certificate signature bundle).2) := by
  obtain ⟨ns, h⟩ := (C89_accepted_iff environ line).2 ⟨he, hl⟩
  rw [main_eq h]
  have e0 := no_version (libs := libs) h (by rw [hc]; decide) (by rw [hc]; decide)
  have e1 : trustArgsOf ns none = trust := by
    refine trustOptions_unique ?_ ht hv.symm
    have := meaning_trust h none
    rw [hc] at this
    exact this
  have hm' := meaning_verify h (.inr hc)
  unfold dispatch verifyRun
  rw [e0, hc, verbose_eq h]
  dsimp only
  rw [e1, githubOptions_unique (meaning_github h hc) ha, pathValue_unique hm'.certificate hm.certificate,
    pathValue_unique hm'.signature hm.signature, pathValue_unique hm'.bundle hm.bundle]

/-- **C89** the same for `sigstore get-identity-token`, which has no `--identity-token` -/
theorem C89_get_identity_token (hc : line.command = .getIdentityToken) {trust : TrustArgs} {ident : IdentityArgs}
    (ht : TrustOptions environ line.top line.sub false trust) (hv : trust.rekorVersion = none)
    (hi : IdentityOptions environ line.sub false ident) :
    Cli.main libs o environ line s =
      (some (mainHandler (verboseOf line) (getIdentityTokenMain libs o.now trust ident s).1),
       (getIdentityTokenMain libs o.now trust ident s).2) := by
  obtain ⟨ns, h⟩ := (C89_accepted_iff environ line).2 ⟨he, hl⟩
  rw [main_eq h]
  have e0 := no_version (libs := libs) h (by rw [hc]; decide) (by rw [hc]; decide)
  have e1 : trustArgsOf ns none = trust := by
    refine trustOptions_unique ?_ ht hv.symm
    have := meaning_trust h none
    rw [hc] at this
    exact this
  have e2 : identityArgsOf ns = ident := by
    refine identityOptions_unique ?_ hi
    have := meaning_identity h (.inr (.inr hc))
    rw [hc] at this
    exact this
  unfold dispatch
  rw [e0, hc, verbose_eq h]
  dsimp only
  rw [e1, e2]

/-- **C89** the same for `sigstore trust-instance` -/
theorem C89_trust_instance (hc : line.command = .trustInstance) {root : Str} {url : Option Str}
    (hp : line.positional = [root]) (hu : TextValue environ line.top ["--instance"] none none url) :
    Cli.main libs o environ line s =
      (some (mainHandler (verboseOf line) (trustInstance (libs.sign.disk.fs s.sign.disk) libs.sign.tuf libs.sign.parsers
        (Path.ofStr root) url s.sign.tuf).1),
       { s with sign := { s.sign with tuf := (trustInstance (libs.sign.disk.fs s.sign.disk) libs.sign.tuf libs.sign.parsers
        (Path.ofStr root) url s.sign.tuf).2 } }) := by
  obtain ⟨ns, h⟩ := (C89_accepted_iff environ line).2 ⟨he, hl⟩
  rw [main_eq h]
  have e0 := no_version (libs := libs) h (by rw [hc]; decide) (by rw [hc]; decide)
  have e1 : ns.text "instance" = url := textValue_unique (meaning_trust h none).instance_ hu
  unfold dispatch
  rw [e0, hc, verbose_eq h, hp]
  dsimp only
  rw [e1]

/-- **C89** the same for `sigstore plumbing fix-bundle`: of the options that choose an instance, only `--staging` matters -/
theorem C89_fix_bundle (hc : line.command = .fixBundle) {path : Str} {staging upgrade inPlace : Bool}
    (hp : LastGiven ["--bundle"] line.sub path) (hs : FlagValue environ line.top "--staging" (some "SIGSTORE_STAGING") staging)
    (hu : FlagValue environ line.sub "--upgrade-version" none upgrade) (hi : FlagValue environ line.sub "--in-place" none inPlace) :
    Cli.main libs o environ line s =
      (some (mainHandler (verboseOf line) (fixBundleMain libs (Path.ofStr path) staging upgrade inPlace s).1),
       (fixBundleMain libs (Path.ofStr path) staging upgrade inPlace s).2) := by
  obtain ⟨ns, h⟩ := (C89_accepted_iff environ line).2 ⟨he, hl⟩
  rw [main_eq h]
  have e0 := no_version (libs := libs) h (by rw [hc]; decide) (by rw [hc]; decide)
  obtain ⟨p, hp', ep⟩ := sub_required h (names := ["--bundle"]) (dest := "bundle") (d := .null) (by rw [hc]; decide)
  obtain rfl := lastGiven_unique hp' hp
  have e1 : ns.flag "staging" = staging := flagValue_unique (meaning_trust h none).staging hs
  have e2 : ns.flag "upgrade_version" = upgrade := flagValue_unique (sub_switch h (by rw [hc]; decide)) hu
  have e3 : ns.flag "in_place" = inPlace := flagValue_unique (sub_switch h (by rw [hc]; decide)) hi
  have e4 : ns.path "bundle" = some (Path.ofStr p) := by unfold Namespace.path; rw [ep]; rfl
  unfold dispatch
  rw [e0, hc, verbose_eq h]
  dsimp only
  rw [e4]
  dsimp only
  rw [e1, e2, e3]

/-- **C89** the same for `sigstore plumbing update-trust-root` -/
theorem C89_update_trust_root (hc : line.command = .updateTrustRoot) {trust : TrustArgs}
    (ht : TrustOptions environ line.top line.sub false trust) (hv : trust.rekorVersion = none) :
    Cli.main libs o environ line s =
      (some (mainHandler (verboseOf line) (updateTrustRootMain libs o.now trust s).1),
       (updateTrustRootMain libs o.now trust s).2) := by
  obtain ⟨ns, h⟩ := (C89_accepted_iff environ line).2 ⟨he, hl⟩
  rw [main_eq h]
  have e0 := no_version (libs := libs) h (by rw [hc]; decide) (by rw [hc]; decide)
  have e1 : trustArgsOf ns none = trust := by
    refine trustOptions_unique ?_ ht hv.symm
    have := meaning_trust h none
    rw [hc] at this
    exact this
  unfold dispatch
  rw [e0, hc, verbose_eq h]
  dsimp only
  rw [e1]

end C89

/-- a value that is given last decides, whatever the environment says -/
theorem C89_given_decides {environ : Environ} {occs : List Occ} {names : List String} {var : Option String} {f : Option Str}
    {v : Str} (h : LastGiven names occs v) (t : Option Str) : TextValue environ occs names var f t ↔ t = some v :=
  ⟨fun h' => textValue_unique h' (.given h), by rintro rfl; exact .given h⟩

/-- every option has a value -/
theorem C89_total (environ : Environ) (occs : List Occ) (names : List String) (var : Option String) (f : Option Str)
    (hv : ∀ o ∈ occs, (∃ n ∈ names, o.name = n.toList) → o.value ≠ none) : ∃! t, TextValue environ occs names var f t := by
  have ex : (∃ v, LastGiven names occs v) ∨ ¬ Occurs names occs := by
    clear environ var f
    induction occs with
    | nil => exact .inr (by rintro ⟨_, h, _⟩; cases h)
    | cons o rest ih =>
      rcases ih fun o ho => hv o (List.mem_cons_of_mem _ ho) with ⟨v, hr⟩ | hr
      · exact .inl ⟨v, .later hr⟩
      · by_cases hn : ∃ n ∈ names, o.name = n.toList
        · obtain ⟨v, hv'⟩ := Option.ne_none_iff_exists'.1 (hv o List.mem_cons_self hn)
          exact .inl ⟨v, .here hn hv' hr⟩
        · refine .inr ?_
          rintro ⟨o', ho', hn'⟩
          rcases List.mem_cons.1 ho' with rfl | ho'
          · exact hn hn'
          · exact hr ⟨o', ho', hn'⟩
  have ex' : ∃ t, TextValue environ occs names var f t := by
    rcases ex with ⟨v, h⟩ | h
    · exact ⟨_, .given h⟩
    · by_cases he : ∃ x v, var = some x ∧ environ x.toList = some v
      · obtain ⟨x, v, h1, h2⟩ := he; exact ⟨_, .environment h h1 h2⟩
      · refine ⟨f, .default h ?_⟩
        intro x hx
        cases hq : environ x.toList with
        | none => rfl
        | some v => exact absurd ⟨x, v, hx, hq⟩ he
  obtain ⟨t, ht⟩ := ex'
  exact ⟨t, ht, fun t' ht' => textValue_unique ht' ht⟩

/-- **C89** a log version that is not a number is an error -/
theorem C89_bad_version (libs : MainLibs) (o : SignOracle) {environ : Environ} {line : CommandLine} (s : MainState)
    (he : EnvironOk environ) (hl : LineOk line) (hc : line.command = .sign ∨ line.command = .attest) {v : Str}
    (hv : LastGiven ["--rekor-version"] line.sub v) (hi : libs.int v = none) :
    Cli.main libs o environ line s = (some (.error (.systemExit 2)), s) := by
  obtain ⟨ns, h⟩ := (C89_accepted_iff environ line).2 ⟨he, hl⟩
  rw [main_eq h]
  have hr : rekorVersionArg libs ns = .error (.systemExit 2) := by
    have hno : ∀ w, rekorVersionArg libs ns ≠ .ok w := by
      intro w hw
      have := (meaning_version h libs hc w).1 hw
      cases w with
      | none => exact this (lastGiven_given hv)
      | some n =>
        obtain ⟨v', hv', hn⟩ := this
        rw [lastGiven_unique hv' hv, hi] at hn
        cases hn
    cases hq : rekorVersionArg libs ns with
    | ok w => exact absurd hq (hno w)
    | error e =>
      unfold rekorVersionArg at hq
      split at hq
      · cases hq
      · split at hq
        · rw [← Except.error.inj hq]
        · cases hq
  unfold dispatch
  rw [hr]

/-- **C89** an unsupported predicate type is an error -/
theorem C89_bad_predicate_type (libs : MainLibs) (o : SignOracle) {environ : Environ} {line : CommandLine} (s : MainState)
    (he : EnvironOk environ) (hl : LineOk line) (hc : line.command = .attest) {t : Str}
    (ht : LastGiven ["--predicate-type"] line.sub t) (h1 : t ≠ "https://slsa.dev/provenance/v0.2".toList)
    (h2 : t ≠ "https://slsa.dev/provenance/v1".toList) :
    Cli.main libs o environ line s = (some (.error (.systemExit 2)), s) := by
  obtain ⟨ns, h⟩ := (C89_accepted_iff environ line).2 ⟨he, hl⟩
  rw [main_eq h]
  obtain ⟨t', ht', et⟩ := sub_required h (names := ["--predicate-type"]) (dest := "predicate_type") (d := .null)
    (by rw [hc]; decide)
  obtain rfl := lastGiven_unique ht' ht
  have ha : attestArgsOf ns line.positional = .error (.systemExit 2) := by
    unfold attestArgsOf
    rw [et]
    split
    · rename_i p q _ hq
      obtain rfl := Option.some.inj hq
      rw [if_neg]
      rintro (h' | h')
      · exact h1 h'
      · exact h2 h'
    · rfl
  unfold dispatch
  cases hr : rekorVersionArg libs ns with
  | error e =>
    unfold rekorVersionArg at hr
    split at hr
    · cases hr
    · split at hr
      · rw [← Except.error.inj hr]
      · cases hr
  | ok v =>
    dsimp only
    rw [hc]
    dsimp only
    rw [ha]

/-! ## C90: where options and environment variables do not have the documented effect -/

/-- **C90** (refuted) The variables for the identity and the issuer never replace the options of `verify identity`. -/
theorem C90_identity_variables_ignored (libs : MainLibs) (o : SignOracle) (environ : Environ) (line : CommandLine)
    (s : MainState) (hc : line.command = .verifyIdentity)
    (hn : ¬ Occurs ["--cert-identity"] line.sub ∨ ¬ Occurs ["--cert-oidc-issuer"] line.sub) :
    ∃ e, Cli.main libs o environ line s = (some (.error e), s) ∧
      ((¬ EnvironOk environ ∧ e = .valueError) ∨ e = .systemExit 2 ∨ (e = .systemExit 0 ∧ AsksForHelp line)) := by
  cases h : parseArgs environ line with
  | ok ns =>
    obtain ⟨_, hl⟩ := (C89_accepted_iff environ line).1 ⟨ns, h⟩
    have hr := hl.required
    rw [hc] at hr
    rcases hn with hn | hn
    · exact absurd (hr "--cert-identity" (by decide)) hn
    · exact absurd (hr "--cert-oidc-issuer" (by decide)) hn
  | error e =>
    refine ⟨e, by unfold Cli.main; rw [h], ?_⟩
    rcases C89_rejected _ _ _ h with h' | ⟨_, h' | h'⟩
    · exact .inl h'
    · exact .inr (.inl h')
    · exact .inr (.inr h')

/-- **C90** (refuted) A switch that cannot be understood breaks every command with an uncaught `ValueError`, even the help and
commands that do not have the option. -/
theorem C90_malformed_switch (libs : MainLibs) (o : SignOracle) (environ : Environ) (line : CommandLine) (s : MainState)
    {x : String} (hx : x ∈ switches) {v : Str} (hv : environ x.toList = some v) (hy : ¬ Yes v) (hn : ¬ No v) :
    Cli.main libs o environ line s = (some (.error .valueError), s) := by
  have he : ¬ EnvironOk environ := by
    intro he
    rcases he x hx v hv with h | h
    · exact hy h
    · exact hn h
  cases h : parseArgs environ line with
  | ok ns => exact absurd ((C89_accepted_iff environ line).1 ⟨ns, h⟩).1 he
  | error e =>
    rcases C89_rejected _ _ _ h with ⟨_, rfl⟩ | ⟨h', _⟩
    · unfold Cli.main; rw [h]
    · exact absurd h' he

/-- the empty word is neither yes nor no, so a switch that is set to nothing is malformed -/
theorem C90_empty_switch : ¬ Yes [] ∧ ¬ No [] := by
  rw [yes_iff, no_iff]
  decide

/-- **C90** (refuted) A `-v` before the command has no effect. -/
theorem C90_early_verbose_ignored (environ : Environ) (line : CommandLine) (ns : Namespace) (h : parseArgs environ line = .ok ns)
    (k : Nat) : ∃ ns', parseArgs environ { line with top := line.top ++ List.replicate k ⟨"-v".toList, none⟩ } = .ok ns' ∧
      ns'.verbosity = ns.verbosity := by
  obtain ⟨he, hl⟩ := (C89_accepted_iff environ line).1 ⟨ns, h⟩
  have occ : ∀ x ∈ ["--staging", "--instance", "--trust-config"],
      Occurs [x] (line.top ++ List.replicate k ⟨"-v".toList, none⟩) → Occurs [x] line.top := by
    rintro x hx ⟨o, ho, n, hn, e⟩
    rcases List.mem_append.1 ho with ho | ho
    · exact ⟨o, ho, n, hn, e⟩
    · rw [List.eq_of_mem_replicate ho, List.mem_singleton.1 hn] at e
      exact absurd e ((by decide : ∀ x ∈ ["--staging", "--instance", "--trust-config"], "-v".toList ≠ x.toList) x hx)
  obtain ⟨ns', h'⟩ := (C89_accepted_iff environ { line with top := line.top ++ List.replicate k ⟨"-v".toList, none⟩ }).2
    ⟨he, { hl with
      top := by
        intro o ho
        rcases List.mem_append.1 ho with ho | ho
        · exact hl.top o ho
        · rw [List.eq_of_mem_replicate ho]
          exact .inr ⟨"-v", by decide, rfl, rfl⟩
      exclusive := fun x hx y hy h1 h2 => hl.exclusive x hx y hy (occ x hx h1) (occ y hy h2) }⟩
  exact ⟨ns', h', by rw [C90_verbosity_partial h', C90_verbosity_partial h]⟩

/-! ## C91: what a successful `sigstore verify` says -/

theorem exit_zero_cases {libs : MainLibs} {o : SignOracle} {environ : Environ} {line : CommandLine} {s : MainState} {r : Py Unit}
    (h : (Cli.main libs o environ line s).1 = some r) (hr : exitStatus r = 0) :
    AsksForHelp line ∨ (EnvironOk environ ∧ LineOk line) := by
  unfold Cli.main at h
  split at h
  · rename_i e he
    obtain rfl := Option.some.inj h
    rcases C89_rejected _ _ _ he with ⟨_, rfl⟩ | ⟨_, rfl | ⟨_, h'⟩⟩
    · cases hr
    · cases hr
    · exact .inl h'
  · rename_i ns hns
    exact .inr ((C89_accepted_iff environ line).1 ⟨ns, hns⟩)

/-- **C91** If `sigstore verify identity` exits with status 0, then either help was asked for, or every input was verified, under
the selected trust configuration, with a certificate that was issued to the identity given last on the command line, by the
issuer given last, whatever the environment says.  Missing: an empty issuer is not checked. -/
theorem C91_verify_identity_partial (libs : MainLibs) (o : SignOracle) (environ : Environ) (line : CommandLine) (s : MainState)
    (hc : line.command = .verifyIdentity) (hlib : LibrariesDoNotExit libs.verify (libs.sign.disk.fs s.sign.disk)) (r : Py Unit)
    (h : (Cli.main libs o environ line s).1 = some r) (hr : exitStatus r = 0) :
    AsksForHelp line ∨
    ∃ identity issuer trust config certs, LastGiven ["--cert-identity"] line.sub identity ∧
      LastGiven ["--cert-oidc-issuer"] line.sub issuer ∧ TrustOptions environ line.top line.sub true trust ∧
      (getTrustConfig (libs.sign.disk.fs s.sign.disk) libs.sign.tuf libs.sign.parsers trust s.sign.tuf).1 = .ok config ∧
      getFulcioCerts o.now config.root = .ok certs ∧ line.positional ≠ [] ∧
      ∀ arg ∈ line.positional, ∃ input digest b, ArgDenotes (libs.sign.disk.fs s.sign.disk) arg input ∧
        DigestOf libs.sign.env.crypto (libs.sign.disk.fs s.sign.disk) input digest ∧
        verifyCommon libs.sign.env o.now ⟨config.root, certs⟩ b (identityPolicy identity (some issuer)).verify = .ok () ∧
        (UniqueExts b.cert → (utf8 issuer).length < 4294967296 →
          IssuedTo b.cert identity ∧ (issuer ≠ [] → Claims b.cert .oidcIssuer issuer)) ∧
        (ArtifactOk libs.sign.env b digest ∨
          ∃ payload inner, DsseOk libs.sign.env b "application/vnd.in-toto+json".toList payload ∧
            libs.sign.codec.parse payload = some inner ∧ HasSubject inner digest) := by
  rcases exit_zero_cases h hr with h' | ⟨he, hl⟩
  · exact .inl h'
  · refine .inr ?_
    obtain ⟨ns, hns⟩ := (C89_accepted_iff environ line).2 ⟨he, hl⟩
    obtain ⟨i, hi, _⟩ := sub_required hns (names := ["--cert-identity"]) (dest := "cert_identity")
      (d := env "SIGSTORE_CERT_IDENTITY") (by rw [hc]; decide)
    obtain ⟨j, hj, _⟩ := sub_required hns (names := ["--cert-oidc-issuer"]) (dest := "cert_oidc_issuer")
      (d := env "SIGSTORE_CERT_OIDC_ISSUER") (by rw [hc]; decide)
    have ht : TrustOptions environ line.top line.sub true (trustArgsOf ns none) := by
      have := meaning_trust hns none
      rw [hc] at this
      exact this
    rw [C89_verify_identity libs o s he hl hc ht rfl (meaning_verify hns (.inl hc)) hi hj] at h
    obtain rfl := Option.some.inj h
    obtain ⟨config, policy, certs, h1, h2, h3, h4, h5⟩ := C44_exit_zero_sound _ _ hlib _ _ _ _ _ _ _ _ _ hr
    obtain rfl := Except.ok.inj h2
    refine ⟨i, j, _, config, certs, hi, hj, ht, h1, h3, h4, ?_⟩
    intro arg harg
    obtain ⟨input, digest, b, g1, g2, g3, g4, g5⟩ := h5 arg harg
    refine ⟨input, digest, b, g1, g2, g3, ?_, g5⟩
    intro hu hsz
    obtain ⟨k1, k2, _⟩ := (C22_identity_iff i (some j) b.cert hu
      (by intro x hx; rw [← Option.some.inj hx]; exact hsz)).1 g4
    exact ⟨k2, fun hne => k1 j rfl hne⟩

/-- **C91** The same for `sigstore verify github`: the certificate was issued for GitHub Actions, and every claim that is given,
on the command line or else in the environment, holds of it. -/
theorem C91_verify_github (libs : MainLibs) (o : SignOracle) (environ : Environ) (line : CommandLine) (s : MainState)
    (hc : line.command = .verifyGithub) (hlib : LibrariesDoNotExit libs.verify (libs.sign.disk.fs s.sign.disk)) (r : Py Unit)
    (h : (Cli.main libs o environ line s).1 = some r) (hr : exitStatus r = 0) :
    AsksForHelp line ∨
    ∃ claims trust config certs, GithubOptions environ line.sub claims ∧ TrustOptions environ line.top line.sub true trust ∧
      (getTrustConfig (libs.sign.disk.fs s.sign.disk) libs.sign.tuf libs.sign.parsers trust s.sign.tuf).1 = .ok config ∧
      getFulcioCerts o.now config.root = .ok certs ∧ line.positional ≠ [] ∧
      ((∃ v, Given claims.certIdentity v) ∨ ∃ v, Given claims.workflowRepository v) ∧
      ∀ arg ∈ line.positional, ∃ input digest b policy, ArgDenotes (libs.sign.disk.fs s.sign.disk) arg input ∧
        DigestOf libs.sign.env.crypto (libs.sign.disk.fs s.sign.disk) input digest ∧
        verifyCommon libs.sign.env o.now ⟨config.root, certs⟩ b policy = .ok () ∧
        (UniqueExts b.cert →
          (∀ o ∈ [claims.workflowTrigger, claims.workflowSha, claims.workflowName, claims.workflowRepository,
            claims.workflowRef], ∀ v, o = some v → (utf8 v).length < 4294967296) →
          Claims b.cert .oidcIssuer "https://token.actions.githubusercontent.com".toList ∧
          (∀ v, Given claims.certIdentity v → IssuedTo b.cert v) ∧
          (∀ v, Given claims.workflowTrigger v → Claims b.cert .githubWorkflowTrigger v) ∧
          (∀ v, Given claims.workflowSha v → Claims b.cert .githubWorkflowSha v) ∧
          (∀ v, Given claims.workflowName v → Claims b.cert .githubWorkflowName v) ∧
          (∀ v, Given claims.workflowRepository v → Claims b.cert .githubWorkflowRepository v) ∧
          (∀ v, Given claims.workflowRef v → Claims b.cert .githubWorkflowRef v)) ∧
        (ArtifactOk libs.sign.env b digest ∨
          ∃ payload inner, DsseOk libs.sign.env b "application/vnd.in-toto+json".toList payload ∧
            libs.sign.codec.parse payload = some inner ∧ HasSubject inner digest) := by
  rcases exit_zero_cases h hr with h' | ⟨he, hl⟩
  · exact .inl h'
  · refine .inr ?_
    obtain ⟨ns, hns⟩ := (C89_accepted_iff environ line).2 ⟨he, hl⟩
    have ht : TrustOptions environ line.top line.sub true (trustArgsOf ns none) := by
      have := meaning_trust hns none
      rw [hc] at this
      exact this
    have hg := meaning_github hns hc
    rw [C89_verify_github libs o s he hl hc ht rfl (meaning_verify hns (.inr hc)) hg] at h
    obtain rfl := Option.some.inj h
    obtain ⟨config, policy, certs, h1, h2, h3, h4, h5⟩ := C44_exit_zero_sound _ _ hlib _ _ _ _ _ _ _ _ _ hr
    refine ⟨_, _, config, certs, hg, ht, h1, h3, h4, ?_, ?_⟩
    · exact (C25_github_requires_identity_or_repository _).2.1 ⟨policy, h2⟩
    intro arg harg
    obtain ⟨input, digest, b, g1, g2, g3, g4, g5⟩ := h5 arg harg
    refine ⟨input, digest, b, _, g1, g2, g3, ?_, g5⟩
    intro hu hsz
    obtain ⟨k0, k1, k2⟩ := (C25_github_iff _ policy h2 b.cert hu hsz).2.1 g4
    exact ⟨k0, fun v hv => (k1 v hv).1, k2⟩

/-! ## C92: exceptions and verbosity -/

theorem mainHandler_clean {α : Type} {r : Py α} {e : Exc} (h : mainHandler false r = .error e) : e.isSigstoreError = false := by
  unfold mainHandler logAndExit at h
  split at h
  · cases h
  · split at h
    · rw [← Except.error.inj h]; rfl
    · rename_i h'
      rw [← Except.error.inj h]
      exact Bool.eq_false_iff.2 h'

theorem mainHandler_status {α : Type} (v : Bool) (r : Py α) : exitStatus (mainHandler v r) = exitStatus r := by
  unfold mainHandler logAndExit
  cases r with
  | ok a => rfl
  | error e => cases e <;> cases v <;> rfl

theorem parseInputs_error {fs : Fs} : ∀ {as : List Str} {e : Exc}, parseInputs fs as = .error e → e = .systemExit 2
  | [], e, h => by rw [parseInputs] at h; cases h
  | a :: as, e, h => by
    rw [parseInputs] at h
    split at h
    · exact (Except.error.inj h).symm
    · split at h
      · rename_i he
        rw [← Except.error.inj h]
        exact parseInputs_error he
      · cases h

theorem rekorVersionArg_error {libs : MainLibs} {ns : Namespace} {e : Exc} (h : rekorVersionArg libs ns = .error e) :
    e = .systemExit 2 := by
  unfold rekorVersionArg at h
  split at h
  · cases h
  · split at h
    · exact (Except.error.inj h).symm
    · cases h

theorem attestArgsOf_error {ns : Namespace} {p : List Str} {e : Exc} (h : attestArgsOf ns p = .error e) : e = .systemExit 2 := by
  unfold attestArgsOf at h
  split at h
  · split at h
    · cases h
    · exact (Except.error.inj h).symm
  · exact (Except.error.inj h).symm

theorem verifyMain_clean {venv : VerifyEnv} {fs : Fs} {now : Time} {cmd : VerifyCommand} {positional : List Str}
    {certificate signature bundle : Option Path} {trust : TrustArgs} {w w' : VerifyWorld} {e : Exc}
    (h : verifyMain venv fs now cmd false positional certificate signature bundle trust w = (.error e, w')) :
    e.isSigstoreError = false := by
  unfold verifyMain at h
  split at h
  · cases h; rfl
  · split at h
    · rename_i he
      cases h
      rw [parseInputs_error he]; rfl
    · exact mainHandler_clean (congrArg Prod.fst h)

/-- **C92** Without a `-v` after the command, no command ends with an uncaught error of sigstore: such errors are reported, and
the process exits with status 1. -/
theorem C92_no_uncaught_sigstore_error (libs : MainLibs) (o : SignOracle) (environ : Environ) (line : CommandLine)
    (s : MainState) (hv : timesGiven ["-v", "--verbose"] line.sub = 0) (e : Exc)
    (h : (Cli.main libs o environ line s).1 = some (.error e)) : e.isSigstoreError = false := by
  cases hp : parseArgs environ line with
  | error x =>
    unfold Cli.main at h
    rw [hp] at h
    obtain rfl := Except.error.inj (Option.some.inj h)
    rcases C89_rejected _ _ _ hp with ⟨_, rfl⟩ | ⟨_, rfl | ⟨rfl, _⟩⟩ <;> rfl
  | ok ns =>
    rw [main_eq hp] at h
    have hv' : decide (ns.verbosity ≥ 1) = false := by rw [C90_verbosity_partial hp, hv]; rfl
    unfold dispatch at h
    rw [hv'] at h
    dsimp only at h
    have hmap : ∀ {r : Option (Py Unit)}, r.map (mainHandler false) = some (.error e) → e.isSigstoreError = false := by
      intro r hr
      obtain ⟨r', _, hr'⟩ := Option.map_eq_some_iff.1 hr
      exact mainHandler_clean hr'
    cases hr : rekorVersionArg libs ns with
    | error x =>
      rw [hr] at h
      obtain rfl := Except.error.inj (Option.some.inj h)
      rw [rekorVersionArg_error hr]; rfl
    | ok version =>
      rw [hr] at h
      dsimp only at h
      cases hc : line.command <;> rw [hc] at h <;> dsimp only at h
      case attest =>
        split at h
        · rename_i x hx
          obtain rfl := Except.error.inj (Option.some.inj h)
          rw [attestArgsOf_error hx]; rfl
        · exact hmap h
      case sign => exact hmap h
      case verifyIdentity => exact verifyMain_clean (Prod.ext (Option.some.inj h) rfl)
      case verifyGithub => exact verifyMain_clean (Prod.ext (Option.some.inj h) rfl)
      case getIdentityToken => exact mainHandler_clean (Option.some.inj h)
      case trustInstance =>
        split at h
        · exact mainHandler_clean (Option.some.inj h)
        · obtain rfl := Except.error.inj (Option.some.inj h); rfl
      case fixBundle =>
        split at h
        · obtain rfl := Except.error.inj (Option.some.inj h); rfl
        · exact mainHandler_clean (Option.some.inj h)
      case updateTrustRoot => exact mainHandler_clean (Option.some.inj h)

theorem verifyLoop_status (venv : VerifyEnv) (now : Time) (v : Verifier) (policy : Cert → Py Unit) (decode a b : Bool) :
    ∀ items : List (VerifyInput × Hashed × Bundle),
      exitStatus (verifyLoop venv now v policy decode a items) = exitStatus (verifyLoop venv now v policy decode b items)
  | [] => rfl
  | (i, h, x) :: rest => by
    rw [verifyLoop, verifyLoop]
    cases verifyCommonCli venv now v h x policy with
    | error e => cases e <;> cases a <;> cases b <;> rfl
    | ok stmt =>
      dsimp only
      cases printStatement decode stmt with
      | error e => rfl
      | ok u => exact verifyLoop_status venv now v policy decode a b rest

theorem verifyMain_status (venv : VerifyEnv) (fs : Fs) (now : Time) (cmd : VerifyCommand) (positional : List Str)
    (certificate signature bundle : Option Path) (trust : TrustArgs) (w : VerifyWorld) (a b : Bool) :
    exitStatus (verifyMain venv fs now cmd a positional certificate signature bundle trust w).1 =
      exitStatus (verifyMain venv fs now cmd b positional certificate signature bundle trust w).1 ∧
    (verifyMain venv fs now cmd a positional certificate signature bundle trust w).2 =
      (verifyMain venv fs now cmd b positional certificate signature bundle trust w).2 := by
  unfold verifyMain
  cases positional with
  | nil => exact ⟨rfl, rfl⟩
  | cons p ps =>
    dsimp only
    cases parseInputs fs (p :: ps) with
    | error e => exact ⟨rfl, rfl⟩
    | ok inputs =>
      dsimp only
      rw [mainHandler_status, mainHandler_status]
      unfold verifyCommand
      cases cmd.policy with
      | error e => exact ⟨rfl, rfl⟩
      | ok policy =>
        dsimp only
        rcases collectState venv fs now ⟨inputs, certificate, signature, bundle, trust⟩ w with ⟨e | ⟨v, items⟩, w'⟩
        · exact ⟨rfl, rfl⟩
        · exact ⟨verifyLoop_status _ _ _ _ _ _ _ _, rfl⟩

/-- names that are not the verbose flag -/
def Loud (names : List String) : Prop := ∀ n ∈ names, n.toList ∉ ["-v", "--verbose"].map String.toList

instance (names : List String) : Decidable (Loud names) := by unfold Loud; infer_instance

theorem occurs_quiet {names : List String} (hn : Loud names) (occs : List Occ) : Occurs names (quiet occs) ↔ Occurs names occs := by
  constructor
  · rintro ⟨o, ho, h⟩
    exact ⟨o, (List.mem_filter.1 ho).1, h⟩
  · rintro ⟨o, ho, n, hm, e⟩
    exact ⟨o, List.mem_filter.2 ⟨ho, decide_eq_true (by rw [e]; exact hn n hm)⟩, n, hm, e⟩

theorem lastGiven_quiet {names : List String} (hn : Loud names) {v : Str} : ∀ (occs : List Occ),
    LastGiven names occs v → LastGiven names (quiet occs) v
  | _, .here (o := o) (rest := rest) ⟨n, hm, e⟩ hv ho => by
    have : quiet (o :: rest) = o :: quiet rest :=
      List.filter_cons_of_pos (decide_eq_true (by rw [e]; exact hn n hm))
    rw [this]
    exact .here ⟨n, hm, e⟩ hv (fun h => ho ((occurs_quiet hn _).1 h))
  | _, .later (o := o) (rest := rest) h => by
    have ih := lastGiven_quiet hn _ h
    unfold quiet at ih ⊢
    rw [List.filter_cons]
    split
    · exact .later ih
    · exact ih

theorem textValue_quiet {environ : Environ} {occs : List Occ} {names : List String} {var : Option String} {f t : Option Str}
    (hn : Loud names) (h : TextValue environ occs names var f t) : TextValue environ (quiet occs) names var f t := by
  cases h with
  | given h => exact .given (lastGiven_quiet hn _ h)
  | environment h h1 h2 => exact .environment (fun h' => h ((occurs_quiet hn _).1 h')) h1 h2
  | default h h1 => exact .default (fun h' => h ((occurs_quiet hn _).1 h')) h1

theorem pathValue_quiet {environ : Environ} {occs : List Occ} {names : List String} {var : Option String} {p : Option Path}
    (hn : Loud names) (h : PathValue environ occs names var p) : PathValue environ (quiet occs) names var p := by
  obtain ⟨t, ht, e⟩ := h
  exact ⟨t, textValue_quiet hn ht, e⟩

theorem flagValue_quiet {environ : Environ} {occs : List Occ} {name : String} {var : Option String} {b : Bool}
    (hn : Loud [name]) (h : FlagValue environ occs name var b) : FlagValue environ (quiet occs) name var b := by
  unfold FlagValue at *
  rw [occurs_quiet hn]
  exact h

theorem trustOptions_quiet {environ : Environ} {top sub : List Occ} {o : Bool} {t : TrustArgs}
    (h : TrustOptions environ top sub o t) : TrustOptions environ (quiet top) (quiet sub) o t where
  trustConfig := pathValue_quiet (by decide) h.trustConfig
  instance_ := textValue_quiet (by decide) h.instance_
  staging := flagValue_quiet (by decide) h.staging
  offline := by
    have := h.offline
    cases o with
    | true =>
      have h' : FlagValue environ sub "--offline" (some "SIGSTORE_OFFLINE") t.offline := this
      exact flagValue_quiet (by decide) h'
    | false => exact this

theorem identityOptions_quiet {environ : Environ} {sub : List Occ} {o : Bool} {i : IdentityArgs}
    (h : IdentityOptions environ sub o i) : IdentityOptions environ (quiet sub) o i where
  token := by
    have := h.token
    cases o with
    | true => exact textValue_quiet (by decide) this
    | false => exact this
  clientId := textValue_quiet (by decide) h.clientId
  clientSecret := textValue_quiet (by decide) h.clientSecret
  disableAmbient := flagValue_quiet (by decide) h.disableAmbient
  issuer := textValue_quiet (by decide) h.issuer
  forceOob := flagValue_quiet (by decide) h.forceOob

theorem signOptions_quiet {environ : Environ} {sub : List Occ} {p : List Str} {a : SignArgs}
    (h : SignOptions environ sub p a) : SignOptions environ (quiet sub) p a where
  files := h.files
  signature := pathValue_quiet (by decide) h.signature
  certificate := pathValue_quiet (by decide) h.certificate
  bundle := pathValue_quiet (by decide) h.bundle
  outputDirectory := pathValue_quiet (by decide) h.outputDirectory
  noDefaultFiles := flagValue_quiet (by decide) h.noDefaultFiles
  overwrite := flagValue_quiet (by decide) h.overwrite

theorem attestOptions_quiet {environ : Environ} {sub : List Occ} {p : List Str} {a : AttestArgs}
    (h : AttestOptions environ sub p a) : AttestOptions environ (quiet sub) p a where
  files := h.files
  predicate := by
    obtain ⟨s, hs, e⟩ := h.predicate
    exact ⟨s, lastGiven_quiet (by decide) _ hs, e⟩
  predicateType := lastGiven_quiet (by decide) _ h.predicateType
  supported := h.supported
  bundle := pathValue_quiet (by decide) h.bundle
  overwrite := flagValue_quiet (by decide) h.overwrite

theorem githubOptions_quiet {environ : Environ} {sub : List Occ} {a : GithubArgs}
    (h : GithubOptions environ sub a) : GithubOptions environ (quiet sub) a where
  identity := textValue_quiet (by decide) h.identity
  trigger := textValue_quiet (by decide) h.trigger
  sha := textValue_quiet (by decide) h.sha
  name := textValue_quiet (by decide) h.name
  repository := textValue_quiet (by decide) h.repository
  ref := textValue_quiet (by decide) h.ref

section Same

variable {environ : Environ} {line line' : CommandLine} {ns ns' : Namespace} (h : parseArgs environ line = .ok ns)
  (h' : parseArgs environ line' = .ok ns') (hs : SameButVerbose line line')

include h h' hs

theorem same_trust (v : Option Nat) : trustArgsOf ns v = trustArgsOf ns' v := by
  have a := trustOptions_quiet (meaning_trust h v)
  have b := trustOptions_quiet (meaning_trust h' v)
  rw [hs.command, hs.top, hs.sub] at a
  exact trustOptions_unique a b rfl

theorem same_version (libs : MainLibs) : rekorVersionArg libs ns = rekorVersionArg libs ns' := by
  by_cases hc : line.command = .sign ∨ line.command = .attest
  · have key : ∀ {l : CommandLine} {n : Namespace}, parseArgs environ l = .ok n → l.command = .sign ∨ l.command = .attest →
        TextValue environ (quiet l.sub) ["--rekor-version"] none none (n.text "rekor_version") := by
      intro l n g gc
      rcases version_text g gc with ⟨v, hv, e⟩ | ⟨hv, e⟩
      · rw [e]; exact textValue_quiet (by decide) (.given hv)
      · rw [e]; exact textValue_quiet (by decide) (.default hv (fun _ e => nomatch e))
    have a := key h hc
    have b := key h' (by rw [← hs.command]; exact hc)
    rw [hs.sub] at a
    unfold rekorVersionArg
    rw [textValue_unique a b]
  · rw [not_or] at hc
    rw [no_version h hc.1 hc.2, no_version h' (by rw [← hs.command]; exact hc.1) (by rw [← hs.command]; exact hc.2)]

theorem same_identity (hc : line.command = .sign ∨ line.command = .attest ∨ line.command = .getIdentityToken) :
    identityArgsOf ns = identityArgsOf ns' := by
  have a := identityOptions_quiet (meaning_identity h hc)
  have b := identityOptions_quiet (meaning_identity h' (by rw [← hs.command]; exact hc))
  rw [hs.command, hs.sub] at a
  exact identityOptions_unique a b

theorem same_sign (hc : line.command = .sign) : signArgsOf ns line.positional = signArgsOf ns' line'.positional := by
  have a := signOptions_quiet (meaning_sign h hc)
  have b := signOptions_quiet (meaning_sign h' (by rw [← hs.command]; exact hc))
  rw [← hs.positional] at b
  rw [hs.sub] at a
  rw [← hs.positional]
  exact signOptions_unique a b

theorem same_required {names : List String} {dest : String} {d : Default} (hn : Loud names)
    (ho : opt names dest d true ∈ line.command.options) : ns.text dest = ns'.text dest := by
  obtain ⟨v, hv, e⟩ := sub_required h ho
  obtain ⟨v', hv', e'⟩ := sub_required h' (by rw [← hs.command]; exact ho)
  have a := lastGiven_quiet hn _ hv
  have b := lastGiven_quiet hn _ hv'
  rw [hs.sub] at a
  rw [e, e', lastGiven_unique a b]

theorem same_path {names : List String} {dest var : String} (hn : Loud names)
    (ho : opt names dest (env var) false ∈ line.command.options) : ns.path dest = ns'.path dest := by
  have a := pathValue_quiet hn (sub_path h ho)
  have b := pathValue_quiet hn (sub_path h' (by rw [← hs.command]; exact ho))
  rw [hs.sub] at a
  exact pathValue_unique a b

theorem same_flag {name dest var : String} (hn : Loud [name]) (ho : optFlag name dest (envFlag var) ∈ line.command.options) :
    ns.flag dest = ns'.flag dest := by
  have a := flagValue_quiet hn (sub_flag h ho)
  have b := flagValue_quiet hn (sub_flag h' (by rw [← hs.command]; exact ho))
  rw [hs.sub] at a
  exact flagValue_unique a b

theorem same_switch {name dest : String} (hn : Loud [name]) (ho : optFlag name dest .off ∈ line.command.options) :
    ns.flag dest = ns'.flag dest := by
  have a := flagValue_quiet hn (sub_switch h ho)
  have b := flagValue_quiet hn (sub_switch h' (by rw [← hs.command]; exact ho))
  rw [hs.sub] at a
  exact flagValue_unique a b

theorem same_attest (hc : line.command = .attest) : attestArgsOf ns line.positional = attestArgsOf ns' line'.positional := by
  unfold attestArgsOf Namespace.path
  rw [same_required h h' hs (names := ["--predicate"]) (dest := "predicate") (d := .null) (by decide) (by rw [hc]; decide),
    same_required h h' hs (names := ["--predicate-type"]) (dest := "predicate_type") (d := .null) (by decide)
      (by rw [hc]; decide), ← hs.positional,
    same_flag h h' hs (name := "--overwrite") (dest := "overwrite") (var := "SIGSTORE_OVERWRITE") (by decide)
      (by rw [hc]; decide)]
  have := same_path h h' hs (names := ["--bundle"]) (dest := "bundle") (var := "SIGSTORE_BUNDLE") (by decide)
      (by rw [hc]; decide)
  unfold Namespace.path at this
  rw [this]

theorem same_github (hc : line.command = .verifyGithub) : githubArgsOf ns = githubArgsOf ns' := by
  have a := githubOptions_quiet (meaning_github h hc)
  have b := githubOptions_quiet (meaning_github h' (by rw [← hs.command]; exact hc))
  rw [hs.sub] at a
  exact githubOptions_unique a b

end Same

/-- **C92** `-v` and `--verbose`, wherever they are given, change neither the exit status nor what the command does. -/
theorem C92_verbose_changes_nothing (libs : MainLibs) (o : SignOracle) (environ : Environ) (line line' : CommandLine)
    (s : MainState) (hs : SameButVerbose line line') (hl : LineOk line) (hl' : LineOk line') :
    (Cli.main libs o environ line s).2 = (Cli.main libs o environ line' s).2 ∧
    (Cli.main libs o environ line s).1.map exitStatus = (Cli.main libs o environ line' s).1.map exitStatus := by
  by_cases he : EnvironOk environ
  · obtain ⟨ns, h⟩ := (C89_accepted_iff environ line).2 ⟨he, hl⟩
    obtain ⟨ns', h'⟩ := (C89_accepted_iff environ line').2 ⟨he, hl'⟩
    rw [main_eq h, main_eq h']
    have hm : ∀ (a b : Bool) (r : Option (Py Unit)),
        (r.map (mainHandler a)).map exitStatus = (r.map (mainHandler b)).map exitStatus := by
      intro a b r
      cases r with
      | none => rfl
      | some r => exact congrArg some ((mainHandler_status a r).trans (mainHandler_status b r).symm)
    unfold dispatch
    rw [same_version h h' hs libs]
    dsimp only
    cases rekorVersionArg libs ns' with
    | error e => exact ⟨rfl, rfl⟩
    | ok version =>
      dsimp only
      rw [same_trust h h' hs version]
      have hcc := hs.command
      cases hc : line.command <;> rw [hc] at hcc <;> rw [← hcc] <;> dsimp only
      case sign =>
        rw [same_identity h h' hs (.inl hc), same_sign h h' hs hc]
        exact ⟨rfl, hm _ _ _⟩
      case attest =>
        rw [same_identity h h' hs (.inr (.inl hc)), same_attest h h' hs hc]
        cases attestArgsOf ns' line'.positional with
        | error e => exact ⟨rfl, rfl⟩
        | ok args => exact ⟨rfl, hm _ _ _⟩
      case verifyIdentity =>
        rw [same_path h h' hs (names := ["--certificate", "--cert"]) (dest := "certificate") (var := "SIGSTORE_CERTIFICATE")
            (by decide) (by rw [hc]; decide),
          same_path h h' hs (names := ["--signature"]) (dest := "signature") (var := "SIGSTORE_SIGNATURE")
            (by decide) (by rw [hc]; decide),
          same_path h h' hs (names := ["--bundle"]) (dest := "bundle") (var := "SIGSTORE_BUNDLE")
            (by decide) (by rw [hc]; decide), hs.positional,
          same_required h h' hs (names := ["--cert-identity"]) (dest := "cert_identity") (d := env "SIGSTORE_CERT_IDENTITY")
            (by decide) (by rw [hc]; decide),
          same_required h h' hs (names := ["--cert-oidc-issuer"]) (dest := "cert_oidc_issuer")
            (d := env "SIGSTORE_CERT_OIDC_ISSUER") (by decide) (by rw [hc]; decide)]
        obtain ⟨h1, h2⟩ := verifyMain_status libs.verify (libs.sign.disk.fs s.sign.disk) o.now
          (.identity ((ns'.text "cert_identity").getD []) ((ns'.text "cert_oidc_issuer").getD [])) line'.positional
          (ns'.path "certificate") (ns'.path "signature") (ns'.path "bundle") (trustArgsOf ns' version)
          ⟨s.sign.tuf, s.queries⟩ (decide (ns.verbosity ≥ 1)) (decide (ns'.verbosity ≥ 1))
        exact ⟨congrArg s.ofVerify h2, congrArg some h1⟩
      case verifyGithub =>
        rw [same_path h h' hs (names := ["--certificate", "--cert"]) (dest := "certificate") (var := "SIGSTORE_CERTIFICATE")
            (by decide) (by rw [hc]; decide),
          same_path h h' hs (names := ["--signature"]) (dest := "signature") (var := "SIGSTORE_SIGNATURE")
            (by decide) (by rw [hc]; decide),
          same_path h h' hs (names := ["--bundle"]) (dest := "bundle") (var := "SIGSTORE_BUNDLE")
            (by decide) (by rw [hc]; decide), hs.positional, same_github h h' hs hc]
        obtain ⟨h1, h2⟩ := verifyMain_status libs.verify (libs.sign.disk.fs s.sign.disk) o.now
          (.github (githubArgsOf ns')) line'.positional
          (ns'.path "certificate") (ns'.path "signature") (ns'.path "bundle") (trustArgsOf ns' version)
          ⟨s.sign.tuf, s.queries⟩ (decide (ns.verbosity ≥ 1)) (decide (ns'.verbosity ≥ 1))
        exact ⟨congrArg s.ofVerify h2, congrArg some h1⟩
      case getIdentityToken =>
        rw [same_identity h h' hs (.inr (.inr hc))]
        exact ⟨rfl, hm _ _ (some _)⟩
      case trustInstance =>
        have ht : ns.text "instance" = ns'.text "instance" := congrArg TrustArgs.instance_ (same_trust h h' hs none)
        rw [hs.positional, ht]
        split
        · exact ⟨rfl, hm _ _ (some _)⟩
        · exact ⟨rfl, rfl⟩
      case fixBundle =>
        have ht : ns.flag "staging" = ns'.flag "staging" := congrArg TrustArgs.staging (same_trust h h' hs none)
        have hp : ns.path "bundle" = ns'.path "bundle" := by
          unfold Namespace.path
          rw [same_required h h' hs (names := ["--bundle"]) (dest := "bundle") (d := .null) (by decide) (by rw [hc]; decide)]
        rw [ht, hp, same_switch h h' hs (name := "--upgrade-version") (dest := "upgrade_version") (by decide)
            (by rw [hc]; decide),
          same_switch h h' hs (name := "--in-place") (dest := "in_place") (by decide) (by rw [hc]; decide)]
        split
        · exact ⟨rfl, rfl⟩
        · exact ⟨rfl, hm _ _ (some _)⟩
      case updateTrustRoot => exact ⟨rfl, hm _ _ (some _)⟩
  · have key : ∀ l : CommandLine, Cli.main libs o environ l s = (some (.error .valueError), s) := by
      intro l
      cases h : parseArgs environ l with
      | ok ns => exact absurd ((C89_accepted_iff environ l).1 ⟨ns, h⟩).1 he
      | error e =>
        rcases C89_rejected _ _ _ h with ⟨_, rfl⟩ | ⟨h', _⟩
        · unfold Cli.main; rw [h]
        · exact absurd h' he
    rw [key, key]
    exact ⟨rfl, rfl⟩

end Sigstore.Props
