import Verif.Props.FixBundleFile

/-!
# Concrete command lines
-/

namespace Sigstore.Props

open Sigstore.Trust Sigstore.LogEntry Sigstore.Dsse Sigstore.Signing Sigstore.Cli Sigstore.Spec Sigstore.Args

/-- an empty environment -/
def exNoEnviron : Environ := fun _ => none

/-- an option with a value -/
def exOcc (name value : String) : Occ := ⟨name.toList, some value.toList⟩

/-- a flag -/
def exFlag (name : String) : Occ := ⟨name.toList, none⟩

theorem exLastGiven (name value : String) : LastGiven [name] [exOcc name value] value.toList :=
  .here ⟨name, List.mem_singleton.2 rfl, rfl⟩ rfl (by rintro ⟨_, h, _⟩; cases h)

/-- an option that is neither given nor in the environment -/
theorem exAbsent {occs : List Occ} {names : List String} {var : Option String} {f : Option Str}
    (h : ∀ o ∈ occs, ∀ n ∈ names, o.name ≠ n.toList) : TextValue exNoEnviron occs names var f f :=
  .default (by rintro ⟨o, ho, n, hn, e⟩; exact h o ho n hn e) (fun _ _ => rfl)

theorem exAbsentPath {occs : List Occ} {names : List String} {var : Option String}
    (h : ∀ o ∈ occs, ∀ n ∈ names, o.name ≠ n.toList) : PathValue exNoEnviron occs names var none :=
  ⟨none, exAbsent h, rfl⟩

theorem exAbsentFlag {occs : List Occ} {name : String} {var : Option String}
    (h : ∀ o ∈ occs, ∀ n ∈ [name], o.name ≠ n.toList) : FlagValue exNoEnviron occs name var false := by
  constructor
  · intro h'; cases h'
  · rintro (⟨o, ho, n, hn, e⟩ | ⟨x, v, _, h', _⟩)
    · exact absurd e (h o ho n hn)
    · cases h'

/-! ## `sigstore --trust-config t sign --identity-token x a b` -/

/-- the line -/
def exSignLine : CommandLine :=
  ⟨[exOcc "--trust-config" "t"], [], .sign, [exOcc "--identity-token" "x"], ["a".toList, "b".toList]⟩

theorem exSignLine_ok : EnvironOk exNoEnviron ∧ LineOk exSignLine :=
  (C89_accepted_iff _ _).1 ⟨_, rfl⟩

/-- the libraries of the signing examples -/
def exMainSign : MainLibs := { exMainLibs 'B' with sign := exSignLibs }

/-- it means what it says, and so the command signs both files -/
theorem exMainSigned : (Cli.main exMainSign (exOracle exTurns) exNoEnviron exSignLine
    ⟨exSignState [(exPath "a", 1), (exPath "b", 2)], [], []⟩).1 = some (.ok ()) := by
  rw [C89_sign exMainSign (exOracle exTurns) _ exSignLine_ok.1 exSignLine_ok.2 rfl (trust := exTrust) (ident := exIdent)
    (args := exSignArgs)
    ⟨⟨some "t".toList, .given (exLastGiven _ _), rfl⟩, exAbsent (by decide), exAbsentFlag (by decide), rfl⟩
    (by rintro ⟨o, ho, n, hn, e⟩; revert o n; decide)
    ⟨.given (exLastGiven "--identity-token" "x"), exAbsent (by decide), exAbsent (by decide), exAbsentFlag (by decide),
     exAbsent (by decide), exAbsentFlag (by decide)⟩
    ⟨rfl, exAbsentPath (by decide), exAbsentPath (by decide), exAbsentPath (by decide), exAbsentPath (by decide),
     exAbsentFlag (by decide), exAbsentFlag (by decide)⟩]
  show Option.map _ (signMain exSignLibs (exOracle exTurns) exTrust exIdent exSignArgs
    (exSignState [(exPath "a", 1), (exPath "b", 2)])).1 = _
  rw [exSigned]
  rfl

/-- a version that is not a number -/
example : Cli.main exMainSign (exOracle exTurns) exNoEnviron
    { exSignLine with sub := [exOcc "--rekor-version" "two"] } exMainState = (some (.error (.systemExit 2)), exMainState) :=
  C89_bad_version _ _ _ exSignLine_ok.1 ((C89_accepted_iff exNoEnviron _).1 ⟨_, rfl⟩).2 (.inl rfl) (exLastGiven _ _) rfl

/-- an unknown predicate -/
example : Cli.main exMainSign (exOracle exTurns) exNoEnviron
    { exSignLine with command := .attest, sub := [exOcc "--predicate" "p", exOcc "--predicate-type" "x"] } exMainState =
      (some (.error (.systemExit 2)), exMainState) :=
  C89_bad_predicate_type _ _ _ exSignLine_ok.1 ((C89_accepted_iff exNoEnviron _).1 ⟨_, rfl⟩).2 rfl
    (.later (exLastGiven _ _)) (by decide) (by decide)

/-- two ways to choose an instance are too many -/
example : ¬ LineOk { exSignLine with top := [exOcc "--trust-config" "t", exFlag "--staging"] } := by
  intro h
  have := h.exclusive "--staging" (by decide) "--trust-config" (by decide)
    ⟨exFlag "--staging", .tail _ (.head _), "--staging", .head _, rfl⟩
    ⟨exOcc "--trust-config" "t", .head _, "--trust-config", .head _, rfl⟩
  exact absurd this (by decide)

/-- the last of several values counts, and an empty value on the line overrides the environment -/
example : TextValue (fun x => if x = "SIGSTORE_OIDC_ISSUER".toList then some "e".toList else none)
    [exOcc "--oidc-issuer" "a", exOcc "--oidc-issuer" ""] ["--oidc-issuer"] (some "SIGSTORE_OIDC_ISSUER") none (some []) :=
  .given (.later (exLastGiven "--oidc-issuer" ""))

/-! ## `sigstore --trust-config t verify identity --cert-identity me --cert-oidc-issuer https://i a` -/

/-- the line -/
def exVerifyLine : CommandLine :=
  ⟨[exOcc "--trust-config" "t"], [], .verifyIdentity, [exOcc "--cert-identity" "me", exOcc "--cert-oidc-issuer" "https://i"],
   ["a".toList]⟩

theorem exVerifyLine_ok : EnvironOk exNoEnviron ∧ LineOk exVerifyLine :=
  (C89_accepted_iff _ _).1 ⟨_, rfl⟩

/-- the files of the verification examples -/
def exVerifyState : MainState :=
  ⟨⟨exTufWorld, ⟨0, []⟩, fun p =>
    if p = Path.ofStr "a".toList then some (.file exArtifact)
    else if p = Path.ofStr "a.sigstore.json".toList then some (.file [1])
    else if p = Path.ofStr "t".toList then some (.file [2])
    else none⟩, [], []⟩

/-- the libraries of the verification examples -/
def exMainVerify : MainLibs :=
  { exMainLibs 'B' with
    sign := { exSignLibs with env := exVEnv, parsers := exVerifyEnv.parsers, codec := exVerifyEnv.codec }
    parseBundle := exVerifyEnv.parseBundle }

theorem exMainVerify_eq : exMainVerify.verify = exVerifyEnv := rfl

theorem exMainFs_eq : exMainVerify.sign.disk.fs exVerifyState.sign.disk = exVerifyFs := by
  unfold DiskEnv.fs exVerifyFs
  congr 1
  · funext p
    show (match exVerifyState.sign.disk p with | some (.file _) => true | _ => false) = _
    dsimp only [exVerifyState]
    by_cases h1 : p = Path.ofStr "a".toList
    · subst h1; decide
    · by_cases h2 : p = Path.ofStr "a.sigstore.json".toList
      · subst h2; decide
      · by_cases h3 : p = Path.ofStr "t".toList
        · subst h3; decide
        · rw [if_neg h1, if_neg h2, if_neg h3]
          refine (decide_eq_false ?_).symm
          intro h
          rcases List.mem_cons.1 h with h | h
          · exact h1 h
          rcases List.mem_cons.1 h with h | h
          · exact h2 h
          · exact h3 (List.mem_singleton.1 h)
  · funext p
    show (match exVerifyState.sign.disk p with | some (.file c) => if true = true then Except.ok c else _ | _ => _) = _
    dsimp only [exVerifyState]
    by_cases h1 : p = Path.ofStr "a".toList
    · rw [if_pos h1, if_pos h1]; rfl
    · by_cases h2 : p = Path.ofStr "a.sigstore.json".toList
      · rw [if_neg h1, if_pos h2, if_neg h1, if_pos h2]; rfl
      · by_cases h3 : p = Path.ofStr "t".toList
        · rw [if_neg h1, if_neg h2, if_pos h3, if_neg h1, if_neg h2, if_pos h3]; rfl
        · rw [if_neg h1, if_neg h2, if_neg h3, if_neg h1, if_neg h2, if_neg h3]

theorem exTrustOptions : TrustOptions exNoEnviron exVerifyLine.top exVerifyLine.sub true
    ⟨some (Path.ofStr "t".toList), none, false, false, none⟩ :=
  ⟨⟨some "t".toList, .given (exLastGiven _ _), rfl⟩, exAbsent (by decide), exAbsentFlag (by decide),
   exAbsentFlag (by decide)⟩

/-- the command exits with status 0 -/
theorem exMainVerified : ∃ r, (Cli.main exMainVerify { exOracle [] with now := 3000000000 } exNoEnviron exVerifyLine
    exVerifyState).1 = some r ∧ exitStatus r = 0 := by
  refine ⟨_, by
    rw [C89_verify_identity exMainVerify _ _ exVerifyLine_ok.1 exVerifyLine_ok.2 rfl exTrustOptions rfl
      ⟨exAbsentPath (by decide), exAbsentPath (by decide), exAbsentPath (by decide)⟩
      (identity := "me".toList) (issuer := "https://i".toList)
      (.here ⟨_, .head _, rfl⟩ rfl (by rintro ⟨o, ho, n, hn, e⟩; revert o n; decide)) (.later (exLastGiven _ _))], ?_⟩
  unfold verifyRun
  rw [exMainVerify_eq, exMainFs_eq]
  exact exVerified false

/-- so it says what C91 says -/
example : ∃ identity issuer trust config certs, LastGiven ["--cert-identity"] exVerifyLine.sub identity ∧
    LastGiven ["--cert-oidc-issuer"] exVerifyLine.sub issuer ∧
    TrustOptions exNoEnviron exVerifyLine.top exVerifyLine.sub true trust ∧
    (getTrustConfig exVerifyFs exMainVerify.sign.tuf exMainVerify.sign.parsers trust exVerifyState.sign.tuf).1 = .ok config ∧
    getFulcioCerts 3000000000 config.root = .ok certs := by
  obtain ⟨r, h1, h2⟩ := exMainVerified
  rcases C91_verify_identity_partial exMainVerify _ exNoEnviron exVerifyLine exVerifyState rfl
    (by rw [exMainVerify_eq, exMainFs_eq]; exact exLibraries) r h1 h2 with h | ⟨i, j, t, c, cs, g1, g2, g3, g4, g5, _⟩
  · exfalso
    rcases h with ⟨o, ho, n, hn, e⟩ | ⟨o, ho, n, hn, e⟩ | ⟨o, ho, n, hn, e⟩ <;> revert o n <;> decide
  · rw [exMainFs_eq] at g4
    exact ⟨i, j, t, c, cs, g1, g2, g3, g4, g5⟩

/-- The identity in the environment is not enough: the user gets a usage error. -/
example : ∃ environ : Environ, environ "SIGSTORE_CERT_IDENTITY".toList = some "me".toList ∧
    environ "SIGSTORE_CERT_OIDC_ISSUER".toList = some "https://i".toList ∧
    Cli.main exMainVerify (exOracle []) environ { exVerifyLine with sub := [] } exVerifyState =
      (some (.error (.systemExit 2)), exVerifyState) :=
  ⟨fun x => if x = "SIGSTORE_CERT_IDENTITY".toList then some "me".toList
    else if x = "SIGSTORE_CERT_OIDC_ISSUER".toList then some "https://i".toList else none, by decide, by decide, rfl⟩

/-- For `verify github` the environment is enough. -/
example : ∃ ns, parseArgs (fun x => if x = "SIGSTORE_CERT_IDENTITY".toList then some "me".toList else none)
      { exVerifyLine with command := .verifyGithub, sub := [] } = .ok ns ∧
    (githubArgsOf ns).certIdentity = some "me".toList :=
  ⟨_, rfl, rfl⟩

/-- `SIGSTORE_OVERWRITE= sigstore --help` fails -/
example : Cli.main exMainVerify (exOracle [])
    (fun x => if x = "SIGSTORE_OVERWRITE".toList then some [] else none)
    { exVerifyLine with top := [exFlag "--help"] } exVerifyState = (some (.error .valueError), exVerifyState) :=
  C90_malformed_switch _ _ _ _ _ (x := "SIGSTORE_OVERWRITE") (by decide) (by decide) C90_empty_switch.1 C90_empty_switch.2

/-- without the variable, the help is shown -/
example : Cli.main exMainVerify (exOracle []) exNoEnviron { exVerifyLine with top := [exFlag "--help"] } exVerifyState =
    (some (.error (.systemExit 0)), exVerifyState) := rfl

/-- switches are words in any case -/
example : Yes "On".toList ∧ No "FALSE".toList ∧ ¬ Yes "2".toList ∧ ¬ No "2".toList := by
  rw [yes_iff, no_iff, yes_iff, no_iff]
  decide

/-! ## Errors -/

/-- `sigstore --trust-config t get-identity-token` with an issuer that cannot be reached -/
def exTokenLine (sub : List Occ) : CommandLine := ⟨[exOcc "--trust-config" "t"], [], .getIdentityToken, sub, []⟩

/-- it exits with status 1; with `-v` the error is raised -/
example :
    (Cli.main exMainSign (exOracle []) exNoEnviron (exTokenLine []) exMainState).1 = some (.error (.systemExit 1)) ∧
    (Cli.main exMainSign (exOracle []) exNoEnviron (exTokenLine [exFlag "-v"]) exMainState).1 = some (.error .network) := by
  constructor <;> decide +kernel

/-- the lines of C92 -/
example : SameButVerbose (exTokenLine []) (exTokenLine [exFlag "--verbose", exFlag "-v"]) ∧ LineOk (exTokenLine []) ∧
    LineOk (exTokenLine [exFlag "--verbose", exFlag "-v"]) :=
  ⟨⟨rfl, rfl, rfl, rfl⟩, ((C89_accepted_iff exNoEnviron _).1 ⟨_, rfl⟩).2, ((C89_accepted_iff exNoEnviron _).1 ⟨_, rfl⟩).2⟩

/-- `sigstore --instance https://x plumbing fix-bundle --bundle a` asks the production log -/
example : (Cli.main (exMainLibs 'B') (exOracle []) exNoEnviron
    ⟨[exOcc "--instance" "https://x"], [], .fixBundle, [exOcc "--bundle" "a"], []⟩ exMainState).2.stdout = [['B']] := by
  decide +kernel

end Sigstore.Props
