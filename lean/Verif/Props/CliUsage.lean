import Verif.Props.CliMainStatus
import Verif.Spec.Usage

/-!
# C100: unusable arguments are refused with exit status 2, before anything happens
-/

namespace Sigstore.Props

open Sigstore.Trust Sigstore.LogEntry Sigstore.Dsse Sigstore.Signing Sigstore.Cli Sigstore.Spec Sigstore.Args Sigstore.Tuf

/-- `sigstore attest` can start: the predicate is a file with a JSON document that its type allows, every input is a file,
and no output exists yet unless it may be overwritten -/
structure UsableAttest (e : DiskEnv) (loads : Str → Option Json) (args : AttestArgs) (d : Disk) : Prop where
  predicate : ∃ content text pred, d (e.resolve args.predicate) = some (.file content) ∧ utf8Decode content = some text ∧
    loads text = some (.obj pred) ∧ AcceptedPredicate args.predicateType (.obj pred)
  inputs : ∀ f ∈ args.files, ∃ c, d (e.resolve f) = some (.file c)
  outputs : args.overwrite = false → ∀ f ∈ args.files, ∀ p, AttestBundlePath args f p → d (e.resolve p) = none

/-- the predicate, if it is a file, can be read as text -/
def PredicateReadable (e : DiskEnv) (args : AttestArgs) (d : Disk) : Prop :=
  ∀ content, d (e.resolve args.predicate) = some (.file content) →
    e.canRead args.predicate = true ∧ ∃ text, utf8Decode content = some text


/-! ## `sigstore verify` -/

theorem fileMaterials_error {fs : Fs} {args : VerifyArgs} {p : Path} {e : Exc} (h : fileMaterials fs args p = .error e) :
    e = .systemExit 2 := by
  unfold fileMaterials defaultBundle at h
  dsimp only at h
  split at h
  · cases h; rfl
  · split at h
    · rename_i x hx
      cases h
      split at hx
      · cases hx
      · split at hx
        · cases hx
        · split at hx <;> cases hx; rfl
    · split at h
      · split at h <;> cases h; rfl
      · split at h <;> cases h; rfl

theorem fileLoop_error {fs : Fs} {args : VerifyArgs} {e : Exc} : ∀ {inputs : List VerifyInput} {map : Dict VerifyInput Materials},
    fileLoop fs args map inputs = .error e → e = .systemExit 2
  | [], _, h => by cases h
  | .digest _ :: rest, _, h => by rw [fileLoop] at h; exact fileLoop_error h
  | .file p :: rest, map, h => by
    rw [fileLoop] at h
    split at h
    · rename_i x hx
      cases h
      exact fileMaterials_error hx
    · exact fileLoop_error h

/-- the checks of the options fail with status 2 only, although the code for digests could also fail otherwise -/
theorem inputMap_error {fs : Fs} {args : VerifyArgs} {e : Exc} (h : inputMap fs args = .error e) : e = .systemExit 2 := by
  unfold inputMap at h
  dsimp only at h
  split at h
  · cases h; rfl
  · split at h
    · cases h; rfl
    · split at h
      · cases h; rfl
      · rename_i h3
        split at h
        · cases h; rfl
        · split at h
          · rename_i x hx
            cases h
            exact fileLoop_error hx
          · rename_i hl
            split at h
            · rename_i input hi
              split at h
              · rename_i x hx
                cases h
                cases input with
                | file p =>
                  rw [hi, fileLoop] at hl
                  split at hl
                  · cases hl
                  · rw [fileLoop] at hl; simp [Dict.set] at hl
                | digest d =>
                  have hany : args.inputs.any VerifyInput.isDigest = true := by rw [hi]; rfl
                  rw [hany] at h3
                  unfold digestMaterials at hx
                  split at hx
                  · split at hx
                    · split at hx <;> cases hx; rfl
                    · rename_i hs hne
                      exfalso
                      revert h3
                      cases hb : args.bundle <;> cases hcc : args.certificate <;> cases hss : args.signature <;> simp_all
                  · split at hx
                    · rename_i hs hb
                      exfalso
                      revert h3
                      cases hcc : args.certificate <;> cases hss : args.signature <;> simp_all
                    · split at hx <;> cases hx; rfl
              · cases h
            · cases h; rfl
          · cases h

theorem verifyPolicy_error {cmd : VerifyCommand} {e : Exc} (h : cmd.policy = .error e) : e = .systemExit 2 := by
  cases cmd with
  | identity i j => cases h
  | github a =>
    change githubPolicy a = _ at h
    unfold githubPolicy at h
    split at h <;> cases h; rfl

/-- **C100** If the arguments of `sigstore verify` are not usable, because one is neither a file nor a digest, because the options
do not fit together, because something to verify with is missing or ambiguous, or because `verify github` is given neither an identity nor
a repository, then the exit status is 2, and nothing was contacted or asked for. -/
theorem C100_verify (venv : VerifyEnv) (fs : Fs) (now : Time) (cmd : VerifyCommand) (verbose : Bool) (positional : List Str)
    (certificate signature bundle : Option Path) (trust : TrustArgs) (w : VerifyWorld)
    (h : ¬ UsableVerify fs positional certificate signature bundle trust ∨ ∀ p, cmd.policy ≠ .ok p) :
    verifyMain venv fs now cmd verbose positional certificate signature bundle trust w = (.error (.systemExit 2), w) := by
  unfold verifyMain
  split
  · rfl
  · rename_i a as
    cases hp : parseInputs fs (a :: as) with
    | error e => rw [parseInputs_error hp]
    | ok inputs =>
      dsimp only
      have hf := (parseInputs_iff fs _ _).1 hp
      unfold verifyCommand
      cases hpol : cmd.policy with
      | error e => rw [verifyPolicy_error hpol]; rfl
      | ok policy =>
        dsimp only
        unfold collectState
        cases hm : inputMap fs ⟨inputs, certificate, signature, bundle, trust⟩ with
        | error e => rw [inputMap_error hm]; rfl
        | ok map =>
          exfalso
          rcases h with h | h
          · obtain ⟨h1, _, h3, h4⟩ := inputMap_ok _ _ _ hm
            refine h ⟨by simp, inputs, hf, h1, fun i hi => ?_⟩
            obtain ⟨m, hm'⟩ := h3 i hi
            exact ⟨m, (h4 i m hm').2⟩
          · exact h _ hpol

/-- **C100** Usable arguments are not refused: if the trust configuration then cannot be had, that is the error. -/
theorem C100_verify_not_refused (venv : VerifyEnv) (fs : Fs) (now : Time) (cmd : VerifyCommand) (positional : List Str)
    (certificate signature bundle : Option Path) (trust : TrustArgs) (w : VerifyWorld) (p : Policy.Policy) (e : Exc)
    (h : UsableVerify fs positional certificate signature bundle trust) (hp : cmd.policy = .ok p)
    (ht : (getTrustConfig fs venv.tuf venv.parsers trust w.tuf).1 = .error e) :
    (verifyMain venv fs now cmd true positional certificate signature bundle trust w).1 = .error e := by
  obtain ⟨hne, inputs, hf, hc, hm⟩ := h
  have hfile : ∀ q, .file q ∈ inputs → fs.isFile q = true := by
    intro q hq
    clear hm hc hne
    induction hf with
    | nil => cases hq
    | cons h1 _ ih =>
      rcases List.mem_cons.1 hq with rfl | hq
      · cases h1; assumption
      · exact ih hq
  obtain ⟨map, hmap⟩ := inputMap_total fs ⟨inputs, certificate, signature, bundle, trust⟩ hc (by
    rintro rfl
    cases hf
    exact hne rfl) hfile hm
  unfold verifyMain
  split
  · exact absurd rfl hne
  · rw [(parseInputs_iff fs _ _).2 hf]
    dsimp only
    unfold verifyCommand
    rw [hp]
    dsimp only
    unfold collectState
    rw [hmap]
    dsimp only
    cases hg : getTrustConfig fs venv.tuf venv.parsers trust w.tuf with
    | mk r t =>
      rw [hg] at ht
      dsimp only at ht
      subst ht
      dsimp only
      rw [mainHandler, logAndExit]
      split <;> rfl

/-! ## `sigstore sign` -/

theorem signOutputsOne_error {e : DiskEnv} {args : SignArgs} {f : Path} {d d' : Disk} {x : Exc}
    (h : signOutputsOne e args f d = (.error x, d')) (hk : e.canMkdir (args.outputDirectory.getD f.parent) = true) :
    x = .systemExit 2 := by
  unfold signOutputsOne at h
  dsimp only at h
  split at h
  · cases h; rfl
  · split at h
    · cases h; rfl
    · rename_i hdir
      split at h
      · rename_i y hy
        exfalso
        unfold DiskEnv.mkdir at hy
        split at hy
        · cases hy
        · rename_i c hc
          apply hdir
          unfold DiskEnv.exists_ DiskEnv.isDir
          rw [hc]
          rfl
        · rw [hk] at hy; cases hy
      · split at h <;> cases h; rfl

theorem signOutputsLoop_error {e : DiskEnv} {args : SignArgs} {x : Exc} : ∀ {files : List Path} {map : Dict Path SigningOutputs} {d d' : Disk},
    signOutputsLoop e args map files d = (.error x, d') →
    (∀ f ∈ files, e.canMkdir (args.outputDirectory.getD f.parent) = true) → x = .systemExit 2
  | [], _, _, _, h, _ => by cases h
  | f :: fs, map, d, d', h, hk => by
    rw [signOutputsLoop] at h
    split at h
    · rename_i y d₁ hy
      cases h
      exact signOutputsOne_error hy (hk f (by simp))
    · exact signOutputsLoop_error h fun g hg => hk g (by simp [hg])

/-- **C100** The same for `sigstore sign`: the exit status is 2, nothing was contacted, no key was made, and the only change to the
file system is that directories may have been made. -/
theorem C100_sign (libs : SignLibs) (o : SignOracle) (trust : TrustArgs) (ident : IdentityArgs) (args : SignArgs) (s : SignState)
    (h : ¬ UsableSign libs.disk args s.disk) (hk : DirectoriesOk libs.disk args) :
    ∃ d, signMain libs o trust ident args s = (some (.error (.systemExit 2)), { s with disk := d }) ∧ OnlyDirectories s.disk d := by
  unfold signMain
  have hd := signOutputs_disk libs.disk args s.disk
  cases hm : signOutputs libs.disk args s.disk with
  | mk r d =>
    rw [hm] at hd
    cases r with
    | error e =>
      refine ⟨d, ?_, hd⟩
      have : e = .systemExit 2 := by
        unfold signOutputs at hm
        split at hm
        · cases hm; rfl
        · exact signOutputsLoop_error hm hk
      rw [this]
    | ok map =>
      exfalso
      obtain ⟨h1, h2, h3, _, h5⟩ := C42_checks_sound _ _ _ _ _ hm
      exact h ⟨h1, h2, h5, h3⟩

/-! ## `sigstore attest` -/

theorem attestOutputsLoop_error {e : DiskEnv} {args : AttestArgs} {d : Disk} {x : Exc} :
    ∀ {files : List Path} {map : Dict Path SigningOutputs}, attestOutputsLoop e args d map files = .error x → x = .systemExit 2
  | [], _, h => by cases h
  | f :: fs, map, h => by
    rw [attestOutputsLoop] at h
    dsimp only at h
    split at h
    · cases h; rfl
    · split at h
      · cases h; rfl
      · exact attestOutputsLoop_error h

theorem readPredicate_error {e : DiskEnv} {loads : Str → Option Json} {args : AttestArgs} {d : Disk} {x : Exc}
    (h : readPredicate e loads args d = .error x) (hr : PredicateReadable e args d) : x = .systemExit 2 := by
  unfold readPredicate at h
  split at h
  · cases h; rfl
  · rename_i hf
    obtain ⟨content, hc⟩ := (isFile_iff e d args.predicate).1 (by simpa using hf)
    obtain ⟨h1, text, h2⟩ := hr content hc
    have ht : readText (e.fs d) args.predicate = .ok text := by
      unfold readText DiskEnv.fs DiskEnv.read
      dsimp only
      rw [hc]
      dsimp only
      rw [h1]
      simp only [if_true]
      rw [h2]
    rw [ht] at h
    dsimp only at h
    have hcp : ∀ (accepts : Json → Bool) (j : Json), checkPredicate accepts j = .error x → x = .systemExit 2 := by
      intro accepts j hj
      unfold checkPredicate at hj
      split at hj
      · split at hj <;> cases hj; rfl
      · cases hj; rfl
    split at h
    · cases h; rfl
    · split at h
      · exact hcp _ _ h
      · split at h
        · exact hcp _ _ h
        · cases h; rfl

/-- **C100** The same for `sigstore attest`: the exit status is 2, and nothing changed. -/
theorem C100_attest (libs : SignLibs) (o : SignOracle) (trust : TrustArgs) (ident : IdentityArgs) (args : AttestArgs) (s : SignState)
    (h : ¬ UsableAttest libs.disk libs.loads args s.disk) (hr : PredicateReadable libs.disk args s.disk) :
    attestMain libs o trust ident args s = (some (.error (.systemExit 2)), s) := by
  unfold attestMain
  cases hp : readPredicate libs.disk libs.loads args s.disk with
  | error e => rw [readPredicate_error hp hr]
  | ok pred =>
    dsimp only
    cases hm : attestOutputsLoop libs.disk args s.disk [] args.files with
    | error e => rw [attestOutputsLoop_error hm]
    | ok map =>
      exfalso
      obtain ⟨content, text, g1, _, g2, g3, g4⟩ := (readPredicate_ok_iff _ _ _ _ _).1 hp
      obtain ⟨_, h2, h3⟩ := attestOutputsLoop_ok _ _ _ _ [] _ _ hm (mapFor_nil _)
      refine h ⟨⟨content, text, pred, g1, g2, g3, acceptedPredicate_of g4⟩, fun f hf => (isFile_iff _ _ _).1 (h2 f hf), ?_⟩
      intro ho f hf p hp
      have := h3 ho f hf
      rw [(attestBundlePath_iff args f p).2 hp] at this
      exact this

/-! ## The whole program -/

section Main

variable (libs : MainLibs) (o : SignOracle) (s : MainState) {environ : Environ} {line : CommandLine} (he : EnvironOk environ) (hl : LineOk line)
include he hl

/-- **C100** What the arguments of `sigstore verify identity` mean is not usable: the program exits with status 2 and changes
nothing. -/
theorem C100_main_verify_identity (hc : line.command = .verifyIdentity) {trust : TrustArgs} {identity issuer : Str}
    {certificate signature bundle : Option Path} (ht : TrustOptions environ line.top line.sub true trust)
    (hv : trust.rekorVersion = none) (hm : VerifyOptions environ line.sub certificate signature bundle)
    (hi : LastGiven ["--cert-identity"] line.sub identity) (hs : LastGiven ["--cert-oidc-issuer"] line.sub issuer)
    (h : ¬ UsableVerify (libs.sign.disk.fs s.sign.disk) line.positional certificate signature bundle trust) :
    Cli.main libs o environ line s = (some (.error (.systemExit 2)), s) := by
  rw [C89_verify_identity libs o s he hl hc ht hv hm hi hs, verifyRun, C100_verify _ _ _ _ _ _ _ _ _ _ _ (.inl h)]
  rfl

/-- **C100** The same for `sigstore verify github`, where an identity or a repository is needed as well. -/
theorem C100_main_verify_github (hc : line.command = .verifyGithub) {trust : TrustArgs} {args : GithubArgs}
    {certificate signature bundle : Option Path} (ht : TrustOptions environ line.top line.sub true trust)
    (hv : trust.rekorVersion = none) (hm : VerifyOptions environ line.sub certificate signature bundle)
    (ha : GithubOptions environ line.sub args)
    (h : ¬ UsableVerify (libs.sign.disk.fs s.sign.disk) line.positional certificate signature bundle trust ∨
      ((∀ v, ¬ Given args.certIdentity v) ∧ ∀ v, ¬ Given args.workflowRepository v)) :
    Cli.main libs o environ line s = (some (.error (.systemExit 2)), s) := by
  rw [C89_verify_github libs o s he hl hc ht hv hm ha, verifyRun, C100_verify]
  · rfl
  · rcases h with h | h
    · exact .inl h
    · refine .inr fun p hp => ?_
      have := (C25_github_requires_identity_or_repository args).1.2 h
      change githubPolicy args = _ at hp
      rw [this] at hp
      cases hp

/-- **C100** The same for `sigstore sign`, except that directories may have been made. -/
theorem C100_main_sign (hc : line.command = .sign) {trust : TrustArgs} {ident : IdentityArgs} {args : SignArgs}
    (ht : TrustOptions environ line.top line.sub false trust) (hv : RekorVersion libs.int line.sub trust.rekorVersion)
    (hi : IdentityOptions environ line.sub true ident) (ha : SignOptions environ line.sub line.positional args)
    (h : ¬ UsableSign libs.sign.disk args s.sign.disk) (hk : DirectoriesOk libs.sign.disk args) :
    ∃ d, Cli.main libs o environ line s = (some (.error (.systemExit 2)), { s with sign := { s.sign with disk := d } }) ∧
      OnlyDirectories s.sign.disk d := by
  obtain ⟨d, h1, h2⟩ := C100_sign libs.sign o trust ident args s.sign h hk
  refine ⟨d, ?_, h2⟩
  rw [C89_sign libs o s he hl hc ht hv hi ha, h1]
  rfl

/-- **C100** The same for `sigstore attest`, which changes nothing. -/
theorem C100_main_attest (hc : line.command = .attest) {trust : TrustArgs} {ident : IdentityArgs} {args : AttestArgs}
    (ht : TrustOptions environ line.top line.sub false trust) (hv : RekorVersion libs.int line.sub trust.rekorVersion)
    (hi : IdentityOptions environ line.sub true ident) (ha : AttestOptions environ line.sub line.positional args)
    (h : ¬ UsableAttest libs.sign.disk libs.sign.loads args s.sign.disk) (hr : PredicateReadable libs.sign.disk args s.sign.disk) :
    Cli.main libs o environ line s = (some (.error (.systemExit 2)), s) := by
  rw [C89_attest libs o s he hl hc ht hv hi ha, C100_attest _ _ _ _ _ _ h hr]
  rfl

/-- **C100** `sigstore trust-instance` without a file or without `--instance` is refused, and the TUF repository is not asked for
anything. -/
theorem C100_main_trust_instance (hc : line.command = .trustInstance) {root : Str} {url : Option Str}
    (hp : line.positional = [root]) (hu : TextValue environ line.top ["--instance"] none none url)
    (h : (libs.sign.disk.fs s.sign.disk).isFile (Path.ofStr root) = false ∨ url = none) :
    Cli.main libs o environ line s = (some (.error (.systemExit 2)), s) := by
  have ht : trustInstance (libs.sign.disk.fs s.sign.disk) libs.sign.tuf libs.sign.parsers (Path.ofStr root) url s.sign.tuf =
      (.error (.systemExit 2), s.sign.tuf) := by
    unfold trustInstance
    rcases h with h | h
    · rw [h]
      rfl
    · rw [h]
      split <;> rfl
  rw [C89_trust_instance libs o s he hl hc hp hu, ht]
  rfl

/-- **C100** Otherwise it is the TUF client that decides: the root is read and the repository asked. -/
theorem C100_main_trust_instance_not_refused (hc : line.command = .trustInstance) {root : Str} {url : Str}
    (hp : line.positional = [root]) (hu : TextValue environ line.top ["--instance"] none none (some url))
    (h : (libs.sign.disk.fs s.sign.disk).isFile (Path.ofStr root) = true) :
    (Cli.main libs o environ line s).2.sign.tuf = (Tuf.fromTuf libs.sign.tuf url false
        (some ((libs.sign.disk.fs s.sign.disk).read (Path.ofStr root))) s.sign.tuf).2 ∧
    ((Cli.main libs o environ line s).1 = some (.ok ()) ↔ ∃ tr sc config, (Tuf.fromTuf libs.sign.tuf url false
        (some ((libs.sign.disk.fs s.sign.disk).read (Path.ofStr root))) s.sign.tuf).1 = .ok (tr, sc) ∧
      parseTuf libs.sign.parsers tr sc = .ok config) := by
  rw [C89_trust_instance libs o s he hl hc hp hu]
  dsimp only
  unfold trustInstance
  rw [h, if_neg (by decide)]
  dsimp only
  cases hf : Tuf.fromTuf libs.sign.tuf url false (some ((libs.sign.disk.fs s.sign.disk).read (Path.ofStr root))) s.sign.tuf with
  | mk r t =>
    cases r with
    | error e =>
      refine ⟨rfl, ?_, ?_⟩
      · intro hm
        unfold mainHandler at hm
        dsimp only at hm
        split at hm <;> cases hm
      · rintro ⟨_, _, _, hm, _⟩
        cases hm
    | ok r =>
      obtain ⟨tr, sc⟩ := r
      dsimp only
      cases hq : parseTuf libs.sign.parsers tr sc with
      | error e =>
        refine ⟨rfl, ?_, ?_⟩
        · intro hm
          unfold mainHandler at hm
          dsimp only at hm
          split at hm <;> cases hm
        · rintro ⟨_, _, _, hm, hm'⟩
          cases hm
          rw [hq] at hm'
          cases hm'
      | ok c => exact ⟨rfl, fun _ => ⟨tr, sc, c, rfl, hq⟩, fun _ => rfl⟩

end Main

/-! ## Concrete runs -/

/-- one of two inputs is missing -/
example : ∃ d, signMain exSignLibs (exOracle exTurns) exTrust exIdent exSignArgs (exSignState [(exPath "a", 1)]) =
    (some (.error (.systemExit 2)), { exSignState [(exPath "a", 1)] with disk := d }) ∧ OnlyDirectories (exDisk [(exPath "a", 1)]) d := by
  refine C100_sign _ _ _ _ _ _ ?_ fun _ _ => rfl
  intro h
  obtain ⟨c, hc⟩ := h.inputs (exPath "b") (by decide)
  revert hc
  change exDisk [(exPath "a", 1)] (exPath "b") ≠ _
  rw [show exDisk [(exPath "a", 1)] (exPath "b") = none by decide]
  simp

/-- a predicate that is no object -/
example : attestMain { exSignLibs with loads := fun _ => some (.arr []) } (exOracle exTurns) exTrust exIdent exAttestArgs exAttestState =
    (some (.error (.systemExit 2)), exAttestState) := by
  refine C100_attest _ _ _ _ _ _ ?_ ?_
  · intro h
    obtain ⟨content, text, pred, _, _, h, _⟩ := h.predicate
    cases h
  · intro content hc
    refine ⟨rfl, ?_⟩
    have h : exAttestState.disk exAttestArgs.predicate = some (.file [5]) := by decide
    obtain rfl : [5] = content := by
      have := h.symm.trans hc
      simpa using this
    exact ⟨_, show utf8Decode [5] = some ['\x05'] by decide⟩

/-- `verify identity` without inputs that exist, and with both a bundle and a certificate -/
example (w : VerifyWorld) (venv : VerifyEnv) (cmd : VerifyCommand) :
    verifyMain venv ⟨fun _ => false, fun _ => .error .osError⟩ 0 cmd false ["a".toList] none none none exTrust w =
      (.error (.systemExit 2), w) ∧
    verifyMain venv ⟨fun _ => true, fun _ => .error .osError⟩ 0 cmd false ["a".toList] (some (exPath "c")) none (some (exPath "b")) exTrust w =
      (.error (.systemExit 2), w) := by
  constructor
  · refine C100_verify _ _ _ _ _ _ _ _ _ _ _ (.inl ?_)
    rintro ⟨_, inputs, hf, _⟩
    cases hf with
    | cons h _ =>
      cases h with
      | file h => cases h
      | digest _ h =>
        obtain ⟨c, s, h, _⟩ := h
        revert h
        simp
  · refine C100_verify _ _ _ _ _ _ _ _ _ _ _ (.inl ?_)
    rintro ⟨_, inputs, _, hc, _⟩
    have := (hc.exclusive (by simp)).1
    cases this

end Sigstore.Props
