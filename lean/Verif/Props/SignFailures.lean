import Verif.Props.CliSignFrame
import Verif.Props.CliUsage
import Verif.Props.CliSignExamples
namespace Sigstore.Props

open Sigstore.Trust Sigstore.LogEntry Sigstore.Dsse Sigstore.Signing Sigstore.Cli Sigstore.Spec

/-! # Which exceptions failures with files and formats end in

Spec for C42 and C70: beside the fact that a command fails, the class of the exception decides whether the user is shown a message and exit
status 1, or a traceback. -/

/-! ## How `sign` fails because of files -/

theorem mkdir_error {e : DiskEnv} {d : Disk} {p : Path} {x : Exc} (h : e.mkdir d p = .error x) :
    x = .osError ∧ ((∃ c, d (e.resolve p) = some (.file c)) ∨ (d (e.resolve p) = none ∧ e.canMkdir p = false)) := by
  unfold DiskEnv.mkdir at h
  split at h
  · cases h
  · rename_i c hc
    cases h
    exact ⟨rfl, .inl ⟨c, hc⟩⟩
  · rename_i hn
    split at h
    · cases h
    · rename_i hm
      cases h
      exact ⟨rfl, .inr ⟨hn, by simpa using hm⟩⟩

theorem signOutputsOne_raises {e : DiskEnv} {args : SignArgs} {file : Path} {d d' : Disk} {x : Exc}
    (h : signOutputsOne e args file d = (.error x, d')) :
    x = .systemExit 2 ∨ (x = .osError ∧ d (e.resolve (args.outputDirectory.getD file.parent)) = none ∧
      e.canMkdir (args.outputDirectory.getD file.parent) = false) := by
  unfold signOutputsOne at h
  split at h
  · cases h; exact .inl rfl
  · dsimp only at h
    split at h
    · cases h; exact .inl rfl
    · rename_i hdir
      split at h
      · rename_i y hy
        cases h
        obtain ⟨h1, h2 | h2⟩ := mkdir_error hy
        · exfalso
          obtain ⟨c, hc⟩ := h2
          apply hdir
          unfold DiskEnv.exists_ DiskEnv.isDir
          rw [hc]
          rfl
        · exact .inr ⟨h1, h2⟩
      · split at h
        · cases h; exact .inl rfl
        · cases h

/-- **C42** The checks of `sign` fail with exit status 2 or, if the directory of an output is missing and cannot be made, with an
`OSError`. -/
theorem C42_checks_fail (e : DiskEnv) (args : SignArgs) (d d' : Disk) (x : Exc) (h : signOutputs e args d = (.error x, d')) :
    x = .systemExit 2 ∨ (x = .osError ∧ ∃ f ∈ args.files, d (e.resolve (args.outputDirectory.getD f.parent)) = none ∧
      e.canMkdir (args.outputDirectory.getD f.parent) = false) := by
  unfold signOutputs at h
  split at h
  · cases h; exact .inl rfl
  · generalize ([] : Dict Path SigningOutputs) = map at h
    have key : ∀ (files : List Path) (map : Dict Path SigningOutputs) (d : Disk), signOutputsLoop e args map files d = (.error x, d') →
        x = .systemExit 2 ∨ (x = .osError ∧ ∃ f ∈ files, d (e.resolve (args.outputDirectory.getD f.parent)) = none ∧
          e.canMkdir (args.outputDirectory.getD f.parent) = false) := by
      intro files
      induction files with
      | nil => intro map d h; cases h
      | cons f files ih =>
        intro map d h
        rw [signOutputsLoop] at h
        have h1 := signOutputsOne_disk e args f d
        cases hf : signOutputsOne e args f d with
        | mk r d₁ =>
          rw [hf] at h h1
          cases r with
          | error y =>
            cases h
            rcases signOutputsOne_raises hf with h | ⟨h, h2⟩
            · exact .inl h
            · exact .inr ⟨h, f, List.mem_cons_self, h2⟩
          | ok o =>
            rcases ih _ _ h with h | ⟨h, g, hg, h2, h3⟩
            · exact .inl h
            · exact .inr ⟨h, g, List.mem_cons_of_mem _ hg, h1.absent h2, h3⟩
    exact key _ _ _ h

/-- how a thread can fail: its input or an output cannot be opened, signing fails, or what is to be printed cannot be had -/
inductive ThreadFailure (je : JobEnv) (job : Job) : Exc → Prop
  | file : ThreadFailure je job .osError
  | call {h : Hashed} {x : Exc} : callFor je job.file h = .error x → ThreadFailure je job x
  | sign {w w' : Signing.World} {call : Call} {x : Exc} : je.signer.sign je.env je.ctx je.kp job.answers w call = (.error x, w') →
      ThreadFailure je job x
  | signature {b : Bundle} {x : Exc} : b.signature = .error x → ThreadFailure je job x
  | certificate {w w' : Signing.World} {x : Exc} : je.signer.signingCert je.env je.ctx je.kp job.certAnswers w = (.error x, w') →
      ThreadFailure je job x

theorem openW_error {e : DiskEnv} {d : Disk} {p : Path} {x : Exc} (h : e.openW d p = .error x) :
    x = .osError ∧ (d (e.resolve p) = some .dir ∨ e.canWrite p = false) := by
  unfold DiskEnv.openW at h
  split at h
  · rename_i hd
    cases h
    exact ⟨rfl, .inl hd⟩
  · split at h
    · cases h
    · rename_i hw
      cases h
      exact ⟨rfl, .inr (by simpa using hw)⟩

theorem jobStep_failure (je : JobEnv) (jobs : List Job) (st : JobsState) (i : Nat) (job : Job) (hj : jobs[i]? = some job) (x : Exc)
    (h : (jobStep je jobs st i).pcs i = .failed x) : st.pcs i = .failed x ∨ ThreadFailure je job x := by
  unfold jobStep at h
  rw [hj] at h
  dsimp only at h
  cases hpc : st.pcs i with
  | start =>
    rw [hpc] at h
    dsimp only at h
    split at h
    · rename_i y hy
      rw [goto_self] at h
      cases h
      unfold DiskEnv.read at hy
      split at hy
      · split at hy
        · cases hy
        · cases hy; exact .inr .file
      · cases hy; exact .inr .file
    · rw [goto_self] at h; cases h
  | hashed hh =>
    rw [hpc] at h
    dsimp only at h
    split at h
    · rename_i y hy
      rw [goto_self] at h
      cases h
      exact .inr (.call hy)
    · split at h
      · rename_i y w hy
        rw [goto_self] at h
        cases h
        exact .inr (.sign hy)
      · rw [goto_self] at h; cases h
  | emit b todo =>
    rw [hpc] at h
    cases todo with
    | nil => dsimp only at h; rw [goto_self] at h; cases h
    | cons o todo =>
      dsimp only at h
      split at h
      · rename_i y w hy
        rw [goto_self] at h
        cases h
        right
        cases o with
        | signature p =>
          unfold outputData at hy
          dsimp only at hy
          split at hy
          · rename_i hs
            cases hy
            exact .signature hs
          · cases hy
        | certificate p =>
          unfold outputData at hy
          dsimp only at hy
          split at hy
          · rename_i hs
            cases hy
            exact .certificate hs
          · cases hy
        | bundle p => cases hy
      · split at h
        · rename_i y hy
          rw [goto_self] at h
          cases h
          rw [(openW_error hy).1]
          exact .inr .file
        · rw [goto_self] at h; cases h
  | writing b p data n todo =>
    rw [hpc] at h
    dsimp only at h
    split at h
    · split at h <;> (rw [goto_self] at h; cases h)
    · rw [goto_self] at h
      cases h
      exact .inr .file
  | done => rw [hpc] at h; dsimp only at h; rw [hpc] at h; cases h
  | failed y => rw [hpc] at h; dsimp only at h; rw [hpc] at h; exact .inl h

/-- **C42** A thread of `sign` or `attest` fails with an `OSError`, or with what signing raised. -/
theorem C42_threads_fail (je : JobEnv) (jobs : List Job) (s : SignState) (schedule : List Nat) (i : Nat) (job : Job)
    (hj : jobs[i]? = some job) (x : Exc) (h : (runJobs je jobs (jobsStart s) schedule).pcs i = .failed x) : ThreadFailure je job x := by
  have key : ∀ (schedule : List Nat) (st : JobsState), (runJobs je jobs st schedule).pcs i = .failed x →
      st.pcs i = .failed x ∨ ThreadFailure je job x := by
    intro schedule
    induction schedule with
    | nil => intro st h; exact .inl h
    | cons k schedule ih =>
      intro st h
      rcases ih (jobStep je jobs st k) h with h | h
      · by_cases hk : k = i
        · subst hk
          exact jobStep_failure je jobs st k job hj x h
        · cases hjk : jobs[k]? with
          | none => rw [jobStep_none _ _ _ _ hjk] at h; exact .inl h
          | some jk =>
            have : (jobStep je jobs st k).pcs i = st.pcs i := by
              unfold jobStep
              rw [hjk]
              dsimp only
              repeat' split
              all_goals first | rfl | exact goto_other _ _ (Ne.symm hk)
            rw [this] at h
            exact .inl h
      · exact .inr h
  rcases key schedule _ h with h | h
  · cases h
  · exact h

/-- the directory of the outputs is missing and cannot be made -/
example : (signOutputs ⟨id, fun _ => true, fun _ => true, fun _ => false, fun _ _ => true⟩ ⟨[⟨false, [['a']]⟩], none, none, none, some ⟨false, [['o']]⟩, false, false⟩
    (fun p => if p = ⟨false, [['a']]⟩ then some (.file [1]) else none)).1 = .error .osError := rfl

/-- the outputs cannot be written: the threads end with an `OSError`, and so does the command -/
example : (signMain { exSignLibs with disk := ⟨id, fun _ => true, fun _ => false, fun _ => true, fun _ _ => true⟩ } (exOracle exTurns) exTrust exIdent
    exSignArgs (exSignState [(exPath "a", 1), (exPath "b", 2)])).1 = some (.error .osError) := by decide

/-! ## A trusted root of an unknown type -/

/-- **C70** If the arguments of `sigstore verify` are usable and the trust configuration has a trusted root of an unknown type, then the
command ends with sigstore's `Error`: a traceback of it with `--verbose`, otherwise a message and exit status 1. -/
theorem C70_root_type_error (venv : VerifyEnv) (fs : Fs) (now : Time) (cmd : VerifyCommand) (verbose : Bool) (positional : List Str)
    (certificate signature bundle : Option Path) (trust : TrustArgs) (w : VerifyWorld) (p : Policy.Policy) (config : LoadedConfig)
    (h : UsableVerify fs positional certificate signature bundle trust) (hp : cmd.policy = .ok p)
    (ht : (getTrustConfig fs venv.tuf venv.parsers trust w.tuf).1 = .ok config)
    (hr : config.rootMediaType ≠ "application/vnd.dev.sigstore.trustedroot+json;version=0.1".toList) :
    (verifyMain venv fs now cmd verbose positional certificate signature bundle trust w).1 =
      .error (if verbose then .error else .systemExit 1) := by
  obtain ⟨hne, inputs, hf, hc, hm⟩ := h
  have hfile : ∀ q, .file q ∈ inputs → fs.isFile q = true := by
    intro q hq
    clear hm hc hne
    induction hf with
    | nil => cases hq
    | cons h1 _ ih =>
      rcases List.mem_cons.1 hq with rfl | hq
      · cases h1; assumption
      · exact ih hq
  obtain ⟨map, hmap⟩ := inputMap_total fs ⟨inputs, certificate, signature, bundle, trust⟩ hc (by
    rintro rfl
    cases hf
    exact hne rfl) hfile hm
  unfold verifyMain
  split
  · exact absurd rfl hne
  · rw [(parseInputs_iff fs _ _).2 hf]
    dsimp only
    unfold verifyCommand
    rw [hp]
    dsimp only
    unfold collectState
    rw [hmap]
    dsimp only
    cases hg : getTrustConfig fs venv.tuf venv.parsers trust w.tuf with
    | mk r t =>
      rw [hg] at ht
      dsimp only at ht
      subst ht
      have : config.trustedRoot = .error .error := by
        unfold LoadedConfig.trustedRoot
        exact if_neg hr
      dsimp only
      rw [this]
      rfl

/-- the example's configuration with a trusted root of another version -/
def exOtherRoot : VerifyEnv :=
  { exVerifyEnv with parsers := { exVerifyEnv.parsers with
      config := fun _ => .ok ⟨[], "application/vnd.dev.sigstore.trustedroot+json;version=0.2".toList, exRoot, ⟨[], [], [], [], none, [], none⟩⟩ } }

example : (verifyMain exOtherRoot exVerifyFs 3000000000 (.identity "me".toList "https://i".toList) false ["a".toList]
    none none none ⟨some (Path.ofStr "t".toList), none, false, false, none⟩ ⟨exTufWorld, []⟩).1 = .error (.systemExit 1) := by
  refine C70_root_type_error exOtherRoot exVerifyFs 3000000000 (.identity "me".toList "https://i".toList) false ["a".toList]
    none none none ⟨some (Path.ofStr "t".toList), none, false, false, none⟩ ⟨exTufWorld, []⟩ _
    ⟨"application/vnd.dev.sigstore.trustedroot+json;version=0.2".toList, exRoot, ⟨[], [], [], [], none, [], none⟩, none⟩
    ⟨by simp, [.file (Path.ofStr "a".toList)], .cons (.file (by decide)) .nil, ⟨by simp, by simp, by simp, by simp⟩, ?_⟩ rfl rfl (by decide)
  intro i hi
  rw [List.mem_singleton] at hi
  subst hi
  exact ⟨.bundled (Path.ofStr "a.sigstore.json".toList), .foundBundle rfl rfl rfl (by decide) (by decide)⟩

end Sigstore.Props
