import Verif.Props.CliMainExamples
import Verif.Props.Statement

/-!
# C94: exit status 0 of every command
-/

namespace Sigstore.Props

open Sigstore.Trust Sigstore.LogEntry Sigstore.Dsse Sigstore.Signing Sigstore.Cli Sigstore.Spec Sigstore.Args

/-- the services do not end the process with status 0 -/
structure AnswersDoNotExit (a : Answers) : Prop where
  fulcio : ∀ csr, a.fulcio csr ≠ .error (.systemExit 0)
  tsas : ∀ t ∈ a.tsas, ∀ sig, t sig ≠ .error (.systemExit 0)
  rekor : ∀ r, a.rekor r ≠ .error (.systemExit 0)

/-- no library and no service ends the process with status 0 -/
structure WorldDoesNotExit (libs : MainLibs) (o : SignOracle) : Prop where
  verify : ∀ d, LibrariesDoNotExit libs.verify (libs.sign.disk.fs d)
  detect : ∀ c, libs.sign.identity.detect c ≠ .error (.systemExit 0)
  issuer : ∀ u, libs.sign.identity.issuer u ≠ .error (.systemExit 0)
  interactive : ∀ u c s f, libs.sign.identity.interactive u c s f ≠ .error (.systemExit 0)
  token : ∀ t c, libs.sign.identity.token t c ≠ .error (.systemExit 0)
  first : ∀ t, AnswersDoNotExit (o.first t)
  perFile : ∀ p, AnswersDoNotExit (o.perFile p).1 ∧ AnswersDoNotExit (o.perFile p).2
  shown : AnswersDoNotExit o.shown
  fetch : ∀ b i, libs.fetch b i ≠ .error (.systemExit 0)

/-! ## Signing -/

section Signing

theorem checkNewCert_nz (env : Env) (ctx : Context) (now : Time) (cert : Cert) (chain : List Cert) :
    checkNewCert env ctx now cert chain = .error (.systemExit 0) → False := by
  intro h
  unfold checkNewCert at h
  nz [NoExit.ctKeyring, NoExit.verifySct] h

theorem signingCert_nz {a : Answers} (ha : AnswersDoNotExit a) (env : Env) (ctx : Context) (kp : KeyPairs) (s : Signer)
    (w w' : Signing.World) : s.signingCert env ctx kp a w = (.error (.systemExit 0), w') → False := by
  intro h
  unfold Signer.signingCert at h
  nzp [ha.fulcio, checkNewCert_nz] h

theorem signerInit_nz {a : Answers} (ha : AnswersDoNotExit a) (env : Env) (ctx : Context) (kp : KeyPairs) (cache : Bool)
    (w w' : Signing.World) : Signer.init env ctx kp a cache w = (.error (.systemExit 0), w') → False := by
  intro h
  unfold Signer.init at h
  nzp [signingCert_nz ha] h

theorem collectTimestamps_nz (sig : Bytes) : ∀ ts : List (Bytes → Py Tsr), (∀ t ∈ ts, ∀ s, t s ≠ .error (.systemExit 0)) →
    collectTimestamps sig ts = .error (.systemExit 0) → False
  | [], _, h => by rw [collectTimestamps] at h; cases h
  | t :: ts, ht, h => by
    rw [collectTimestamps] at h
    have ih := collectTimestamps_nz sig ts (fun t' h' => ht t' (List.mem_cons_of_mem _ h'))
    split at h
    · rename_i e he
      split at h
      · exact ih h
      · rw [Except.error.inj h] at he
        exact ht t List.mem_cons_self _ he
    · split at h
      · rename_i e he
        rw [Except.error.inj h] at he
        exact ih he
      · cases h

theorem fromParts_nz (env : Env) (cert : Cert) (c : Option Content) (e : LogEntry) (ts : Option (List Tsr)) :
    Bundle.fromParts env cert c e ts = .error (.systemExit 0) → False := by
  intro h
  unfold Bundle.fromParts at h
  nz [NoExit.bundleInit] h

theorem finalizeSign_nz {a : Answers} (ha : AnswersDoNotExit a) (env : Env) (cert : Cert) (c : Content) (sig : Bytes)
    (r : Rekor.EntryRequest) : finalizeSign env a cert c sig r = .error (.systemExit 0) → False := by
  intro h
  unfold finalizeSign at h
  nz [collectTimestamps_nz, ha.rekor, fromParts_nz, ha.tsas] h

theorem signPrehashed_nz (kp : KeyPairs) (k n : Nat) (hd : Hashed) : signPrehashed kp k n hd = .error (.systemExit 0) → False := by
  intro h
  unfold signPrehashed at h
  nz [] h

theorem hashedRekordRequest_nz (v : Rekor.ApiVersion) (hd : Hashed) (s : Bytes) (cert : Cert) :
    Rekor.hashedRekordRequest v hd s cert = .error (.systemExit 0) → False := by
  intro h
  unfold Rekor.hashedRekordRequest at h
  split at h
  · unfold Rekor.hashedRekordRequestV1 at h
    nz [] h
  · unfold Rekor.hashedRekordRequestV2 at h
    nz [NoExit.getKeyDetails] h

theorem dsseRequest_nz (c : Crypto) (v : Rekor.ApiVersion) (e : EnvelopeMsg) (cert : Cert) :
    Rekor.dsseRequest c v e cert = .error (.systemExit 0) → False := by
  intro h
  unfold Rekor.dsseRequest at h
  split at h
  · unfold Rekor.dsseRequestV1 at h
    nz [] h
  · unfold Rekor.dsseRequestV2 at h
    nz [NoExit.getKeyDetails, NoExit.getPrehash, NoExit.envelopeInit] h

theorem dsseSign_nz (f : Bytes → Bytes) (st : Statement) : dsseSign f st = .error (.systemExit 0) → False := by
  intro h
  unfold dsseSign at h
  nz [NoExit.envelopeInit] h

theorem sign_nz {a : Answers} (ha : AnswersDoNotExit a) (env : Env) (ctx : Context) (kp : KeyPairs) (s : Signer)
    (w w' : Signing.World) (call : Call) : s.sign env ctx kp a w call = (.error (.systemExit 0), w') → False := by
  intro h
  cases call with
  | artifact i =>
    rw [Signer.sign] at h
    unfold Signer.signArtifact at h
    nzp [signingCert_nz ha, signPrehashed_nz, hashedRekordRequest_nz, finalizeSign_nz ha] h
  | dsse st =>
    rw [Signer.sign] at h
    unfold Signer.signDsse at h
    nzp [signingCert_nz ha, dsseSign_nz, dsseRequest_nz, NoExit.envelopeInit, finalizeSign_nz ha] h

end Signing

/-! ## The threads -/

theorem callFor_nz (je : JobEnv) (file : Path) (hd : Hashed) : callFor je file hd = .error (.systemExit 0) → False := by
  intro h
  unfold callFor StatementBuilder.build at h
  nz [] h

theorem bundleSignature_nz (b : Bundle) : b.signature = .error (.systemExit 0) → False := by
  intro h
  unfold Bundle.signature at h
  nz [NoExit.envelopeInit] h

theorem outputData_nz {a : Answers} (ha : AnswersDoNotExit a) (je : JobEnv) (b : Bundle) (w w' : Signing.World) (out : Output) :
    outputData je a b w out = (.error (.systemExit 0), w') → False := by
  intro h
  cases out <;> rw [outputData] at h
  · nzp [bundleSignature_nz] h
  · nzp [signingCert_nz ha] h
  · cases h

theorem diskRead_nz (e : DiskEnv) (d : Disk) (p : Path) : e.read d p = .error (.systemExit 0) → False := by
  intro h
  unfold DiskEnv.read at h
  nz [] h

theorem openW_nz (e : DiskEnv) (d : Disk) (p : Path) : e.openW d p = .error (.systemExit 0) → False := by
  intro h
  unfold DiskEnv.openW at h
  nz [] h

theorem writeBytes_nz (e : DiskEnv) (p : Path) : ∀ (bs : Bytes) (m : Nat) (d : Disk),
    (writeBytes e p m bs d).1 = .error (.systemExit 0) → False
  | [], m, d, h => by
    rw [writeBytes] at h
    split at h <;> cases h
  | b :: bs, m, d, h => by
    rw [writeBytes] at h
    split at h
    · exact writeBytes_nz e p bs _ _ h
    · cases h

/-- no thread has failed with status 0 -/
def NoThreadExits (st : JobsState) : Prop := ∀ i, st.pcs i ≠ .failed (.systemExit 0)

theorem goto_exits {st : JobsState} (h : NoThreadExits st) (i : Nat) {pc : JobPc} (hpc : pc ≠ .failed (.systemExit 0)) :
    NoThreadExits (st.goto i pc) := by
  intro j
  unfold JobsState.goto
  dsimp only
  rw [Function.update_apply]
  split
  · exact hpc
  · exact h j

theorem jobStep_exits (je : JobEnv) (jobs : List Job)
    (hj : ∀ job ∈ jobs, AnswersDoNotExit job.answers ∧ AnswersDoNotExit job.certAnswers) {st : JobsState}
    (h : NoThreadExits st) (i : Nat) : NoThreadExits (jobStep je jobs st i) := by
  have hw : ∀ w d, NoThreadExits { st with world := w, disk := d } := fun _ _ => h
  have hf : ∀ {e : Exc}, e ≠ .systemExit 0 → JobPc.failed e ≠ .failed (.systemExit 0) :=
    fun he hc => he (JobPc.failed.inj hc)
  unfold jobStep
  cases hi : jobs[i]? with
  | none => exact h
  | some job =>
    obtain ⟨h1, h2⟩ := hj job (List.mem_of_getElem? hi)
    dsimp only
    cases st.pcs i with
    | start =>
      dsimp only
      cases hr : je.disk.read st.disk job.file with
      | error e => exact goto_exits h i (hf (fun he => diskRead_nz _ _ _ (he ▸ hr)))
      | ok c => exact goto_exits h i (fun hc => nomatch hc)
    | hashed hd =>
      dsimp only
      cases hr : callFor je job.file hd with
      | error e => exact goto_exits h i (hf (fun he => callFor_nz _ _ _ (he ▸ hr)))
      | ok call =>
        dsimp only
        cases hs : je.signer.sign je.env je.ctx je.kp job.answers st.world call with
        | mk r w =>
          cases r with
          | error e => exact goto_exits (hw w st.disk) i (hf (fun he => sign_nz h1 _ _ _ _ _ _ _ (he ▸ hs)))
          | ok b => exact goto_exits (hw w st.disk) i (fun hc => nomatch hc)
    | emit b todo =>
      cases todo with
      | nil => exact goto_exits h i (fun hc => nomatch hc)
      | cons out todo =>
        dsimp only
        cases ho : outputData je job.certAnswers b st.world out with
        | mk r w =>
          cases r with
          | error e => exact goto_exits (hw w st.disk) i (hf (fun he => outputData_nz h2 _ _ _ _ _ (he ▸ ho)))
          | ok data =>
            dsimp only
            cases hopen : je.disk.openW st.disk out.path with
            | error e => exact goto_exits (hw w st.disk) i (hf (fun he => openW_nz _ _ _ (he ▸ hopen)))
            | ok d => exact goto_exits (hw w d) i (fun hc => nomatch hc)
    | writing b p data n todo =>
      dsimp only
      split
      · cases data[n]? with
        | none => exact goto_exits h i (fun hc => nomatch hc)
        | some byte => exact goto_exits (hw st.world _) i (fun hc => nomatch hc)
      · exact goto_exits h i (fun hc => nomatch hc)
    | done => exact h
    | failed e => exact h

theorem runJobs_exits (je : JobEnv) (jobs : List Job)
    (hj : ∀ job ∈ jobs, AnswersDoNotExit job.answers ∧ AnswersDoNotExit job.certAnswers) :
    ∀ (schedule : List Nat) {st : JobsState}, NoThreadExits st → NoThreadExits (runJobs je jobs st schedule)
  | [], _, h => h
  | i :: schedule, _, h => runJobs_exits je jobs hj schedule (jobStep_exits je jobs hj h i)

theorem jobsResult_nz {jobs : List Job} {order : List Nat} {st : JobsState} (h : NoThreadExits st) :
    jobsResult jobs order st ≠ some (.error (.systemExit 0)) := by
  intro hr
  unfold jobsResult at hr
  split at hr
  · split at hr
    · cases hr
    · rename_i e he
      rw [Except.error.inj (Option.some.inj hr)] at he
      obtain ⟨i, _, hi⟩ := List.exists_of_findSome?_eq_some he
      split at hi
      · cases hp : st.pcs i with
        | failed x => rw [hp] at hi; exact h i (by rw [hp]; rw [Option.some.inj hi])
        | _ => rw [hp] at hi; cases hi
      · cases hi
  · cases hr

/-! ## The commands -/

section Commands

variable {libs : MainLibs} {o : SignOracle} (hw : WorldDoesNotExit libs o)

theorem validServices_nz (now : Time) (l : List Config.Service) (v : List Nat) (c : Option Config.ServiceConfiguration) :
    Config.getValidServices now l v c = .error (.systemExit 0) → False := by
  intro h
  unfold Config.getValidServices at h
  nz [] h

theorem signingConfig_nz (now : Time) (m : Config.SigningConfigMsg) (v : Option Nat) :
    Config.SigningConfig.init now m v = .error (.systemExit 0) → False := by
  intro h
  unfold Config.SigningConfig.init at h
  nz [validServices_nz] h

theorem getTlogs_nz : ∀ l : List Config.Service, Config.getTlogs l = .error (.systemExit 0) → False
  | [], h => by cases h
  | s :: rest, h => by
    have ih := getTlogs_nz rest
    rw [Config.getTlogs] at h
    split at h
    · rename_i e he
      rw [Except.error.inj h] at he
      nz [] he
    · nz [ih] h

theorem getFulcio_nz (c : Config.SigningConfig) : c.getFulcio = .error (.systemExit 0) → False := by
  intro h; unfold Config.SigningConfig.getFulcio at h; nz [] h

theorem getOidcUrl_nz (c : Config.SigningConfig) : c.getOidcUrl = .error (.systemExit 0) → False := by
  intro h; unfold Config.SigningConfig.getOidcUrl at h; nz [] h

theorem context_nz (now : Time) (t : Config.ClientTrustConfig) :
    Config.contextFromTrustConfig now t = .error (.systemExit 0) → False := by
  intro h
  unfold Config.contextFromTrustConfig at h
  nz [signingConfig_nz, getFulcio_nz, getTlogs_nz] h

include hw

theorem getIdentity_nz (now : Time) (args : IdentityArgs) (cfg : LoadedConfig) :
    getIdentity libs.sign.identity now args cfg = .error (.systemExit 0) → False := by
  intro h
  unfold getIdentity at h
  have hd : (if args.disableAmbient = true then Except.ok none else libs.sign.identity.detect args.clientId) =
      (Except.error (Exc.systemExit 0) : Py (Option Str)) → False := by
    intro h
    split at h
    · cases h
    · exact hw.detect _ h
  nz [hd, hw.issuer, hw.interactive, hw.token, signingConfig_nz, getOidcUrl_nz] h

theorem signIdentity_nz (now : Time) (args : IdentityArgs) (cfg : LoadedConfig) :
    signIdentity libs.sign.identity now args cfg = .error (.systemExit 0) → False := by
  intro h
  unfold signIdentity at h
  nz [hw.token, getIdentity_nz hw] h

theorem signPrepare_nz (trust : TrustArgs) (ident : IdentityArgs) (s s' : SignState) :
    signPrepare libs.sign o trust ident s = (.error (.systemExit 0), s') → False := by
  intro h
  unfold signPrepare at h
  have ht := getTrustConfig_nz (hw.verify s.disk) trust s.tuf
  nzp [ht, context_nz, signIdentity_nz hw, signerInit_nz (hw.first _), signingCert_nz hw.shown] h

theorem signCommon_nz (trust : TrustArgs) (ident : IdentityArgs) (map : Dict Path SigningOutputs)
    (predicate : Option (Str × Dict Str Json)) (s : SignState) :
    (signCommon libs.sign o trust ident map predicate s).1 ≠ some (.error (.systemExit 0)) := by
  intro h
  unfold signCommon at h
  split at h
  · rename_i e s' he
    rw [Except.error.inj (Option.some.inj h)] at he
    exact signPrepare_nz hw _ _ _ _ he
  · refine jobsResult_nz (runJobs_exits _ _ ?_ _ ?_) h
    · intro job hj
      obtain ⟨p, _, rfl⟩ := List.mem_map.1 hj
      exact hw.perFile _
    · intro i hc
      cases hc

omit hw in
theorem signOutputsOne_nz (e : DiskEnv) (args : SignArgs) (file : Path) (d d' : Disk) :
    signOutputsOne e args file d = (.error (.systemExit 0), d') → False := by
  intro h
  have hm : e.mkdir d (args.outputDirectory.getD file.parent) = .error (.systemExit 0) → False := by
    intro h
    unfold DiskEnv.mkdir at h
    nz [] h
  unfold signOutputsOne at h
  nzp [hm] h

omit hw in
theorem signOutputsLoop_nz (e : DiskEnv) (args : SignArgs) : ∀ (files : List Path) (map : Dict Path SigningOutputs) (d d' : Disk),
    signOutputsLoop e args map files d = (.error (.systemExit 0), d') → False
  | [], _, _, _, h => by cases h
  | f :: fs, map, d, d', h => by
    have ih := signOutputsLoop_nz e args fs
    rw [signOutputsLoop] at h
    nzp [signOutputsOne_nz, ih] h

theorem signMain_nz (trust : TrustArgs) (ident : IdentityArgs) (args : SignArgs) (s : SignState) :
    (signMain libs.sign o trust ident args s).1 ≠ some (.error (.systemExit 0)) := by
  intro h
  unfold signMain at h
  split at h
  · rename_i e d he
    rw [Except.error.inj (Option.some.inj h)] at he
    unfold signOutputs at he
    nzp [signOutputsLoop_nz] he
  · exact signCommon_nz hw _ _ _ _ _ h

omit hw in
theorem readPredicate_nz (e : DiskEnv) (loads : Str → Option Json) (args : AttestArgs) (d : Disk) :
    readPredicate e loads args d = .error (.systemExit 0) → False := by
  intro h
  have ht : readText (e.fs d) args.predicate = .error (.systemExit 0) → False := by
    intro h
    have := diskRead_nz e d
    unfold readText at h
    nz [this] h
  have hc : ∀ acc j, checkPredicate acc j = .error (.systemExit 0) → False := by
    intro acc j h
    unfold checkPredicate at h
    nz [] h
  unfold readPredicate at h
  nz [ht, hc] h

omit hw in
theorem attestOutputsLoop_nz (e : DiskEnv) (args : AttestArgs) (d : Disk) :
    ∀ (files : List Path) (map : Dict Path SigningOutputs), attestOutputsLoop e args d map files = .error (.systemExit 0) → False
  | [], _, h => by cases h
  | f :: fs, map, h => by
    have ih := attestOutputsLoop_nz e args d fs
    rw [attestOutputsLoop] at h
    nz [ih] h

theorem attestMain_nz (trust : TrustArgs) (ident : IdentityArgs) (args : AttestArgs) (s : SignState) :
    (attestMain libs.sign o trust ident args s).1 ≠ some (.error (.systemExit 0)) := by
  intro h
  unfold attestMain at h
  split at h
  · rename_i e he
    rw [Except.error.inj (Option.some.inj h)] at he
    exact readPredicate_nz _ _ _ _ he
  · split at h
    · rename_i e he
      rw [Except.error.inj (Option.some.inj h)] at he
      exact attestOutputsLoop_nz _ _ _ _ _ he
    · exact signCommon_nz hw _ _ _ _ _ h

theorem getIdentityToken_nz (now : Time) (trust : TrustArgs) (ident : IdentityArgs) (s s' : MainState) :
    getIdentityTokenMain libs now trust ident s = (.error (.systemExit 0), s') → False := by
  intro h
  unfold getIdentityTokenMain at h
  have ht := getTrustConfig_nz (hw.verify s.sign.disk) trust s.sign.tuf
  nzp [ht, getIdentity_nz hw] h

theorem updateTrustRoot_nz (now : Time) (trust : TrustArgs) (s s' : MainState) :
    updateTrustRootMain libs now trust s = (.error (.systemExit 0), s') → False := by
  intro h
  unfold updateTrustRootMain at h
  have ht := getTrustConfig_nz (hw.verify s.sign.disk) trust s.sign.tuf
  nzp [ht, trustedRoot_nz, getFulcioCerts_nz] h

omit hw in
theorem finishFix_nz (env : Env) (upgrade : Bool) (m : BundleMsg) : finishFix env upgrade m = .error (.systemExit 0) → False := by
  intro h
  have hu : ∀ b : Bundle, b.upgrade env = .error (.systemExit 0) → False := by
    intro b h
    have hp : b.toParts = .error (.systemExit 0) → False := by
      intro h
      unfold Bundle.toParts at h
      nz [NoExit.envelopeInit] h
    unfold Bundle.upgrade at h
    nz [hp, fromParts_nz] h
  unfold finishFix at h
  nz [NoExit.bundleInit, hu] h

omit hw in
theorem lacksCheckpoint_nz (e : LogEntry) : e.lacksCheckpoint = .error (.systemExit 0) → False := by
  intro h
  unfold LogEntry.lacksCheckpoint at h
  nz [] h

theorem fixBundle_nz (path : Path) (staging upgrade inPlace : Bool) (s s' : MainState) :
    fixBundleMain libs path staging upgrade inPlace s = (.error (.systemExit 0), s') → False := by
  intro h
  have hf : ∀ m, fixBundle libs.sign.env (libs.fetch staging) upgrade m = .error (.systemExit 0) → False := by
    intro m h
    unfold fixBundle at h
    nz [lacksCheckpoint_nz, finishFix_nz, hw.fetch] h
  have hp := (hw.verify s.sign.disk).parseBundle
  have ho : ∀ text d, (writeText libs.sign.disk libs.localeEncode path text d).1 = .error (.systemExit 0) → False := by
    intro text d h
    unfold writeText at h
    split at h
    · rename_i x hx
      rw [Except.error.inj h] at hx
      exact openW_nz _ _ _ hx
    · split at h
      · cases h
      · exact writeBytes_nz _ _ _ _ _ h
  unfold fixBundleMain at h
  nzp [diskRead_nz, hp, hf, ho] h

theorem trustInstance_nz (root : Path) (url : Option Str) (d : Disk) (t t' : Tuf.World) :
    trustInstance (libs.sign.disk.fs d) libs.sign.tuf libs.sign.parsers root url t = (.error (.systemExit 0), t') → False := by
  intro h
  have hl := hw.verify d
  have hi : ∀ u w w', Tuf.TrustUpdater.init libs.sign.tuf u false (some (libs.sign.disk.read d root)) w =
      (.error (.systemExit 0), w') → False := by
    intro u w w' h
    have hr := diskRead_nz libs.sign.disk d root
    unfold Tuf.TrustUpdater.init at h
    dsimp only at h
    split at h
    · cases h
    · cases hb : libs.sign.tuf.embedded (Tuf.quote (Tuf.stripSlashes u)) Tuf.rootName with
      | some b => rw [hb] at h; dsimp only at h; nzp [] h
      | none =>
        rw [hb] at h
        cases hc : libs.sign.disk.read d root with
        | error e =>
          rw [hc] at h
          dsimp only at h
          refine hr ?_
          rw [hc, (Except.error.inj (Prod.mk.inj h).1)]
        | ok c => rw [hc] at h; dsimp only at h; nzp [] h
  have ht : ∀ u w w', Tuf.fromTuf libs.sign.tuf u false (some (libs.sign.disk.read d root)) w =
      (.error (.systemExit 0), w') → False := by
    intro u w w' h
    unfold Tuf.fromTuf at h
    nzp [hi, trustedRootPath_nz hl, signingConfigPath_nz hl, readBytes_nz] h
  unfold trustInstance at h
  nzp [ht, parseTuf_nz hl] h

/-- **C94** No command ends with status 0 unless it returned normally, or help was asked for: an error, in whichever step and
whatever the verbosity, gives another status. -/
theorem C94_exit_zero_iff (environ : Environ) (line : CommandLine) (s : MainState) (r : Py Unit)
    (h : (Cli.main libs o environ line s).1 = some r) (hh : ¬ AsksForHelp line) :
    exitStatus r = 0 ↔ r = .ok () := by
  refine ⟨fun hr => ?_, fun hr => by rw [hr]; rfl⟩
  have hok : ∀ {x : Py Unit}, exitStatus x = 0 → x ≠ .error (.systemExit 0) → x = .ok () := by
    intro x hx hne
    match x with
    | .ok () => rfl
    | .error e =>
      exfalso
      cases e with
      | systemExit n => exact hne (by rw [show n = 0 from hx])
      | _ => cases hx
  refine hok hr ?_
  rintro rfl
  have hm : ∀ {x : Py Unit} {v : Bool}, x ≠ .error (.systemExit 0) → mainHandler v x ≠ .error (.systemExit 0) := by
    intro x v hx hc
    match x with
    | .ok () => cases hc
    | .error e =>
      rw [mainHandler] at hc
      split at hc
      · exact hx (by rw [logAndExit_nz _ _ (Except.error.inj hc)])
      · exact hx hc
  have hmo : ∀ {x : Option (Py Unit)} {v : Bool}, x ≠ some (.error (.systemExit 0)) →
      x.map (mainHandler v) ≠ some (.error (.systemExit 0)) := by
    intro x v hx hc
    cases x with
    | none => cases hc
    | some x => exact hm (fun h => hx (by rw [h])) (Option.some.inj hc)
  have hp : ∀ {α β : Type} {x : Py α × β}, (∀ b, x ≠ (.error (.systemExit 0), b)) → x.1 ≠ .error (.systemExit 0) := by
    rintro α β ⟨x, b⟩ hx rfl
    exact hx b rfl
  unfold Cli.main at h
  split at h
  · rename_i e he
    rw [Except.error.inj (Option.some.inj h)] at he
    rcases C89_rejected _ _ _ he with ⟨_, h'⟩ | ⟨_, h' | ⟨_, h'⟩⟩
    · cases h'
    · cases h'
    · exact hh h'
  · unfold dispatch at h
    dsimp only at h
    split at h
    · rename_i e he
      rw [rekorVersionArg_error he] at h
      cases h
    · split at h
      · exact hmo (signMain_nz hw _ _ _ _) h
      · split at h
        · rename_i e he
          rw [attestArgsOf_error he] at h
          cases h
        · exact hmo (attestMain_nz hw _ _ _ _) h
      · exact verifyMain_nz (hw.verify _) _ _ _ _ _ _ _ _ _ (Option.some.inj h)
      · exact verifyMain_nz (hw.verify _) _ _ _ _ _ _ _ _ _ (Option.some.inj h)
      · exact hm (hp fun _ => getIdentityToken_nz hw _ _ _ _ _) (Option.some.inj h)
      · split at h
        · exact hm (hp fun _ => trustInstance_nz hw _ _ _ _ _) (Option.some.inj h)
        · cases h
      · split at h
        · cases h
        · exact hm (hp fun _ => fixBundle_nz hw _ _ _ _ _ _) (Option.some.inj h)
      · exact hm (hp fun _ => updateTrustRoot_nz hw _ _ _ _) (Option.some.inj h)

/-- **C94** If `sigstore sign` exits with status 0, no help was asked for, the outputs of its inputs are at different places and
`--overwrite` is off, then every file named on the command line was there, and its outputs hold the bundle, signature and
certificate that were made for its content with one new key and one certificate for it. -/
theorem C94_sign (environ : Environ) (line : CommandLine) (s : MainState) (hc : line.command = .sign) (r : Py Unit)
    (h : (Cli.main libs o environ line s).1 = some r) (hr : exitStatus r = 0) (hh : ¬ AsksForHelp line) :
    ∃ trust ident args, TrustOptions environ line.top line.sub false trust ∧
      RekorVersion libs.int line.sub trust.rekorVersion ∧ IdentityOptions environ line.sub true ident ∧
      SignOptions environ line.sub line.positional args ∧
      (SignOutputsApart libs.sign.disk args → args.overwrite = false →
        ∃ token cert, (∃ cfg, signIdentity libs.sign.identity o.now ident cfg = .ok token) ∧
          IssuedFor libs.sign.kp (o.first token) s.sign.world.keys cert ∧
          ∀ arg ∈ line.positional, ∃ content b, s.sign.disk (libs.sign.disk.resolve (Path.ofStr arg)) = some (.file content) ∧
            BundleOf libs.sign.env.crypto libs.sign.kp libs.sign.codec s.sign.world.keys cert none (Path.ofStr arg).name content b ∧
            OutputsHold libs.sign args (Cli.main libs o environ line s).2.sign.disk (Path.ofStr arg) cert b) := by
  have hok := (C94_exit_zero_iff hw environ line s r h hh).1 hr
  subst hok
  obtain ⟨he, hl⟩ := (exit_zero_cases h hr).resolve_left hh
  obtain ⟨ns, hns⟩ := (C89_accepted_iff environ line).2 ⟨he, hl⟩
  obtain ⟨v, hv⟩ : ∃ v, rekorVersionArg libs ns = .ok v := by
    rw [main_eq hns, dispatch] at h
    dsimp only at h
    split at h
    · cases h
    · exact ⟨_, by assumption⟩
  have ht : TrustOptions environ line.top line.sub false (trustArgsOf ns v) := by
    have := meaning_trust hns v
    rw [hc] at this
    exact this
  have hi : IdentityOptions environ line.sub true (identityArgsOf ns) := by
    have := meaning_identity hns (.inl hc)
    rw [hc] at this
    exact this
  have hv' := (meaning_version hns libs (.inl hc) v).1 hv
  have hs := meaning_sign hns hc
  refine ⟨_, _, _, ht, hv', hi, hs, ?_⟩
  intro ha how
  rw [C89_sign libs o s he hl hc ht hv' hi hs] at h ⊢
  have hm : (signMain libs.sign o (trustArgsOf ns v) (identityArgsOf ns) (signArgsOf ns line.positional) s.sign).1 = some (.ok ()) := by
    dsimp only at h
    obtain ⟨x, hx, hx'⟩ := Option.map_eq_some_iff.1 h
    match x with
    | .ok () => exact hx
    | .error e =>
      rw [mainHandler] at hx'
      split at hx' <;> cases hx'
  obtain ⟨token, cert, h1, h2, h3⟩ := C43_own_bundle libs.sign o _ _ _ _ ha how hm
  refine ⟨token, cert, h1, h2, ?_⟩
  intro arg harg
  exact h3 _ (by rw [hs.files]; exact List.mem_map_of_mem harg)

/-- **C94** If `sigstore attest` exits with status 0, no help was asked for, the outputs of its inputs are at different places and
`--overwrite` is off, then the output of every file named on the command line holds a signed in-toto statement about the name and
the SHA-256 digest of its content, with the predicate type and the document of the predicate file given on the line. -/
theorem C94_attest (t : JsonText) (hcodec : libs.sign.codec = .ofText t) (environ : Environ) (line : CommandLine) (s : MainState)
    (hc : line.command = .attest) (r : Py Unit)
    (h : (Cli.main libs o environ line s).1 = some r) (hr : exitStatus r = 0) (hh : ¬ AsksForHelp line) :
    ∃ trust ident args, TrustOptions environ line.top line.sub false trust ∧
      RekorVersion libs.int line.sub trust.rekorVersion ∧ IdentityOptions environ line.sub true ident ∧
      AttestOptions environ line.sub line.positional args ∧
      ((∀ f ∈ args.files, ∀ g ∈ args.files, f ≠ g → ∀ p q, AttestBundlePath args f p → AttestBundlePath args g q →
          libs.sign.disk.resolve p ≠ libs.sign.disk.resolve q) → args.overwrite = false →
        ∃ pred predicate text, s.sign.disk (libs.sign.disk.resolve args.predicate) = some (.file predicate) ∧
          utf8Decode predicate = some text ∧ libs.sign.loads text = some (.obj pred) ∧
          AcceptedPredicate args.predicateType (.obj pred) ∧
          ∀ arg ∈ line.positional, ∃ content b p sig,
            s.sign.disk (libs.sign.disk.resolve (Path.ofStr arg)) = some (.file content) ∧
            AttestBundlePath args (Path.ofStr arg) p ∧
            HoldsBundle libs.sign.disk libs.sign.toJson (Cli.main libs o environ line s).2.sign.disk b p ∧
            b.inner.dsseEnvelope = some ⟨t.dump (attestation (Path.ofStr arg).name
              (hexEncode (libs.sign.env.crypto.sha256 content)) args.predicateType pred),
              "application/vnd.in-toto+json".toList, [sig]⟩) := by
  have hok := (C94_exit_zero_iff hw environ line s r h hh).1 hr
  subst hok
  obtain ⟨he, hl⟩ := (exit_zero_cases h hr).resolve_left hh
  obtain ⟨ns, hns⟩ := (C89_accepted_iff environ line).2 ⟨he, hl⟩
  obtain ⟨v, args, hv, hargs⟩ : ∃ v args, rekorVersionArg libs ns = .ok v ∧ attestArgsOf ns line.positional = .ok args := by
    rw [main_eq hns, dispatch, hc] at h
    dsimp only at h
    split at h
    · cases h
    · split at h
      · cases h
      · exact ⟨_, _, by assumption, by assumption⟩
  have ht : TrustOptions environ line.top line.sub false (trustArgsOf ns v) := by
    have := meaning_trust hns v
    rw [hc] at this
    exact this
  have hi : IdentityOptions environ line.sub true (identityArgsOf ns) := by
    have := meaning_identity hns (.inr (.inl hc))
    rw [hc] at this
    exact this
  have hv' := (meaning_version hns libs (.inr hc) v).1 hv
  have hs := meaning_attest hns hc args hargs
  refine ⟨_, _, args, ht, hv', hi, hs, ?_⟩
  intro ha how
  rw [C89_attest libs o s he hl hc ht hv' hi hs] at h ⊢
  have hm : (attestMain libs.sign o (trustArgsOf ns v) (identityArgsOf ns) args s.sign).1 = some (.ok ()) := by
    dsimp only at h
    obtain ⟨x, hx, hx'⟩ := Option.map_eq_some_iff.1 h
    match x with
    | .ok () => exact hx
    | .error e =>
      rw [mainHandler] at hx'
      split at hx' <;> cases hx'
  obtain ⟨pred, predicate, text, h1, h2, h3, h4, h5⟩ := C87_attested_document libs.sign t hcodec o _ _ _ _ ha (.inl how) hm
  refine ⟨pred, predicate, text, h1, h2, h3, h4, ?_⟩
  intro arg harg
  obtain ⟨content, b, p, g1, g2, g3, _, _, sig, rfl, rfl, g4, _⟩ := h5 (Path.ofStr arg) (by
    rw [hs.files]; exact List.mem_map_of_mem harg)
  exact ⟨content, b, p, sig, g1, g2, g3, g4⟩

end Commands

/-! ## A concrete run -/

theorem exAnswersQuiet (t : Time) : AnswersDoNotExit (exAnswers t) where
  fulcio csr h := by
    unfold exAnswers at h
    dsimp only at h
    split at h <;> cases h
  tsas x hx sig h := by
    unfold exAnswers at hx
    dsimp only at hx
    simp only [List.mem_cons, List.not_mem_nil, or_false] at hx
    rcases hx with rfl | rfl | rfl <;> cases h
  rekor r h := by
    unfold exAnswers at h
    dsimp only at h
    cases h

theorem exWorldQuiet : WorldDoesNotExit exMainSign (exOracle exTurns) where
  verify d :=
    { read := fun p h => diskRead_nz _ _ _ h
      parseBundle := fun b h => by
        change (exMainLibs 'B').parseBundle b = _ at h
        unfold exMainLibs at h
        dsimp only at h
        split at h
        · cases h
        · split at h <;> cases h
      config := fun b h => by
        change (if b = [3] then _ else _) = _ at h
        split at h <;> cases h
      root := fun b h => by cases h
      signingConfig := fun b h => by cases h
      retrieve := fun b h => by cases h
      targetInfo := fun n h => by cases h
      findCached := fun f i h => by cases h
      download := fun i h => by cases h }
  detect c h := by cases h
  issuer u h := by cases h
  interactive u c s f h := by cases h
  token t c h := by cases h
  first t := exAnswersQuiet _
  perFile p := ⟨exAnswersQuiet _, exAnswersQuiet _⟩
  shown := exAnswersQuiet _
  fetch b i h := by
    cases b <;> cases h

/-- a run of `sigstore --trust-config t sign --identity-token x a b` that exits with status 0 -/
example : ∃ token cert, IssuedFor exSignLibs.kp ((exOracle exTurns).first token) 0 cert ∧
    ∀ arg ∈ ["a".toList, "b".toList], ∃ content b,
      exDisk [(exPath "a", 1), (exPath "b", 2)] (Path.ofStr arg) = some (.file content) ∧
      BundleOf exSignCrypto exKeys exSignLibs.codec 0 cert none (Path.ofStr arg).name content b := by
  have hh : ¬ AsksForHelp exSignLine := by
    rintro (⟨o, ho, n, hn, h⟩ | ⟨o, ho, n, hn, h⟩ | ⟨o, ho, n, hn, h⟩) <;> revert o n <;> decide
  have hs : SignOptions exNoEnviron exSignLine.sub exSignLine.positional exSignArgs :=
    ⟨rfl, exAbsentPath (by decide), exAbsentPath (by decide), exAbsentPath (by decide), exAbsentPath (by decide),
     exAbsentFlag (by decide), exAbsentFlag (by decide)⟩
  obtain ⟨trust, ident, args, _, _, _, h4, h5⟩ := C94_sign exWorldQuiet exNoEnviron exSignLine
    ⟨exSignState [(exPath "a", 1), (exPath "b", 2)], [], []⟩ rfl _ exMainSigned rfl hh
  obtain rfl := signOptions_unique h4 hs
  have hout : ∀ f p, SignOutput exSignArgs f p → p = f.parent.join (f.name ++ ".sigstore.json".toList) := by
    intro f p hp
    cases hp with
    | signature h => cases h
    | certificate h => cases h
    | bundle h => cases h
    | inDirectory _ _ h => cases h
    | beside => rfl
  obtain ⟨token, cert, _, h1, h2⟩ := h5
    ⟨by intro f hf g hg hfg p q hp hq
        rw [hout f p hp, hout g q hq]
        have hf : f = exPath "a" ∨ f = exPath "b" := by simpa [exSignArgs] using hf
        have hg : g = exPath "a" ∨ g = exPath "b" := by simpa [exSignArgs] using hg
        rcases hf with rfl | rfl <;> rcases hg with rfl | rfl
        · exact absurd rfl hfg
        · decide
        · decide
        · exact absurd rfl hfg,
     (by intro p q h; cases h), (by rintro f _ p q (h | h) <;> cases h)⟩ rfl
  refine ⟨token, cert, h1, ?_⟩
  intro arg harg
  obtain ⟨content, b, g1, g2, _⟩ := h2 arg harg
  exact ⟨content, b, g1, g2⟩

/-- a missing input gives another status -/
example (r : Py Unit) (h : (Cli.main exMainSign (exOracle exTurns) exNoEnviron exSignLine
    ⟨exSignState [(exPath "a", 1)], [], []⟩).1 = some r) : exitStatus r ≠ 0 := by
  have hh : ¬ AsksForHelp exSignLine := by
    rintro (⟨o, ho, n, hn, h⟩ | ⟨o, ho, n, hn, h⟩ | ⟨o, ho, n, hn, h⟩) <;> revert o n <;> decide
  rw [ne_eq, C94_exit_zero_iff exWorldQuiet exNoEnviron exSignLine _ r h hh]
  rintro rfl
  rw [C89_sign exMainSign (exOracle exTurns) _ exSignLine_ok.1 exSignLine_ok.2 rfl (trust := exTrust) (ident := exIdent)
    (args := exSignArgs)
    ⟨⟨some "t".toList, .given (exLastGiven _ _), rfl⟩, exAbsent (by decide), exAbsentFlag (by decide), rfl⟩
    (by rintro ⟨o, ho, n, hn, e⟩; revert o n; decide)
    ⟨.given (exLastGiven "--identity-token" "x"), exAbsent (by decide), exAbsent (by decide), exAbsentFlag (by decide),
     exAbsent (by decide), exAbsentFlag (by decide)⟩
    ⟨rfl, exAbsentPath (by decide), exAbsentPath (by decide), exAbsentPath (by decide), exAbsentPath (by decide),
     exAbsentFlag (by decide), exAbsentFlag (by decide)⟩] at h
  have : (signMain exSignLibs (exOracle exTurns) exTrust exIdent exSignArgs (exSignState [(exPath "a", 1)])).1 =
      some (.error (.systemExit 2)) := by decide
  change Option.map _ (signMain exSignLibs (exOracle exTurns) exTrust exIdent exSignArgs (exSignState [(exPath "a", 1)])).1 = _ at h
  rw [this] at h
  cases h

end Sigstore.Props
