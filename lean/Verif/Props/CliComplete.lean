import Mathlib.Data.List.Infix
import Verif.Spec.SignReady
import Verif.Props.CliFair
import Verif.Props.CliUsage
import Verif.Props.CliRoundtrip

/-!
# C103: signing succeeds
-/

namespace Sigstore.Props

open Sigstore.Trust Sigstore.LogEntry Sigstore.Dsse Sigstore.Signing Sigstore.Cli Sigstore.Spec

/-! ## Threads that have what they need do not fail -/

/-- what a thread needs -/
structure JobReady (je : JobEnv) (cert : Cert) (d₀ : Disk) (job : Job) : Prop where
  input : ∃ c, InputWas je d₀ job c
  signs : ∀ w call, CanSign call → ∃ b w', je.signer.sign je.env je.ctx je.kp job.answers w call = (.ok b, w')
  inTime : job.certAnswers.now ≤ cert.notAfter
  outputs : ∀ x ∈ job.outputs.list, (je.disk.canWrite x.path = true ∧ ∀ n, je.disk.canPut x.path n = true) ∧
    d₀ (je.disk.resolve x.path) ≠ some .dir

/-- no thread has failed, and no output is a directory -/
structure Unfailed (je : JobEnv) (jobs : List Job) (st : JobsState) : Prop where
  pcs : ∀ i e, st.pcs i ≠ .failed e
  outputs : ∀ job ∈ jobs, ∀ x ∈ job.outputs.list, st.disk (je.disk.resolve x.path) ≠ some .dir

theorem callFor_ok (je : JobEnv) (file : Path) (h : Hashed) (hs : h.algorithm = .sha2_256) (hl : h.digest.length = 32) :
    ∃ call, callFor je file h = .ok call ∧ CanSign call := by
  unfold callFor
  cases hp : je.predicate with
  | none => exact ⟨_, rfl, hs, hl⟩
  | some p =>
    obtain ⟨pt, pred⟩ := p
    exact ⟨_, rfl, trivial⟩

theorem signature_of_made {c : Crypto} {kp : KeyPairs} {codec : StatementCodec} {k : Nat} {cert : Cert}
    {predicate : Option (Str × Dict Str Json)} {name : Str} {content : Bytes} {b : Bundle} (hk : CorrectKeys c kp)
    (h : BundleOf c kp codec k cert predicate name content b) : ∃ sig, b.signature = .ok sig := by
  obtain ⟨_, nonce, h⟩ := h
  unfold Bundle.signature
  cases predicate with
  | none =>
    dsimp only at h
    rw [h.1, h.2]
    exact ⟨_, rfl⟩
  | some p =>
    dsimp only at h
    obtain ⟨_, payload, _, he⟩ := h
    rw [he]
    dsimp only [envelopeInit]
    rw [if_neg (hk.nonempty _ _ _)]
    exact ⟨_, rfl⟩

theorem outputData_ok {je : JobEnv} {k : Nat} {cert : Cert} (hs : je.signer = ⟨some k, some cert⟩) {a : Answers} {b : Bundle}
    (ha : a.now ≤ cert.notAfter) (hb : ∃ sig, b.signature = .ok sig) (w : Signing.World) (x : Output) :
    ∃ data w', outputData je a b w x = (.ok data, w') := by
  cases x with
  | signature p =>
    obtain ⟨sig, hsig⟩ := hb
    exact ⟨_, _, by unfold outputData; rw [hsig]⟩
  | certificate p =>
    refine ⟨utf8 (pemText cert.der ++ ['\n']), w, ?_⟩
    unfold outputData
    rw [hs, signingCert_cached, if_neg (not_lt.2 ha)]
  | bundle p => exact ⟨_, _, rfl⟩

theorem openW_total {e : DiskEnv} {d : Disk} {p : Path} (h1 : d (e.resolve p) ≠ some .dir) (h2 : e.canWrite p = true) :
    e.openW d p = .ok (Function.update d (e.resolve p) (some (.file []))) := by
  unfold DiskEnv.openW
  split
  · rename_i h; exact absurd h h1
  · rw [if_pos h2]

theorem writeByte_not_dir {e : DiskEnv} {d : Disk} {p l : Path} {n : Nat} {b : UInt8} (h : d l ≠ some .dir) :
    e.writeByte d p n b l ≠ some .dir := by
  by_cases hl : l = e.resolve p
  · subst hl
    unfold DiskEnv.writeByte
    cases hd : d (e.resolve p) with
    | none => dsimp only; rw [hd]; simp
    | some n =>
      cases n with
      | file c => dsimp only; rw [Function.update_self]; simp
      | dir => exact absurd hd h
  · rw [writeByte_other _ _ _ _ _ hl]; exact h

theorem jobStep_unfailed (je : JobEnv) (k : Nat) (cert : Cert) (hs : je.signer = ⟨some k, some cert⟩)
    (hk : CorrectKeys je.env.crypto je.kp) (hsha : ∀ x, (je.env.crypto.sha256 x).length = 32) (d₀ : Disk)
    (jobs : List Job) (hready : ∀ job ∈ jobs, JobReady je cert d₀ job) (st : JobsState)
    (inv : JobsInv je k cert d₀ jobs st) (h : Unfailed je jobs st) (i : Nat) : Unfailed je jobs (jobStep je jobs st i) := by
  cases hj : jobs[i]? with
  | none => rw [jobStep_none _ _ _ _ hj]; exact h
  | some job =>
    have hmem := List.mem_of_getElem? hj
    have hr := hready job hmem
    have hi := inv.each i job hj
    have goes : ∀ (st' : JobsState) (pc : JobPc), st'.pcs = st.pcs → (∀ e, pc ≠ .failed e) → ∀ j e, (st'.goto i pc).pcs j ≠ .failed e := by
      intro st' pc hst hpc j e
      by_cases hji : j = i
      · subst hji; rw [goto_self]; exact hpc e
      · rw [goto_other _ _ hji, hst]; exact h.pcs j e
    unfold jobStep
    rw [hj]
    dsimp only
    cases hpc : st.pcs i with
    | start =>
      dsimp only
      obtain ⟨c, hc1, hc2⟩ := hr.input
      rw [show je.disk.read st.disk job.file = .ok c by
        unfold DiskEnv.read; rw [inv.inputs job hmem, hc2]; exact if_pos hc1]
      exact ⟨goes _ _ rfl (by simp), h.outputs⟩
    | hashed hh =>
      dsimp only
      rw [hpc] at hi
      obtain ⟨c, _, rfl⟩ := hi
      obtain ⟨call, hcall, hcan⟩ := callFor_ok je job.file ⟨.sha2_256, je.env.crypto.sha256 c⟩ rfl (hsha _)
      obtain ⟨b, w', hb⟩ := hr.signs st.world call hcan
      rw [hcall]
      dsimp only
      rw [hb]
      exact ⟨goes _ _ rfl (by simp), h.outputs⟩
    | emit b todo =>
      rw [hpc] at hi
      cases todo with
      | nil => exact ⟨goes _ _ rfl (by simp), h.outputs⟩
      | cons x todo =>
        obtain ⟨⟨c, _, hb, _⟩, pre, hp, _⟩ := hi
        have hx : x ∈ job.outputs.list := by rw [hp]; simp
        obtain ⟨data, w', hd⟩ := outputData_ok hs hr.inTime (signature_of_made hk hb) st.world x
        dsimp only
        rw [hd]
        dsimp only
        rw [openW_total (h.outputs job hmem x hx) (hr.outputs x hx).1.1]
        refine ⟨goes _ _ rfl (by simp), ?_⟩
        intro job' hjob' y hy
        show Function.update st.disk _ _ _ ≠ _
        by_cases hl : je.disk.resolve y.path = je.disk.resolve x.path
        · rw [hl, Function.update_self]; simp
        · rw [Function.update_of_ne hl]; exact h.outputs job' hjob' y hy
    | writing b p data n todo =>
      rw [hpc] at hi
      obtain ⟨_, pre, x, hp, _, rfl, _⟩ := hi
      dsimp only
      rw [if_pos ((hr.outputs x (by rw [hp]; simp)).1.2 n)]
      split
      · exact ⟨goes _ _ rfl (by simp), h.outputs⟩
      · exact ⟨goes _ _ rfl (by simp), fun job' hjob' y hy => writeByte_not_dir (h.outputs job' hjob' y hy)⟩
    | done => exact h
    | failed e => exact h

theorem runJobs_unfailed (je : JobEnv) (k : Nat) (cert : Cert) (hs : je.signer = ⟨some k, some cert⟩)
    (hk : CorrectKeys je.env.crypto je.kp) (hsha : ∀ x, (je.env.crypto.sha256 x).length = 32) (d₀ : Disk)
    (jobs : List Job) (sep : Separate je jobs) (hready : ∀ job ∈ jobs, JobReady je cert d₀ job) :
    ∀ (schedule : List Nat) (st : JobsState), JobsInv je k cert d₀ jobs st → Unfailed je jobs st →
      Unfailed je jobs (runJobs je jobs st schedule) := by
  intro schedule
  induction schedule with
  | nil => intro st _ h; exact h
  | cons i schedule ih =>
    intro st inv h
    exact ih _ (jobStep_inv je k cert hs d₀ jobs sep st inv i) (jobStep_unfailed je k cert hs hk hsha d₀ jobs hready st inv h i)

theorem jobsResult_unfailed {je : JobEnv} {jobs : List Job} {order : List Nat} {st : JobsState} (h : Unfailed je jobs st) :
    jobsResult jobs order st = none ∨ jobsResult jobs order st = some (.ok ()) := by
  unfold jobsResult
  split
  · right
    split
    · rfl
    · rename_i e he
      exfalso
      obtain ⟨i, _, hi⟩ := List.exists_of_findSome?_eq_some he
      split at hi
      · cases hpc : st.pcs i with
        | failed e => exact h.pcs i e hpc
        | _ => rw [hpc] at hi; cases hi
      · cases hi
  · exact .inl rfl

/-! ## Getting ready -/

theorem signPrepare_succeeds {libs : SignLibs} {o : SignOracle} {trust : TrustArgs} {ident : IdentityArgs} {s : SignState}
    {config : LoadedConfig} {services : Config.ContextServices} {token : Oidc.IdentityToken} {files : List Path}
    {now : Time} {v : Verifier} {ct log : ServiceKey} {cert : Cert}
    (hk : CorrectKeys libs.env.crypto libs.kp) (hsha : ∀ x, (libs.env.crypto.sha256 x).length = 32)
    (hset : SetUp libs o trust ident s.tuf s.disk config services token)
    (hans : Answering libs o files s.world.keys config.root (apiVersionOf services.rekor) token ct cert)
    (hhon : HonestServices libs.env now v ct log cert (o.first token) (fun a => ∃ f ∈ files, a = (o.perFile f).1)) :
    ∃ s', signPrepare libs o trust ident s =
        (.ok (⟨config.root, apiVersionOf services.rekor⟩, ⟨some s.world.keys, some cert⟩), s') ∧
      ∀ f ∈ files, ∀ w call, CanSign call → ∃ b w', (⟨some s.world.keys, some cert⟩ : Signer).sign libs.env
        ⟨config.root, apiVersionOf services.rekor⟩ libs.kp (o.perFile f).1 w call = (.ok b, w') := by
  obtain ⟨chain, hf⟩ := hans.issued
  obtain ⟨signer, w₁, cert', h1, h2, h3⟩ := C38_signing_succeeds libs.env ⟨config.root, apiVersionOf services.rekor⟩ libs.kp
    (o.first token) s.world v.fulcioCerts ct log (startedKeys now v.root.tlogs) hk hsha hans.tokenValid hans.ctTrusted
    hhon.fulcio ⟨cert, chain, hf⟩
  obtain ⟨cert₂, chain₂, _, g2, _, rfl, rfl⟩ := (init_cached_iff _ _ _ _ _ _ _).1 h1
  obtain rfl := Option.some.inj h2
  rw [hf] at g2
  obtain ⟨rfl, rfl⟩ := Prod.mk.inj (Except.ok.inj g2)
  refine ⟨{ s with
    tuf := (getTrustConfig (libs.disk.fs s.disk) libs.tuf libs.parsers trust s.tuf).2
    world := ⟨s.world.keys + 1, s.world.posts ++ [⟨libs.kp.pub s.world.keys⟩]⟩ }, ?_, ?_⟩
  · unfold signPrepare
    have hl := hset.loads
    cases hg : getTrustConfig (libs.disk.fs s.disk) libs.tuf libs.parsers trust s.tuf with
    | mk r t =>
      rw [hg] at hl
      dsimp only at hl
      subst hl
      dsimp only
      rw [hset.context]
      dsimp only
      rw [hset.identity]
      dsimp only
      rw [h1]
      dsimp only
      rw [signingCert_cached, if_neg (not_lt.2 hans.shown)]
  · intro f hf w call hcan
    refine h3 (o.perFile f).1 w call now v.root (hans.inTime f hf).1 hcan (hhon.rekor _ ⟨f, hf, rfl⟩) (hans.replies f hf)
      (hhon.tsas _ ⟨f, hf, rfl⟩) ?_
    rcases hans.times with h | h
    · exact .inl h
    · exact .inr (h f hf)

/-- signing does not fail -/
theorem signCommon_unfailed {libs : SignLibs} {o : SignOracle} {trust : TrustArgs} {ident : IdentityArgs} {s : SignState}
    {map : Dict Path SigningOutputs} {predicate : Option (Str × Dict Str Json)}
    {config : LoadedConfig} {services : Config.ContextServices} {token : Oidc.IdentityToken} {files : List Path}
    {now : Time} {v : Verifier} {ct log : ServiceKey} {cert : Cert}
    (hk : CorrectKeys libs.env.crypto libs.kp) (hsha : ∀ x, (libs.env.crypto.sha256 x).length = 32)
    (hset : SetUp libs o trust ident s.tuf s.disk config services token)
    (hans : Answering libs o files s.world.keys config.root (apiVersionOf services.rekor) token ct cert)
    (hhon : HonestServices libs.env now v ct log cert (o.first token) (fun a => ∃ f ∈ files, a = (o.perFile f).1))
    (hm : MapApart libs.disk map) (hmap : ∀ f ∈ map.keys, f ∈ files)
    (hin : ∀ f ∈ map.keys, libs.disk.canRead f = true ∧ ∃ c, s.disk (libs.disk.resolve f) = some (.file c))
    (hout : ∀ f outs, (f, outs) ∈ map → ∀ x ∈ outs.list,
      (libs.disk.canWrite x.path = true ∧ ∀ n, libs.disk.canPut x.path n = true) ∧ s.disk (libs.disk.resolve x.path) ≠ some .dir) :
    (signCommon libs o trust ident map predicate s).1 = none ∨
      (signCommon libs o trust ident map predicate s).1 = some (.ok ()) := by
  obtain ⟨s', hp, hsig⟩ := signPrepare_succeeds hk hsha hset hans hhon
  have hd := signPrepare_disk libs o trust ident s
  rw [hp] at hd
  dsimp only at hd
  unfold signCommon
  rw [hp]
  dsimp only
  refine jobsResult_unfailed (je := jobEnv libs ⟨config.root, apiVersionOf services.rekor⟩ ⟨some s.world.keys, some cert⟩ predicate) ?_
  refine runJobs_unfailed _ s.world.keys cert rfl hk hsha s'.disk _ (separate_of_apart hm) ?_ _ _
    ⟨fun _ _ _ => trivial, fun _ _ => rfl⟩ ⟨fun _ _ h => (nomatch h), ?_⟩
  · intro job hjob
    have hmem := mem_jobsOf hjob
    have hkey : job.file ∈ map.keys := List.mem_map.2 ⟨_, hmem, rfl⟩
    obtain ⟨hr, c, hc⟩ := hin _ hkey
    unfold jobsOf at hjob
    obtain ⟨⟨f, outs⟩, hp', rfl⟩ := List.mem_map.1 hjob
    refine ⟨⟨c, hr, by rw [hd]; exact hc⟩, ?_, (hans.inTime _ (hmap _ hkey)).2, ?_⟩
    · exact hsig _ (hmap _ hkey)
    · intro x hx
      rw [hd]
      exact hout _ _ hmem x hx
  · intro job hjob x hx
    show s'.disk _ ≠ _
    rw [hd]
    exact (hout _ _ (mem_jobsOf hjob) x hx).2

/-! ## `sigstore sign` -/

theorem fs_of_only {e : DiskEnv} {d d' : Disk} (h : OnlyDirectories d d') : e.fs d' = e.fs d := by
  unfold DiskEnv.fs
  congr 1
  · funext p
    unfold DiskEnv.isFile
    rcases h (e.resolve p) with h | ⟨h1, h2⟩
    · rw [h]
    · rw [h1, h2]
  · funext p
    unfold DiskEnv.read
    rcases h (e.resolve p) with h | ⟨h1, h2⟩
    · rw [h]
    · rw [h1, h2]

theorem mem_ancestors {p q : Path} (h : q ∈ Path.ancestors p) : q.absolute = p.absolute ∧ q.parts <+: p.parts := by
  unfold Path.ancestors at h
  obtain ⟨l, hl, rfl⟩ := List.mem_map.1 h
  exact ⟨rfl, (List.mem_inits _ _).1 hl⟩

theorem mkdirOne_other (e : DiskEnv) (d : Disk) (p : Path) {l : Path} (h : l ≠ e.resolve p) : e.mkdirOne d p l = d l := by
  unfold DiskEnv.mkdirOne
  cases hd : d (e.resolve p) with
  | none => exact Function.update_of_ne h ..
  | some n => rfl

theorem mkdirs_other (e : DiskEnv) {l : Path} : ∀ (ps : List Path) (d : Disk), (∀ p ∈ ps, l ≠ e.resolve p) →
    ps.foldl e.mkdirOne d l = d l
  | [], _, _ => rfl
  | p :: ps, d, h => by
    rw [List.foldl_cons, mkdirs_other e ps _ fun q hq => h q (by simp [hq]), mkdirOne_other e d p (h p (by simp))]

/-- making a directory succeeds and leaves everything else alone -/
theorem mkdir_total {e : DiskEnv} {d : Disk} {p : Path} (h1 : ∀ c, d (e.resolve p) ≠ some (.file c)) (h2 : e.canMkdir p = true) :
    ∃ d', e.mkdir d p = .ok d' ∧ ∀ l, (∀ q : Path, q.absolute = p.absolute → q.parts <+: p.parts → l ≠ e.resolve q) → d' l = d l := by
  unfold DiskEnv.mkdir
  cases hd : d (e.resolve p) with
  | none =>
    dsimp only
    rw [if_pos h2]
    refine ⟨_, rfl, ?_⟩
    intro l hl
    exact mkdirs_other e _ _ fun q hq => hl q (mem_ancestors hq).1 (mem_ancestors hq).2
  | some n =>
    cases n with
    | file c => exact absurd hd (h1 c)
    | dir => exact ⟨d, rfl, fun _ _ => rfl⟩

theorem signDirectory_getD (args : SignArgs) (f : Path) : SignDirectory args f (args.outputDirectory.getD f.parent) := by
  cases h : args.outputDirectory with
  | none => exact .beside h
  | some dir => exact .given h

theorem signOutputsLoop_ready {e : DiskEnv} {args : SignArgs} {d₀ : Disk} (hu : UsableSign e args d₀) (hp : PlacesOk e args d₀) :
    ∀ (files : List Path) (map : Dict Path SigningOutputs) (d : Disk), (∀ f ∈ files, f ∈ args.files) → OnlyDirectories d₀ d →
    (∀ f ∈ args.files, ∀ p, SignOutput args f p → d (e.resolve p) = d₀ (e.resolve p)) →
    ∃ map' d', signOutputsLoop e args map files d = (.ok map', d') ∧
      ∀ f ∈ args.files, ∀ p, SignOutput args f p → d' (e.resolve p) = d₀ (e.resolve p) := by
  intro files
  induction files with
  | nil => intro map d _ _ ho; exact ⟨map, d, rfl, ho⟩
  | cons f files ih =>
    intro map d hsub hd ho
    have hf := hsub f (by simp)
    obtain ⟨k1, k2⟩ := hp.directories f hf _ (signDirectory_getD args f)
    have k2' : ∀ c, d (e.resolve (args.outputDirectory.getD f.parent)) ≠ some (.file c) :=
      fun c hc => k2 c (hd.file.1 hc)
    obtain ⟨d₁, m1, m2⟩ := mkdir_total k2' k1
    have ho₁ : ∀ g ∈ args.files, ∀ p, SignOutput args g p → d₁ (e.resolve p) = d₀ (e.resolve p) := by
      intro g hg p hgp
      rw [m2 _ fun q hq1 hq2 => hp.apart g hg p hgp f hf _ (signDirectory_getD args f) q hq1 hq2]
      exact ho g hg p hgp
    have hone : signOutputsOne e args f d = (.ok (signOutputsFor args f), d₁) := by
      unfold signOutputsOne
      obtain ⟨c, hc⟩ := hu.inputs f hf
      rw [(isFile_iff e d f).2 ⟨c, hd.file.2 hc⟩]
      simp only [Bool.not_true, Bool.false_eq_true, if_false]
      rw [if_neg]
      · rw [m1]
        dsimp only
        rw [if_neg]
        · rfl
        · intro hx
          simp only [Bool.and_eq_true, Bool.not_eq_true'] at hx
          obtain ⟨how, hx⟩ := hx
          have hs : ∀ p, SignOutput args f p → d₁ (e.resolve p) = none := fun p hp' => by
            rw [ho₁ f hf p hp']; exact hu.outputs how f hf p hp'
          have g1 : e.extant d₁ args.signature = false := (extant_false_iff _ _ _).2 fun p hp => hs p (.signature hp)
          have g2 : e.extant d₁ args.certificate = false := (extant_false_iff _ _ _).2 fun p hp => hs p (.certificate hp)
          have g3 : e.extant d₁ (signBundlePath args f (args.outputDirectory.getD f.parent)) = false :=
            (extant_false_iff _ _ _).2 fun p hp => hs p ((signOutput_iff args f p).1
              ⟨.bundle p, (mem_outputs _ _).2 (.inr (.inr ⟨p, hp, rfl⟩)), rfl⟩)
          rw [g1, g2, g3] at hx
          cases hx
      · unfold DiskEnv.exists_ DiskEnv.isDir
        cases hn : d (e.resolve (args.outputDirectory.getD f.parent)) with
        | none => simp
        | some n =>
          cases n with
          | file c => exact absurd hn (k2' c)
          | dir => simp
    rw [signOutputsLoop, hone]
    exact ih _ _ (fun g hg => hsub g (by simp [hg])) (hd.trans (mkdir_only e d d₁ _ m1)) ho₁

theorem signOutputs_ready {e : DiskEnv} {args : SignArgs} {d : Disk} (hu : UsableSign e args d) (hp : PlacesOk e args d) :
    ∃ map d', signOutputs e args d = (.ok map, d') ∧
      ∀ f ∈ args.files, ∀ p, SignOutput args f p → d' (e.resolve p) = d (e.resolve p) := by
  unfold signOutputs
  rw [(signConflict_iff args).2 hu.consistent]
  exact signOutputsLoop_ready hu hp args.files [] d (fun _ h => h) (.refl _) fun _ _ _ _ => rfl

section Sign

variable {libs : SignLibs} {o : SignOracle} {trust : TrustArgs} {ident : IdentityArgs} {args : SignArgs} {s : SignState}
  {config : LoadedConfig} {services : Config.ContextServices} {token : Oidc.IdentityToken} {now : Time} {v : Verifier}
  {ct log : ServiceKey} {cert : Cert}
  (hk : CorrectKeys libs.env.crypto libs.kp) (hsha : ∀ x, (libs.env.crypto.sha256 x).length = 32)
  (hset : SetUp libs o trust ident s.tuf s.disk config services token)
  (hans : Answering libs o args.files s.world.keys config.root (apiVersionOf services.rekor) token ct cert)
  (hhon : HonestServices libs.env now v ct log cert (o.first token) (fun a => ∃ f ∈ args.files, a = (o.perFile f).1))
  (hu : UsableSign libs.disk args s.disk) (hp : PlacesOk libs.disk args s.disk)
  (hput : ∀ f ∈ args.files, WritesSucceed libs.disk args f)
  (ha : SignOutputsApart libs.disk args) (hi : args.overwrite = false ∨ SignInputsApart libs.disk args)

include hk hsha hset hans hhon hu hp hput ha hi

/-- **C103** `sign` does not fail, however its threads are scheduled, if its arguments are usable, its files can be read and
written, its outputs lead to different places, and the services are honest and answer in time. -/
theorem C103_sign_never_fails (e : Exc) : (signMain libs o trust ident args s).1 ≠ some (.error e) := by
  obtain ⟨map, d, hm, hd⟩ := signOutputs_ready hu hp
  have honly := signOutputs_disk libs.disk args s.disk
  rw [hm] at honly
  dsimp only at honly
  have hmap := signOutputs_map _ _ _ _ _ hm
  have hi' : SignInputsApart libs.disk args := by
    rcases hi with how | hi
    · intro f hf g hg p hp' he
      obtain ⟨c, hc⟩ := hu.inputs g hg
      have := hu.outputs how f hf p hp'
      rw [he, hc] at this
      cases this
    · exact hi
  have hset' : SetUp libs o trust ident s.tuf d config services token :=
    ⟨by rw [fs_of_only honly]; exact hset.loads, hset.context, hset.identity⟩
  unfold signMain
  rw [hm]
  dsimp only
  have := signCommon_unfailed (s := { s with disk := d }) (predicate := none) hk hsha hset' hans hhon (signMap_apart hmap ha hi')
    (fun f hf => (hmap.2.1 f).1 hf) (by
      intro f hf
      have hf := (hmap.2.1 f).1 hf
      obtain ⟨c, hc⟩ := hu.inputs f hf
      exact ⟨hp.readable f hf, c, honly.file.2 hc⟩) (by
      intro f outs hmem x hx
      have hf : f ∈ args.files := (hmap.2.1 f).1 (List.mem_map.2 ⟨_, hmem, rfl⟩)
      rw [hmap.2.2 f outs hmem] at hx
      have hout := (signOutput_iff args f x.path).1 ⟨x, hx, rfl⟩
      refine ⟨⟨(hp.writable f hf _ hout).1, hput f hf _ hout⟩, ?_⟩
      show d _ ≠ _
      rw [hd f hf _ hout]
      exact (hp.writable f hf _ hout).2)
  rcases this with h | h <;> rw [h] <;> simp

end Sign

/-- **C103** Under these conditions `sign` succeeds: if every thread gets turns again and again, then it returns normally after
finitely many steps. -/
theorem C103_sign_succeeds {libs : SignLibs} {o : SignOracle} {trust : TrustArgs} {ident : IdentityArgs} {args : SignArgs}
    {s : SignState} {config : LoadedConfig} {services : Config.ContextServices} {token : Oidc.IdentityToken} {now : Time}
    {v : Verifier} {ct log : ServiceKey} {cert : Cert}
    (hk : CorrectKeys libs.env.crypto libs.kp) (hsha : ∀ x, (libs.env.crypto.sha256 x).length = 32)
    (hset : SetUp libs o trust ident s.tuf s.disk config services token)
    (hans : Answering libs o args.files s.world.keys config.root (apiVersionOf services.rekor) token ct cert)
    (hhon : HonestServices libs.env now v ct log cert (o.first token) (fun a => ∃ f ∈ args.files, a = (o.perFile f).1))
    (hu : UsableSign libs.disk args s.disk) (hp : PlacesOk libs.disk args s.disk)
    (hput : ∀ f ∈ args.files, WritesSucceed libs.disk args f)
    (ha : SignOutputsApart libs.disk args) (hi : args.overwrite = false ∨ SignInputsApart libs.disk args)
    (σ : Nat → Nat) (hfair : FairFor args.files.length σ) :
    ∃ N s', ∀ M, N ≤ M →
      signMain libs { o with schedule := (List.range M).map σ } trust ident args s = (some (.ok ()), s') := by
  obtain ⟨N, r, s', h⟩ := C103_sign_ends libs o trust ident args s σ hfair
  refine ⟨N, s', fun M hM => ?_⟩
  have hM := h M hM
  rw [hM]
  cases r with
  | ok u => rfl
  | error e =>
    exfalso
    refine C103_sign_never_fails (libs := libs) (o := { o with schedule := (List.range M).map σ }) (trust := trust) (ident := ident)
      (args := args) (s := s) hk hsha ⟨hset.loads, hset.context, hset.identity⟩
      ⟨hans.tokenValid, hans.issued, hans.ctTrusted, hans.shown, hans.inTime, hans.replies, hans.times⟩ hhon hu hp hput ha hi e ?_
    rw [hM]

/-! ## `sigstore attest` -/

theorem attestOutputsLoop_total {e : DiskEnv} {args : AttestArgs} {d : Disk} :
    ∀ (files : List Path) (map : Dict Path SigningOutputs), (∀ f ∈ files, ∃ c, d (e.resolve f) = some (.file c)) →
    (args.overwrite = false → ∀ f ∈ files, ∀ p, AttestBundlePath args f p → d (e.resolve p) = none) →
    ∃ map', attestOutputsLoop e args d map files = .ok map'
  | [], map, _, _ => ⟨map, rfl⟩
  | f :: files, map, h1, h2 => by
    rw [attestOutputsLoop, (isFile_iff e d f).2 (h1 f (by simp))]
    simp only [Bool.not_true, Bool.false_eq_true, if_false]
    rw [if_neg]
    · exact attestOutputsLoop_total files _ (fun g hg => h1 g (by simp [hg])) fun ho g hg => h2 ho g (by simp [hg])
    · intro hx
      simp only [Bool.and_eq_true, Bool.not_eq_true'] at hx
      have := h2 hx.2 f (by simp) _ ((attestBundlePath_iff args f _).1 rfl)
      rw [DiskEnv.exists_, this] at hx
      cases hx.1

section Attest

variable {libs : SignLibs} {o : SignOracle} {trust : TrustArgs} {ident : IdentityArgs} {args : AttestArgs} {s : SignState}
  {config : LoadedConfig} {services : Config.ContextServices} {token : Oidc.IdentityToken} {now : Time} {v : Verifier}
  {ct log : ServiceKey} {cert : Cert}
  (hk : CorrectKeys libs.env.crypto libs.kp) (hsha : ∀ x, (libs.env.crypto.sha256 x).length = 32)
  (hset : SetUp libs o trust ident s.tuf s.disk config services token)
  (hans : Answering libs o args.files s.world.keys config.root (apiVersionOf services.rekor) token ct cert)
  (hhon : HonestServices libs.env now v ct log cert (o.first token) (fun a => ∃ f ∈ args.files, a = (o.perFile f).1))
  (hu : UsableAttest libs.disk libs.loads args s.disk) (hr : ∀ p, p = args.predicate ∨ p ∈ args.files → libs.disk.canRead p = true)
  (hw : ∀ f ∈ args.files, ∀ p, AttestBundlePath args f p →
    (libs.disk.canWrite p = true ∧ ∀ n, libs.disk.canPut p n = true) ∧ s.disk (libs.disk.resolve p) ≠ some .dir)
  (ha : ∀ f ∈ args.files, ∀ g ∈ args.files, f ≠ g → ∀ p q, AttestBundlePath args f p → AttestBundlePath args g q →
    libs.disk.resolve p ≠ libs.disk.resolve q)
  (hi : args.overwrite = false ∨
    ∀ f ∈ args.files, ∀ g ∈ args.files, ∀ p, AttestBundlePath args f p → libs.disk.resolve p ≠ libs.disk.resolve g)

include hk hsha hset hans hhon hu hr hw ha hi

/-- **C103** `attest` does not fail, however its threads are scheduled, if its arguments are usable, its files can be read and
written, its outputs lead to different places, and the services are honest and answer in time. -/
theorem C103_attest_never_fails (e : Exc) : (attestMain libs o trust ident args s).1 ≠ some (.error e) := by
  obtain ⟨content, text, pred, u1, u2, u3, u4⟩ := hu.predicate
  have hread : readPredicate libs.disk libs.loads args s.disk = .ok pred := by
    refine (readPredicate_ok_iff _ _ _ _ _).2 ⟨content, text, u1, hr _ (.inl rfl), u2, u3, ?_⟩
    rcases u4 with ⟨h, h'⟩ | ⟨h, h'⟩
    · exact .inl ⟨h, (C88_v0_2_iff_partial _).2 h'⟩
    · exact .inr ⟨h, (C88_v1_iff_partial _).2 h'⟩
  obtain ⟨map, hm⟩ := attestOutputsLoop_total args.files [] hu.inputs hu.outputs
  obtain ⟨hmap, _, _⟩ := attestOutputsLoop_ok _ _ _ _ [] _ _ hm (mapFor_nil _)
  rw [List.nil_append] at hmap
  have hi' : ∀ f ∈ args.files, ∀ g ∈ args.files, ∀ p, AttestBundlePath args f p →
      libs.disk.resolve p ≠ libs.disk.resolve g := by
    rcases hi with ho | hi
    · intro f hf g hg p hp he
      obtain ⟨c, hc⟩ := hu.inputs g hg
      have := hu.outputs ho f hf p hp
      rw [he, hc] at this
      cases this
    · exact hi
  unfold attestMain
  rw [hread]
  dsimp only
  rw [hm]
  dsimp only
  have := signCommon_unfailed (predicate := some (args.predicateType, pred)) hk hsha hset hans hhon (attestMap_apart hmap ha hi')
    (fun f hf => (hmap.2.1 f).1 hf) (by
      intro f hf
      have hf := (hmap.2.1 f).1 hf
      exact ⟨hr f (.inr hf), hu.inputs f hf⟩) (by
      intro f outs hmem x hx
      have hf : f ∈ args.files := (hmap.2.1 f).1 (List.mem_map.2 ⟨_, hmem, rfl⟩)
      rw [hmap.2.2 f outs hmem] at hx
      rcases (mem_outputs _ _).1 hx with ⟨q, hq, rfl⟩ | ⟨q, hq, rfl⟩ | ⟨q, hq, rfl⟩
      · cases hq
      · cases hq
      · exact hw f hf q ((attestBundlePath_iff args f q).1 (Option.some.inj hq)))
  rcases this with h | h <;> rw [h] <;> simp

end Attest

/-- **C103** Under these conditions `attest` succeeds: if every thread gets turns again and again, then it returns normally after
finitely many steps. -/
theorem C103_attest_succeeds {libs : SignLibs} {o : SignOracle} {trust : TrustArgs} {ident : IdentityArgs} {args : AttestArgs}
    {s : SignState} {config : LoadedConfig} {services : Config.ContextServices} {token : Oidc.IdentityToken} {now : Time}
    {v : Verifier} {ct log : ServiceKey} {cert : Cert}
    (hk : CorrectKeys libs.env.crypto libs.kp) (hsha : ∀ x, (libs.env.crypto.sha256 x).length = 32)
    (hset : SetUp libs o trust ident s.tuf s.disk config services token)
    (hans : Answering libs o args.files s.world.keys config.root (apiVersionOf services.rekor) token ct cert)
    (hhon : HonestServices libs.env now v ct log cert (o.first token) (fun a => ∃ f ∈ args.files, a = (o.perFile f).1))
    (hu : UsableAttest libs.disk libs.loads args s.disk) (hr : ∀ p, p = args.predicate ∨ p ∈ args.files → libs.disk.canRead p = true)
    (hw : ∀ f ∈ args.files, ∀ p, AttestBundlePath args f p →
    (libs.disk.canWrite p = true ∧ ∀ n, libs.disk.canPut p n = true) ∧ s.disk (libs.disk.resolve p) ≠ some .dir)
    (ha : ∀ f ∈ args.files, ∀ g ∈ args.files, f ≠ g → ∀ p q, AttestBundlePath args f p → AttestBundlePath args g q →
      libs.disk.resolve p ≠ libs.disk.resolve q)
    (hi : args.overwrite = false ∨
      ∀ f ∈ args.files, ∀ g ∈ args.files, ∀ p, AttestBundlePath args f p → libs.disk.resolve p ≠ libs.disk.resolve g)
    (σ : Nat → Nat) (hfair : FairFor args.files.length σ) :
    ∃ N s', ∀ M, N ≤ M →
      attestMain libs { o with schedule := (List.range M).map σ } trust ident args s = (some (.ok ()), s') := by
  obtain ⟨N, r, s', h⟩ := C103_attest_ends libs o trust ident args s σ hfair
  refine ⟨N, s', fun M hM => ?_⟩
  have hM := h M hM
  rw [hM]
  cases r with
  | ok u => rfl
  | error e =>
    exfalso
    refine C103_attest_never_fails (libs := libs) (o := { o with schedule := (List.range M).map σ }) (trust := trust) (ident := ident)
      (args := args) (s := s) hk hsha ⟨hset.loads, hset.context, hset.identity⟩
      ⟨hans.tokenValid, hans.issued, hans.ctTrusted, hans.shown, hans.inTime, hans.replies, hans.times⟩ hhon hu hr hw ha hi e ?_
    rw [hM]

end Sigstore.Props
