import Verif.Props.CliSignExamples
import Verif.Spec.Privacy

/-!
# C95: the content of an input does not leave the machine
-/

namespace Sigstore.Props

open Sigstore.Trust Sigstore.LogEntry Sigstore.Dsse Sigstore.Signing Sigstore.Cli Sigstore.Spec

section Relation

variable {c : Crypto} {places : List Path} {d₀ d₀' : Disk} (h₀ : SameDigests c places d₀ d₀')

include h₀ in
/-- what two related disks hold at a place -/
theorem related_at {d d' : Disk} (h : SameChanges d₀ d₀' d d') (p : Path) :
    d p = d' p ∨ (p ∈ places ∧ ∃ x x', d p = some (.file x) ∧ d' p = some (.file x') ∧ c.sha256 x = c.sha256 x') := by
  rcases h p with h | ⟨h1, h2⟩
  · exact .inl h
  · rw [h1, h2]
    exact h₀ p

/-- a place that was equal stays equal -/
theorem related_eq {d d' : Disk} (h : SameChanges d₀ d₀' d d') {p : Path} (hp : d₀ p = d₀' p) : d p = d' p := by
  rcases h p with h | ⟨h1, h2⟩
  · exact h
  · rw [h1, h2, hp]

theorem related_update {d d' : Disk} (h : SameChanges d₀ d₀' d d') (p : Path) (n : Option Node) :
    SameChanges d₀ d₀' (Function.update d p n) (Function.update d' p n) := by
  intro q
  rw [Function.update_apply, Function.update_apply]
  split
  · exact .inl rfl
  · exact h q

theorem related_refl : SameChanges d₀ d₀' d₀ d₀' := fun _ => .inr ⟨rfl, rfl⟩

include h₀

variable {d d' : Disk} (h : SameChanges d₀ d₀' d d') (e : DiskEnv)

include h

theorem related_isFile (p : Path) : e.isFile d p = e.isFile d' p := by
  unfold DiskEnv.isFile
  rcases related_at h₀ h (e.resolve p) with h | ⟨_, x, x', h1, h2, _⟩
  · rw [h]
  · rw [h1, h2]

theorem related_exists (p : Path) : e.exists_ d p = e.exists_ d' p := by
  unfold DiskEnv.exists_
  rcases related_at h₀ h (e.resolve p) with h | ⟨_, x, x', h1, h2, _⟩
  · rw [h]
  · rw [h1, h2]; rfl

theorem related_isDir (p : Path) : e.isDir d p = e.isDir d' p := by
  unfold DiskEnv.isDir
  rcases related_at h₀ h (e.resolve p) with h | ⟨_, x, x', h1, h2, _⟩
  · rw [h]
  · rw [h1, h2]; rfl

theorem related_extant (p : Option Path) : e.extant d p = e.extant d' p := by
  cases p with
  | none => rfl
  | some p => exact related_exists h₀ h e p

/-- reading a file: the same error, or contents of the same digest -/
theorem related_read (p : Path) :
    (∃ x, e.read d p = .error x ∧ e.read d' p = .error x) ∨
    ∃ x x', e.read d p = .ok x ∧ e.read d' p = .ok x' ∧ c.sha256 x = c.sha256 x' := by
  unfold DiskEnv.read
  rcases related_at h₀ h (e.resolve p) with h | ⟨_, x, x', h1, h2, hx⟩
  · rw [h]
    cases d' (e.resolve p) with
    | none => exact .inl ⟨_, rfl, rfl⟩
    | some n =>
      cases n with
      | dir => exact .inl ⟨_, rfl, rfl⟩
      | file x =>
        dsimp only
        split
        · exact .inr ⟨x, x, rfl, rfl, rfl⟩
        · exact .inl ⟨_, rfl, rfl⟩
  · rw [h1, h2]
    dsimp only
    split
    · exact .inr ⟨x, x', rfl, rfl, hx⟩
    · exact .inl ⟨_, rfl, rfl⟩

theorem related_mkdirOne (p : Path) : SameChanges d₀ d₀' (e.mkdirOne d p) (e.mkdirOne d' p) := by
  unfold DiskEnv.mkdirOne
  rcases related_at h₀ h (e.resolve p) with hp | ⟨_, x, x', h1, h2, _⟩
  · rw [hp]
    cases d' (e.resolve p) with
    | none => exact related_update h _ _
    | some n => exact h
  · rw [h1, h2]; exact h

omit h in
theorem related_mkdirs (ps : List Path) : ∀ {d d' : Disk}, SameChanges d₀ d₀' d d' →
    SameChanges d₀ d₀' (ps.foldl e.mkdirOne d) (ps.foldl e.mkdirOne d') := by
  induction ps with
  | nil => exact fun h => h
  | cons p ps ih => exact fun h => ih (related_mkdirOne h₀ h e p)

theorem related_mkdir (p : Path) :
    (∃ x, e.mkdir d p = .error x ∧ e.mkdir d' p = .error x) ∨
    ∃ d₁ d₁', e.mkdir d p = .ok d₁ ∧ e.mkdir d' p = .ok d₁' ∧ SameChanges d₀ d₀' d₁ d₁' := by
  unfold DiskEnv.mkdir
  rcases related_at h₀ h (e.resolve p) with hp | ⟨_, x, x', h1, h2, _⟩
  · rw [hp]
    cases d' (e.resolve p) with
    | none =>
      dsimp only
      split
      · exact .inr ⟨_, _, rfl, rfl, related_mkdirs h₀ e _ h⟩
      · exact .inl ⟨_, rfl, rfl⟩
    | some n =>
      cases n with
      | dir => exact .inr ⟨_, _, rfl, rfl, h⟩
      | file x => exact .inl ⟨_, rfl, rfl⟩
  · rw [h1, h2]; exact .inl ⟨_, rfl, rfl⟩

omit h h₀ in
theorem openW_not_dir {d : Disk} {e : DiskEnv} {p : Path} (h : d (e.resolve p) ≠ some .dir) :
    e.openW d p = if e.canWrite p then .ok (Function.update d (e.resolve p) (some (.file []))) else .error .osError := by
  unfold DiskEnv.openW
  split
  · rename_i hd; exact absurd hd h
  · rfl

theorem related_openW (p : Path) :
    (∃ x, e.openW d p = .error x ∧ e.openW d' p = .error x) ∨
    ∃ d₁ d₁', e.openW d p = .ok d₁ ∧ e.openW d' p = .ok d₁' ∧ SameChanges d₀ d₀' d₁ d₁' ∧
      d₁ (e.resolve p) = d₁' (e.resolve p) ∧ ∀ q, d q = d' q → d₁ q = d₁' q := by
  by_cases hd : d' (e.resolve p) = some .dir
  · have hp : d (e.resolve p) = some .dir := by
      rcases related_at h₀ h (e.resolve p) with hp | ⟨_, x, x', _, h2, _⟩
      · rw [hp, hd]
      · rw [h2] at hd; cases hd
    unfold DiskEnv.openW
    rw [hp, hd]
    exact .inl ⟨_, rfl, rfl⟩
  · have hp : d (e.resolve p) ≠ some .dir := by
      rcases related_at h₀ h (e.resolve p) with hp | ⟨_, x, x', h1, _, _⟩
      · rw [hp]; exact hd
      · rw [h1]; exact fun h => nomatch h
    rw [openW_not_dir hp, openW_not_dir hd]
    split
    · refine .inr ⟨_, _, rfl, rfl, related_update h _ _, ?_, ?_⟩
      · rw [Function.update_self, Function.update_self]
      · intro q hq
        rw [Function.update_apply, Function.update_apply, hq]
    · exact .inl ⟨_, rfl, rfl⟩

omit h₀ in
theorem related_writeByte {p : Path} (hp : d (e.resolve p) = d' (e.resolve p)) (n : Nat) (b : UInt8) :
    SameChanges d₀ d₀' (e.writeByte d p n b) (e.writeByte d' p n b) ∧
      ∀ q, d q = d' q → e.writeByte d p n b q = e.writeByte d' p n b q := by
  unfold DiskEnv.writeByte
  rw [hp]
  cases d' (e.resolve p) with
  | none => exact ⟨h, fun _ h => h⟩
  | some nd =>
    cases nd with
    | dir => exact ⟨h, fun _ h => h⟩
    | file x =>
      refine ⟨related_update h _ _, fun q hq => ?_⟩
      dsimp only
      rw [Function.update_apply, Function.update_apply, hq]

end Relation

/-! ## The threads -/

/-- two states of the threads that have seen the same -/
structure SameThreads (e : DiskEnv) (d₀ d₀' : Disk) (st st' : JobsState) : Prop where
  world : st.world = st'.world
  pcs : st.pcs = st'.pcs
  disk : SameChanges d₀ d₀' st.disk st'.disk
  open_ : ∀ i b p data n todo, st.pcs i = .writing b p data n todo → st.disk (e.resolve p) = st'.disk (e.resolve p)

section Threads

variable {je : JobEnv} {jobs : List Job} {d₀ d₀' : Disk} {places : List Path}
  (h₀ : SameDigests je.env.crypto places d₀ d₀')

/-- one thread goes on, in both runs -/
theorem sameThreads_goto {st st' : JobsState} (h : SameThreads je.disk d₀ d₀' st st') (i : Nat) {pc : JobPc}
    (w : Signing.World) {d d' : Disk} (hd : SameChanges d₀ d₀' d d') (hq : ∀ q, st.disk q = st'.disk q → d q = d' q)
    (hpc : ∀ b p data n todo, pc = .writing b p data n todo → d (je.disk.resolve p) = d' (je.disk.resolve p)) :
    SameThreads je.disk d₀ d₀' ((⟨d, w, st.pcs⟩ : JobsState).goto i pc) ((⟨d', w, st'.pcs⟩ : JobsState).goto i pc) := by
  refine ⟨rfl, ?_, hd, ?_⟩
  · unfold JobsState.goto
    rw [h.pcs]
  · intro j b p data n todo hj
    unfold JobsState.goto at hj
    dsimp only at hj
    rw [Function.update_apply] at hj
    split at hj
    · exact hpc _ _ _ _ _ hj
    · exact hq _ (h.open_ _ _ _ _ _ _ hj)

include h₀ in
theorem sameThreads_step {st st' : JobsState} (h : SameThreads je.disk d₀ d₀' st st') (i : Nat) :
    SameThreads je.disk d₀ d₀' (jobStep je jobs st i) (jobStep je jobs st' i) := by
  obtain ⟨d, w, pcs⟩ := st
  obtain ⟨d', w', pcs'⟩ := st'
  obtain ⟨rfl, rfl⟩ : w = w' ∧ pcs = pcs' := ⟨h.world, h.pcs⟩
  have hd := h.disk
  dsimp only at hd
  unfold jobStep
  cases hi : jobs[i]? with
  | none => exact h
  | some job =>
    dsimp only
    cases hpc : pcs i with
    | start =>
      dsimp only
      rcases related_read h₀ hd je.disk job.file with ⟨x, h1, h2⟩ | ⟨x, x', h1, h2, hx⟩
      · rw [h1, h2]
        exact sameThreads_goto h i w hd (fun _ h => h) (fun _ _ _ _ _ h => nomatch h)
      · rw [h1, h2]
        dsimp only
        have : sha256Digest je.env.crypto (.bytes x) = sha256Digest je.env.crypto (.bytes x') := by
          rw [sha256Digest, sha256Digest, hx]
        rw [this]
        exact sameThreads_goto h i w hd (fun _ h => h) (fun _ _ _ _ _ h => nomatch h)
    | hashed hd' =>
      dsimp only
      cases callFor je job.file hd' with
      | error e => exact sameThreads_goto h i w hd (fun _ h => h) (fun _ _ _ _ _ h => nomatch h)
      | ok call =>
        dsimp only
        cases je.signer.sign je.env je.ctx je.kp job.answers w call with
        | mk r w₁ =>
          cases r with
          | error e => exact sameThreads_goto h i w₁ hd (fun _ h => h) (fun _ _ _ _ _ h => nomatch h)
          | ok b => exact sameThreads_goto h i w₁ hd (fun _ h => h) (fun _ _ _ _ _ h => nomatch h)
    | emit b todo =>
      cases todo with
      | nil => exact sameThreads_goto h i w hd (fun _ h => h) (fun _ _ _ _ _ h => nomatch h)
      | cons out todo =>
        dsimp only
        cases outputData je job.certAnswers b w out with
        | mk r w₁ =>
          cases r with
          | error e => exact sameThreads_goto h i w₁ hd (fun _ h => h) (fun _ _ _ _ _ h => nomatch h)
          | ok data =>
            dsimp only
            rcases related_openW h₀ hd je.disk out.path with ⟨x, h1, h2⟩ | ⟨d₁, d₁', h1, h2, h3, h4, h5⟩
            · rw [h1, h2]
              exact sameThreads_goto h i w₁ hd (fun _ h => h) (fun _ _ _ _ _ h => nomatch h)
            · rw [h1, h2]
              refine sameThreads_goto h i w₁ h3 h5 ?_
              intro b p data n todo hp
              cases hp
              exact h4
    | writing b p data n todo =>
      dsimp only
      split
      case isFalse => exact sameThreads_goto h i w hd (fun _ h => h) (fun _ _ _ _ _ h => nomatch h)
      cases data[n]? with
      | none => exact sameThreads_goto h i w hd (fun _ h => h) (fun _ _ _ _ _ h => nomatch h)
      | some byte =>
        have hp := h.open_ i _ _ _ _ _ hpc
        obtain ⟨h1, h2⟩ := related_writeByte hd je.disk hp n byte
        refine sameThreads_goto h i w h1 h2 ?_
        intro b p data n todo hp'
        cases hp'
        exact h2 _ hp
    | done => exact h
    | failed e => exact h

include h₀ in
theorem sameThreads_run : ∀ (schedule : List Nat) {st st' : JobsState}, SameThreads je.disk d₀ d₀' st st' →
    SameThreads je.disk d₀ d₀' (runJobs je jobs st schedule) (runJobs je jobs st' schedule)
  | [], _, _, h => h
  | i :: schedule, _, _, h => sameThreads_run schedule (sameThreads_step h₀ h i)

end Threads

/-! ## The commands -/

section Commands

variable (libs : SignLibs) (o : SignOracle) {d₀ d₀' : Disk} {places : List Path}
  (h₀ : SameDigests libs.env.crypto places d₀ d₀')

omit libs o in
theorem same_getTrustConfig (tenv : Tuf.Env) (parsers : TrustParsers) {fs fs' : Fs} {trust : TrustArgs} (h : ∀ t, trust.trustConfig = some t → fs.read t = fs'.read t)
    (tuf : Tuf.World) :
    getTrustConfig fs tenv parsers trust tuf = getTrustConfig fs' tenv parsers trust tuf := by
  unfold getTrustConfig
  cases hs : trustSource trust with
  | tuf url => rfl
  | file p =>
    have hp : trust.trustConfig = some p := by
      unfold trustSource at hs
      split at hs
      · rename_i q hq
        cases hs
        exact hq
      · split at hs <;> (try split at hs) <;> cases hs
    dsimp only
    rw [h p hp]

include h₀

theorem same_signCommon (trust : TrustArgs) (ident : IdentityArgs) (map : Dict Path SigningOutputs)
    (predicate : Option (Str × Dict Str Json)) (s : SignState) {d' : Disk} (hd : SameChanges d₀ d₀' s.disk d')
    (ht : ∀ t, trust.trustConfig = some t → d₀ (libs.disk.resolve t) = d₀' (libs.disk.resolve t)) :
    SameRun d₀ d₀' (signCommon libs o trust ident map predicate s)
      (signCommon libs o trust ident map predicate { s with disk := d' }) := by
  have hprep : signPrepare libs o trust ident { s with disk := d' } =
      ((signPrepare libs o trust ident s).1, { (signPrepare libs o trust ident s).2 with disk := d' }) ∧
      (signPrepare libs o trust ident s).2.disk = s.disk := by
    have hcfg := same_getTrustConfig libs.tuf libs.parsers (fs := libs.disk.fs s.disk) (fs' := libs.disk.fs d') (trust := trust) (by
      intro t htc
      show libs.disk.read s.disk t = libs.disk.read d' t
      unfold DiskEnv.read
      rw [related_eq hd (ht t htc)]) s.tuf
    unfold signPrepare
    dsimp only
    rw [← hcfg]
    cases getTrustConfig (libs.disk.fs s.disk) libs.tuf libs.parsers trust s.tuf with
    | mk r t =>
      cases r with
      | error e => exact ⟨rfl, rfl⟩
      | ok cfg =>
        dsimp only
        cases Config.contextFromTrustConfig o.now ⟨cfg.rootMediaType, cfg.signingConfig, cfg.forceTlogVersion⟩ with
        | error e => exact ⟨rfl, rfl⟩
        | ok services =>
          dsimp only
          cases signIdentity libs.identity o.now ident cfg with
          | error e => exact ⟨rfl, rfl⟩
          | ok token =>
            dsimp only
            cases Signer.init libs.env ⟨cfg.root, apiVersionOf services.rekor⟩ libs.kp (o.first token) true s.world with
            | mk r w =>
              cases r with
              | error e => exact ⟨rfl, rfl⟩
              | ok signer =>
                dsimp only
                cases signer.signingCert libs.env ⟨cfg.root, apiVersionOf services.rekor⟩ libs.kp o.shown w with
                | mk r w =>
                  cases r with
                  | error e => exact ⟨rfl, rfl⟩
                  | ok cert => exact ⟨rfl, rfl⟩
  obtain ⟨hp, hk⟩ := hprep
  unfold signCommon
  rw [hp]
  cases hs : signPrepare libs o trust ident s with
  | mk r s₁ =>
    rw [hs] at hk
    dsimp only at hk
    cases r with
    | error e => exact ⟨rfl, rfl, rfl, by dsimp only; rw [hk]; exact hd⟩
    | ok p =>
      obtain ⟨ctx, signer⟩ := p
      dsimp only
      have hrun := sameThreads_run (je := jobEnv libs ctx signer predicate) (jobs := jobsOf o map) h₀ o.schedule
        (st := jobsStart s₁) (st' := jobsStart { s₁ with disk := d' })
        ⟨rfl, rfl, by dsimp only [jobsStart]; rw [hk]; exact hd, by intro i b p data n todo h; cases h⟩
      refine ⟨?_, rfl, hrun.world, hrun.disk⟩
      unfold jobsResult
      rw [hrun.pcs]

theorem same_signOutputsOne (args : SignArgs) (file : Path) {d d' : Disk} (h : SameChanges d₀ d₀' d d') :
    (signOutputsOne libs.disk args file d).1 = (signOutputsOne libs.disk args file d').1 ∧
    SameChanges d₀ d₀' (signOutputsOne libs.disk args file d).2 (signOutputsOne libs.disk args file d').2 := by
  unfold signOutputsOne
  rw [related_isFile h₀ h]
  split
  · exact ⟨rfl, h⟩
  · dsimp only
    rw [related_exists h₀ h, related_isDir h₀ h]
    split
    · exact ⟨rfl, h⟩
    · rcases related_mkdir h₀ h libs.disk (args.outputDirectory.getD file.parent) with ⟨x, h1, h2⟩ | ⟨d₁, d₁', h1, h2, h3⟩
      · rw [h1, h2]; exact ⟨rfl, h⟩
      · rw [h1, h2]
        dsimp only
        rw [related_extant h₀ h3, related_extant h₀ h3, related_extant h₀ h3]
        split
        · exact ⟨rfl, h3⟩
        · exact ⟨rfl, h3⟩

theorem same_signOutputsLoop (args : SignArgs) : ∀ (files : List Path) (map : Dict Path SigningOutputs) {d d' : Disk},
    SameChanges d₀ d₀' d d' →
    (signOutputsLoop libs.disk args map files d).1 = (signOutputsLoop libs.disk args map files d').1 ∧
    SameChanges d₀ d₀' (signOutputsLoop libs.disk args map files d).2 (signOutputsLoop libs.disk args map files d').2
  | [], _, _, _, h => ⟨rfl, h⟩
  | file :: rest, map, d, d', h => by
    obtain ⟨h1, h2⟩ := same_signOutputsOne libs h₀ args file h
    rw [signOutputsLoop, signOutputsLoop]
    cases hx : signOutputsOne libs.disk args file d with
    | mk r d₁ =>
      cases hx' : signOutputsOne libs.disk args file d' with
      | mk r' d₁' =>
        rw [hx, hx'] at h1 h2
        dsimp only at h1 h2
        subst h1
        cases r with
        | error e => exact ⟨rfl, h2⟩
        | ok out => exact same_signOutputsLoop args rest _ h2

omit h₀ in
/-- **C95** Two runs of `sign`, whose inputs have other contents with the same SHA-256 digests, and which are otherwise equal, are
the same for everybody: whatever the services answer to whatever they are sent, both give the same result, make the same requests
for certificates, and write the same to the same files.  So nothing but the digest of an input is sent or written. -/
theorem C95_sign (trust : TrustArgs) (ident : IdentityArgs) (args : SignArgs) (s s' : SignState)
    (htuf : s.tuf = s'.tuf) (hworld : s.world = s'.world)
    (h : SameDigests libs.env.crypto (args.files.map libs.disk.resolve) s.disk s'.disk)
    (ht : ∀ t, trust.trustConfig = some t → libs.disk.resolve t ∉ args.files.map libs.disk.resolve) :
    SameRun s.disk s'.disk (signMain libs o trust ident args s) (signMain libs o trust ident args s') := by
  have ht' : ∀ t, trust.trustConfig = some t → s.disk (libs.disk.resolve t) = s'.disk (libs.disk.resolve t) := by
    intro t htc
    rcases h (libs.disk.resolve t) with h | ⟨hm, _⟩
    · exact h
    · exact absurd hm (ht t htc)
  obtain ⟨t₀, w₀, d₀⟩ := s
  obtain ⟨_, _, d₀'⟩ := s'
  dsimp only at htuf hworld
  subst htuf hworld
  unfold signMain
  obtain ⟨h1, h2⟩ : (signOutputs libs.disk args d₀).1 = (signOutputs libs.disk args d₀').1 ∧
      SameChanges d₀ d₀' (signOutputs libs.disk args d₀).2 (signOutputs libs.disk args d₀').2 := by
    unfold signOutputs
    split
    · exact ⟨rfl, related_refl⟩
    · exact same_signOutputsLoop libs h args _ _ related_refl
  dsimp only
  cases hx : signOutputs libs.disk args d₀ with
  | mk r d =>
    cases hx' : signOutputs libs.disk args d₀' with
    | mk r' d' =>
      rw [hx, hx'] at h1 h2
      dsimp only at h1 h2
      subst h1
      cases r with
      | error e => exact ⟨rfl, rfl, rfl, h2⟩
      | ok map => exact same_signCommon libs o h trust ident map none ⟨t₀, w₀, d⟩ h2 ht'

omit h₀ in
/-- **C95** The same for `attest`; the predicate, whose content is meant to be published, is the same in both. -/
theorem C95_attest (trust : TrustArgs) (ident : IdentityArgs) (args : AttestArgs) (s s' : SignState)
    (htuf : s.tuf = s'.tuf) (hworld : s.world = s'.world)
    (h : SameDigests libs.env.crypto (args.files.map libs.disk.resolve) s.disk s'.disk)
    (ht : ∀ t, trust.trustConfig = some t → libs.disk.resolve t ∉ args.files.map libs.disk.resolve)
    (hp : libs.disk.resolve args.predicate ∉ args.files.map libs.disk.resolve) :
    SameRun s.disk s'.disk (attestMain libs o trust ident args s) (attestMain libs o trust ident args s') := by
  have hout : ∀ l : Path, l ∉ args.files.map libs.disk.resolve → s.disk l = s'.disk l := by
    intro l hl
    rcases h l with h | ⟨hm, _⟩
    · exact h
    · exact absurd hm hl
  obtain ⟨t₀, w₀, d₀⟩ := s
  obtain ⟨_, _, d₀'⟩ := s'
  dsimp only at htuf hworld
  subst htuf hworld
  dsimp only at hout h
  have h1 : readPredicate libs.disk libs.loads args d₀ = readPredicate libs.disk libs.loads args d₀' := by
    unfold readPredicate readText DiskEnv.fs DiskEnv.isFile DiskEnv.read
    dsimp only
    rw [hout _ hp]
  have h2 : ∀ (files : List Path) (map : Dict Path SigningOutputs),
      attestOutputsLoop libs.disk args d₀ map files = attestOutputsLoop libs.disk args d₀' map files := by
    intro files
    induction files with
    | nil => intro map; rfl
    | cons f fs ih =>
      intro map
      rw [attestOutputsLoop, attestOutputsLoop]
      rw [related_isFile h related_refl]
      dsimp only
      rw [related_exists h related_refl, ih]
  unfold attestMain
  dsimp only
  rw [h1, h2]
  cases readPredicate libs.disk libs.loads args d₀' with
  | error e => exact ⟨rfl, rfl, rfl, related_refl⟩
  | ok json =>
    dsimp only
    cases attestOutputsLoop libs.disk args d₀' [] args.files with
    | error e => exact ⟨rfl, rfl, rfl, related_refl⟩
    | ok map =>
      exact same_signCommon libs o h trust ident map _ ⟨t₀, w₀, d₀⟩ related_refl (fun t htc => hout _ (ht t htc))

end Commands

/-! ## `verify` -/

section Verify

theorem parseInputs_isFile {f : Path → Bool} (r r' : Path → Py Bytes) : ∀ as : List Str,
    parseInputs ⟨f, r⟩ as = parseInputs ⟨f, r'⟩ as
  | [] => rfl
  | a :: as => by
    rw [parseInputs, parseInputs, parseInputs_isFile r r' as]
    rfl

theorem fileLoop_isFile {f : Path → Bool} (r r' : Path → Py Bytes) (args : VerifyArgs) :
    ∀ (is : List VerifyInput) (map : Dict VerifyInput Materials), fileLoop ⟨f, r⟩ args map is = fileLoop ⟨f, r'⟩ args map is
  | [], _ => rfl
  | .digest _ :: is, map => by
    rw [fileLoop, fileLoop, fileLoop_isFile r r' args is]
  | .file p :: is, map => by
    rw [fileLoop, fileLoop]
    have : fileMaterials ⟨f, r⟩ args p = fileMaterials ⟨f, r'⟩ args p := rfl
    rw [this]
    cases fileMaterials ⟨f, r'⟩ args p with
    | error e => rfl
    | ok m => exact fileLoop_isFile r r' args is _

theorem inputMap_isFile {f : Path → Bool} (r r' : Path → Py Bytes) (args : VerifyArgs) :
    inputMap ⟨f, r⟩ args = inputMap ⟨f, r'⟩ args := by
  unfold inputMap
  rw [fileLoop_isFile r r']
  rfl

theorem loadMaterials_same (venv : VerifyEnv) {fs fs' : Fs} (h : Hashed) (w : VerifyWorld) : ∀ m : Materials,
    (∀ p, (m = .bundled p ∨ ∃ q, m = .unbundled p q ∨ m = .unbundled q p) → fs.read p = fs'.read p) →
    loadMaterials venv fs h w m = loadMaterials venv fs' h w m
  | .bundled p, hm => by
    rw [loadMaterials, loadMaterials, hm p (.inl rfl)]
  | .unbundled c s, hm => by
    rw [loadMaterials, loadMaterials, readText, readText, hm c (.inr ⟨s, .inl rfl⟩), hm s (.inr ⟨c, .inr rfl⟩)]

theorem loadAll_same (venv : VerifyEnv) {fs fs' : Fs} : ∀ (map : Dict VerifyInput Materials) (w : VerifyWorld),
    (∀ i m, (i, m) ∈ map → ∀ p, (m = .bundled p ∨ ∃ q, m = .unbundled p q ∨ m = .unbundled q p) → fs.read p = fs'.read p) →
    (∀ i m, (i, m) ∈ map → inputDigest venv.env.crypto fs i = inputDigest venv.env.crypto fs' i) →
    loadAll venv fs w map = loadAll venv fs' w map
  | [], _, _, _ => rfl
  | (i, m) :: rest, w, hm, hi => by
    rw [loadAll, loadAll, hi i m List.mem_cons_self]
    cases inputDigest venv.env.crypto fs' i with
    | error e => rfl
    | ok h =>
      dsimp only
      rw [loadMaterials_same venv h w m (hm i m List.mem_cons_self)]
      cases loadMaterials venv fs' h w m with
      | mk r w' =>
        cases r with
        | error e => rfl
        | ok b =>
          dsimp only
          rw [loadAll_same venv rest w' (fun i m h => hm i m (List.mem_cons_of_mem _ h))
            (fun i m h => hi i m (List.mem_cons_of_mem _ h))]

/-- **C95** Two runs of `verify` whose inputs have other contents with the same SHA-256 digests give the same result, download
the same and send the same queries to the log: nothing but the digest of an input is sent or decides. -/
theorem C95_verify (venv : VerifyEnv) (e : DiskEnv) (d d' : Disk) (now : Time) (cmd : VerifyCommand) (verbose : Bool)
    (positional : List Str) (certificate signature bundle : Option Path) (trust : TrustArgs) (w : VerifyWorld)
    (h : SameDigests venv.env.crypto (positional.map fun arg => e.resolve (Path.ofStr arg)) d d')
    (ht : ∀ t, trust.trustConfig = some t → ∀ arg ∈ positional, e.resolve t ≠ e.resolve (Path.ofStr arg))
    (hm : ∀ p, MaterialPath positional certificate signature bundle p → ∀ arg ∈ positional, e.resolve p ≠ e.resolve (Path.ofStr arg)) :
    verifyMain venv (e.fs d) now cmd verbose positional certificate signature bundle trust w =
      verifyMain venv (e.fs d') now cmd verbose positional certificate signature bundle trust w := by
  have hout : ∀ p, (∀ arg ∈ positional, e.resolve p ≠ e.resolve (Path.ofStr arg)) → e.read d p = e.read d' p := by
    intro p hp
    unfold DiskEnv.read
    rcases h (e.resolve p) with h | ⟨hx, _⟩
    · rw [h]
    · obtain ⟨arg, ha, he⟩ := List.mem_map.1 hx
      exact absurd he.symm (hp arg ha)
  have hf : e.isFile d = e.isFile d' := funext fun p => related_isFile h related_refl e p
  unfold DiskEnv.fs
  rw [hf]
  unfold verifyMain
  cases positional with
  | nil => rfl
  | cons a as =>
    dsimp only
    rw [parseInputs_isFile (e.read d) (e.read d')]
    cases hp : parseInputs ⟨e.isFile d', e.read d'⟩ (a :: as) with
    | error x => rfl
    | ok inputs =>
      have hin : ∀ p, .file p ∈ inputs → ∃ arg ∈ a :: as, p = Path.ofStr arg := by
        have hall := (parseInputs_iff _ _ _).1 hp
        intro p hpi
        clear hp hm ht hout h
        generalize a :: as = l at hall
        induction hall with
        | nil => cases hpi
        | cons hd _ ih =>
          rcases List.mem_cons.1 hpi with rfl | hpi
          · cases hd with
            | file _ => exact ⟨_, List.mem_cons_self, rfl⟩
          · obtain ⟨arg, ha, rfl⟩ := ih hpi
            exact ⟨arg, List.mem_cons_of_mem _ ha, rfl⟩
      dsimp only
      unfold verifyCommand
      cases cmd.policy with
      | error x => rfl
      | ok policy =>
        dsimp only
        have hc : collectState venv ⟨e.isFile d', e.read d⟩ now ⟨inputs, certificate, signature, bundle, trust⟩ w =
            collectState venv ⟨e.isFile d', e.read d'⟩ now ⟨inputs, certificate, signature, bundle, trust⟩ w := by
          unfold collectState
          rw [inputMap_isFile (e.read d) (e.read d')]
          cases hmap : inputMap ⟨e.isFile d', e.read d'⟩ ⟨inputs, certificate, signature, bundle, trust⟩ with
          | error x => rfl
          | ok map =>
            dsimp only
            have htc : getTrustConfig ⟨e.isFile d', e.read d⟩ venv.tuf venv.parsers trust w.tuf =
                getTrustConfig ⟨e.isFile d', e.read d'⟩ venv.tuf venv.parsers trust w.tuf :=
              same_getTrustConfig venv.tuf venv.parsers (fun t h => hout t (ht t h)) w.tuf
            rw [htc]
            obtain ⟨_, _, _, hmat⟩ := inputMap_ok _ _ _ hmap
            have hload : ∀ w, loadAll venv ⟨e.isFile d', e.read d⟩ w map = loadAll venv ⟨e.isFile d', e.read d'⟩ w map := by
              intro w
              refine loadAll_same venv map w ?_ ?_
              · intro i m him p hmp
                refine hout p (hm p ?_)
                obtain ⟨hi, hmf⟩ := hmat i m him
                have hbeside : ∀ q suffix, VerifyInput.file q ∈ inputs →
                    suffix ∈ [".sigstore.json".toList, ".sigstore".toList, ".crt".toList, ".sig".toList] →
                    MaterialPath (a :: as) certificate signature bundle (Beside q suffix) := by
                  intro q suffix hq hs
                  obtain ⟨arg, ha, rfl⟩ := hin q hq
                  exact .beside ha hs
                have hcert : ∀ q, VerifyInput.file q ∈ inputs →
                    MaterialPath (a :: as) certificate signature bundle (certificate.getD (Beside q ".crt".toList)) := by
                  intro q hq
                  cases hcx : certificate with
                  | none =>
                    have := hbeside q _ hq (.tail _ (.tail _ (.head _)))
                    rw [hcx] at this
                    exact this
                  | some x => exact .certificate rfl
                have hsig : ∀ q, VerifyInput.file q ∈ inputs →
                    MaterialPath (a :: as) certificate signature bundle (signature.getD (Beside q ".sig".toList)) := by
                  intro q hq
                  cases hcx : signature with
                  | none =>
                    have := hbeside q _ hq (.tail _ (.tail _ (.tail _ (.head _))))
                    rw [hcx] at this
                    exact this
                  | some x => exact .signature rfl
                cases hmf with
                | explicitBundle hb _ =>
                  rcases hmp with hmp | ⟨_, hmp | hmp⟩ <;> cases hmp
                  exact .bundle hb
                | foundBundle _ _ _ _ _ =>
                  rcases hmp with hmp | ⟨_, hmp | hmp⟩ <;> cases hmp
                  exact hbeside _ _ hi (.head _)
                | foundLegacy _ _ _ _ _ =>
                  rcases hmp with hmp | ⟨_, hmp | hmp⟩ <;> cases hmp
                  exact hbeside _ _ hi (.tail _ (.head _))
                | detachedFile _ _ _ _ _ =>
                  rcases hmp with hmp | ⟨_, hmp | hmp⟩
                  · cases hmp
                  · rw [← (Materials.unbundled.inj hmp).1]; exact hcert _ hi
                  · rw [← (Materials.unbundled.inj hmp).2]; exact hsig _ hi
                | detachedDigest _ h2 h3 _ _ =>
                  rcases hmp with hmp | ⟨_, hmp | hmp⟩
                  · cases hmp
                  · rw [← (Materials.unbundled.inj hmp).1]; exact .certificate h2
                  · rw [← (Materials.unbundled.inj hmp).2]; exact .signature h3
              · intro i m him
                cases i with
                | digest hd => rfl
                | file p =>
                  rw [inputDigest, inputDigest]
                  dsimp only
                  rcases related_read h related_refl e p with ⟨x, h1, h2⟩ | ⟨x, x', h1, h2, hx⟩
                  · rw [h1, h2]
                  · rw [h1, h2]
                    dsimp only
                    rw [sha256Digest, sha256Digest, hx]
            cases getTrustConfig ⟨e.isFile d', e.read d'⟩ venv.tuf venv.parsers trust w.tuf with
            | mk r t =>
              cases r with
              | error x => rfl
              | ok config =>
                dsimp only
                cases config.trustedRoot with
                | error x => rfl
                | ok root =>
                  dsimp only
                  cases Verifier.init now root with
                  | error x => rfl
                  | ok v =>
                    dsimp only
                    rw [hload]
        rw [hc]

end Verify

/-! ## Concrete runs -/

/-- the files of the signing examples; `a` has a given content -/
def exSecret (content : Bytes) : SignState :=
  { exSignState [(exPath "a", 1), (exPath "b", 2)] with
    disk := Function.update (exDisk [(exPath "a", 1), (exPath "b", 2)]) (exPath "a") (some (.file content)) }

theorem exSecret_same : SameDigests exSignCrypto (exSignArgs.files.map exSignLibs.disk.resolve) (exSecret [1]).disk
    (exSecret [2, 255]).disk := by
  intro p
  unfold exSecret
  dsimp only
  rw [Function.update_apply, Function.update_apply]
  split
  · rename_i h
    subst h
    exact .inr ⟨by decide, [1], [2, 255], rfl, rfl, by decide⟩
  · exact .inl rfl

/-- signing `a`, whose content is one of two with the same digest: nobody can tell which -/
example : SameRun (exSecret [1]).disk (exSecret [2, 255]).disk
    (signMain exSignLibs (exOracle exTurns) exTrust exIdent exSignArgs (exSecret [1]))
    (signMain exSignLibs (exOracle exTurns) exTrust exIdent exSignArgs (exSecret [2, 255])) ∧
    (signMain exSignLibs (exOracle exTurns) exTrust exIdent exSignArgs (exSecret [1])).1 = some (.ok ()) :=
  ⟨C95_sign exSignLibs (exOracle exTurns) exTrust exIdent exSignArgs (exSecret [1]) (exSecret [2, 255]) rfl rfl exSecret_same
    (by intro t h; cases h; decide), by decide⟩

/-- verifying two files with the same digest -/
example (venv : VerifyEnv) (w : VerifyWorld) (hc : venv.env.crypto = exSignCrypto) (now : Time) (cmd : VerifyCommand) :
    verifyMain venv (exSignLibs.disk.fs (exSecret [1]).disk) now cmd false ["a".toList] none none none exTrust w =
    verifyMain venv (exSignLibs.disk.fs (exSecret [2, 255]).disk) now cmd false ["a".toList] none none none exTrust w := by
  refine C95_verify venv exSignLibs.disk _ _ now cmd false _ none none none exTrust w ?_ ?_ ?_
  · intro p
    rw [hc]
    rcases exSecret_same p with h | ⟨h, x, x', h1, h2, h3⟩
    · exact .inl h
    · by_cases hp : p = exPath "a"
      · exact .inr ⟨by rw [hp]; decide, x, x', h1, h2, h3⟩
      · refine .inl ?_
        unfold exSecret
        dsimp only
        rw [Function.update_of_ne hp, Function.update_of_ne hp]
  · intro t h; cases h; decide
  · intro p hp arg harg
    obtain rfl := List.mem_singleton.1 harg
    cases hp with
    | certificate h => cases h
    | signature h => cases h
    | bundle h => cases h
    | beside ha hs =>
      obtain rfl := List.mem_singleton.1 ha
      simp only [List.mem_cons, List.not_mem_nil, or_false] at hs
      rcases hs with rfl | rfl | rfl | rfl <;> decide

end Sigstore.Props
