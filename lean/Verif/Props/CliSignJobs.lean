import Verif.Props.CliSign

/-!
# C42, C43, C46: the signing threads
-/

namespace Sigstore.Props

open Sigstore.Trust Sigstore.Dsse Sigstore.Signing Sigstore.Cli Sigstore.Spec

/-! ## What a thread may write -/

/-- the outputs a thread still holds are outputs of its job -/
def PcWithin (job : Job) : JobPc → Prop
  | .emit _ todo => ∀ o ∈ todo, o ∈ job.outputs.list
  | .writing _ p _ _ todo => (∃ o ∈ job.outputs.list, o.path = p) ∧ ∀ o ∈ todo, o ∈ job.outputs.list
  | _ => True

theorem goto_self (st : JobsState) (i : Nat) (pc : JobPc) : (st.goto i pc).pcs i = pc := Function.update_self ..

theorem goto_other (st : JobsState) {i k : Nat} (pc : JobPc) (h : k ≠ i) : (st.goto i pc).pcs k = st.pcs k :=
  Function.update_of_ne h ..

theorem openW_ok {e : DiskEnv} {d d' : Disk} {p : Path} (h : e.openW d p = .ok d') :
    d' = Function.update d (e.resolve p) (some (.file [])) := by
  unfold DiskEnv.openW at h
  split at h
  · cases h
  · split at h
    · cases h; rfl
    · cases h

theorem writeByte_other (e : DiskEnv) (d : Disk) (p : Path) (n : Nat) (b : UInt8) {l : Path} (h : l ≠ e.resolve p) :
    e.writeByte d p n b l = d l := by
  unfold DiskEnv.writeByte
  cases hd : d (e.resolve p) with
  | none => rfl
  | some x =>
    cases x with
    | dir => rfl
    | file c => exact Function.update_of_ne h ..

/-- a step of thread `i` leaves the other threads alone, changes files only at its own outputs, and stays within them -/
theorem jobStep_frame (je : JobEnv) (jobs : List Job) (st : JobsState) (i : Nat) (job : Job) (hj : jobs[i]? = some job)
    (hw : PcWithin job (st.pcs i)) :
    (∀ k, k ≠ i → (jobStep je jobs st i).pcs k = st.pcs k) ∧
    (∀ l, (∀ o ∈ job.outputs.list, je.disk.resolve o.path ≠ l) → (jobStep je jobs st i).disk l = st.disk l) ∧
    PcWithin job ((jobStep je jobs st i).pcs i) := by
  unfold jobStep
  rw [hj]
  dsimp only
  cases hpc : st.pcs i with
  | start =>
    dsimp only
    split
    · exact ⟨fun k hk => goto_other _ _ hk, fun _ _ => rfl, by rw [goto_self]; trivial⟩
    · exact ⟨fun k hk => goto_other _ _ hk, fun _ _ => rfl, by rw [goto_self]; trivial⟩
  | hashed h =>
    dsimp only
    split
    · exact ⟨fun k hk => goto_other _ _ hk, fun _ _ => rfl, by rw [goto_self]; trivial⟩
    · split
      · exact ⟨fun k hk => goto_other _ _ hk, fun _ _ => rfl, by rw [goto_self]; trivial⟩
      · exact ⟨fun k hk => goto_other _ _ hk, fun _ _ => rfl, by rw [goto_self]; exact fun o ho => ho⟩
  | emit b todo =>
    rw [hpc] at hw
    cases todo with
    | nil => exact ⟨fun k hk => goto_other _ _ hk, fun _ _ => rfl, by rw [goto_self]; trivial⟩
    | cons o todo =>
      dsimp only
      split
      · exact ⟨fun k hk => goto_other _ _ hk, fun _ _ => rfl, by rw [goto_self]; trivial⟩
      · split
        · exact ⟨fun k hk => goto_other _ _ hk, fun _ _ => rfl, by rw [goto_self]; trivial⟩
        · rename_i d' hd
          refine ⟨fun k hk => goto_other _ _ hk, ?_, ?_⟩
          · intro l hl
            show d' l = _
            rw [openW_ok hd]
            exact Function.update_of_ne (Ne.symm (hl o (hw o (by simp)))) ..
          · rw [goto_self]
            exact ⟨⟨o, hw o (by simp), rfl⟩, fun x hx => hw x (by simp [hx])⟩
  | writing b p data n todo =>
    rw [hpc] at hw
    obtain ⟨⟨o, ho, rfl⟩, ht⟩ := hw
    dsimp only
    split
    · split
      · exact ⟨fun k hk => goto_other _ _ hk, fun _ _ => rfl, by rw [goto_self]; exact ht⟩
      · refine ⟨fun k hk => goto_other _ _ hk, ?_, ?_⟩
        · intro l hl
          exact writeByte_other _ _ _ _ _ (Ne.symm (hl o ho))
        · rw [goto_self]; exact ⟨⟨o, ho, rfl⟩, ht⟩
    · exact ⟨fun k hk => goto_other _ _ hk, fun _ _ => rfl, by rw [goto_self]; trivial⟩
  | done => exact ⟨fun _ _ => rfl, fun _ _ => rfl, by rw [hpc]; trivial⟩
  | failed e => exact ⟨fun _ _ => rfl, fun _ _ => rfl, by rw [hpc]; trivial⟩

/-- all threads are within their jobs -/
def Within (jobs : List Job) (st : JobsState) : Prop := ∀ i job, jobs[i]? = some job → PcWithin job (st.pcs i)

theorem jobStep_none (je : JobEnv) (jobs : List Job) (st : JobsState) (i : Nat) (hj : jobs[i]? = none) : jobStep je jobs st i = st := by
  unfold jobStep; rw [hj]

theorem jobStep_within (je : JobEnv) (jobs : List Job) (st : JobsState) (i : Nat) (h : Within jobs st) :
    Within jobs (jobStep je jobs st i) := by
  intro k job hk
  cases hj : jobs[i]? with
  | none => rw [jobStep_none _ _ _ _ hj]; exact h k job hk
  | some ji =>
    obtain ⟨h1, _, h3⟩ := jobStep_frame je jobs st i ji hj (h i ji hj)
    by_cases hki : k = i
    · subst hki; rw [hj] at hk; cases hk; exact h3
    · rw [h1 k hki]; exact h k job hk

/-- threads change files only at the outputs of the jobs -/
theorem runJobs_frame (je : JobEnv) (jobs : List Job) (l : Path)
    (hl : ∀ job ∈ jobs, ∀ o ∈ job.outputs.list, je.disk.resolve o.path ≠ l) :
    ∀ (schedule : List Nat) (st : JobsState), Within jobs st → (runJobs je jobs st schedule).disk l = st.disk l := by
  intro schedule
  induction schedule with
  | nil => intro st _; rfl
  | cons i schedule ih =>
    intro st h
    show (runJobs je jobs (jobStep je jobs st i) schedule).disk l = _
    rw [ih _ (jobStep_within _ _ _ _ h)]
    cases hj : jobs[i]? with
    | none => rw [jobStep_none _ _ _ _ hj]
    | some job => exact (jobStep_frame je jobs st i job hj (h i job hj)).2.1 l (hl job (List.mem_of_getElem? hj))

theorem within_start (jobs : List Job) (s : SignState) : Within jobs (jobsStart s) := fun _ _ _ => trivial

/-- preparing does not touch files -/
theorem signPrepare_disk (libs : SignLibs) (o : SignOracle) (trust : TrustArgs) (ident : IdentityArgs) (s : SignState) :
    (signPrepare libs o trust ident s).2.disk = s.disk := by
  unfold signPrepare
  split
  · rfl
  · dsimp only
    split
    · rfl
    · split
      · rfl
      · split
        · rfl
        · split <;> rfl

theorem mem_jobsOf {o : SignOracle} {map : Dict Path SigningOutputs} {job : Job} (h : job ∈ jobsOf o map) :
    (job.file, job.outputs) ∈ map := by
  unfold jobsOf at h
  obtain ⟨p, hp, rfl⟩ := List.mem_map.1 h
  exact hp

/-- signing changes nothing that is not an output -/
theorem signCommon_frame (libs : SignLibs) (o : SignOracle) (trust : TrustArgs) (ident : IdentityArgs)
    (map : Dict Path SigningOutputs) (predicate : Option (Str × Dict Str Json)) (s : SignState) (l : Path)
    (hl : ∀ f outs, (f, outs) ∈ map → ∀ x ∈ outs.list, libs.disk.resolve x.path ≠ l) :
    (signCommon libs o trust ident map predicate s).2.disk l = s.disk l := by
  unfold signCommon
  have hd := signPrepare_disk libs o trust ident s
  split
  · rename_i e s' hp
    rw [hp] at hd
    exact congrFun hd l
  · rename_i ctx signer s' hp
    rw [hp] at hd
    show (runJobs _ _ _ _).disk l = _
    rw [runJobs_frame _ _ l (fun job hj x hx => hl _ _ (mem_jobsOf hj) x hx) _ _ (within_start _ _)]
    exact congrFun hd l

/-- **C42** Without `--overwrite`, however `sign` ends and however its threads are scheduled, everything that existed
before is unchanged. -/
theorem C42_sign_keeps_files (libs : SignLibs) (o : SignOracle) (trust : TrustArgs) (ident : IdentityArgs) (args : SignArgs)
    (s : SignState) (ho : args.overwrite = false) : Kept s.disk (signMain libs o trust ident args s).2.disk := by
  unfold signMain
  have hd := signOutputs_disk libs.disk args s.disk
  cases h : signOutputs libs.disk args s.disk with
  | mk r d =>
    rw [h] at hd
    cases r with
    | error e => exact hd.kept
    | ok map =>
      dsimp only at hd ⊢
      obtain ⟨_, _, h3, _⟩ := C42_checks_sound _ _ _ _ _ h
      obtain ⟨m1, m2, m3⟩ := signOutputs_map _ _ _ _ _ h
      intro l n hn
      rw [signCommon_frame]
      · exact hd.kept l n hn
      · intro f outs hm x hx hl
        have hf : f ∈ args.files := (m2 f).1 (List.mem_map.2 ⟨_, hm, rfl⟩)
        have := h3 ho f hf x.path ((signOutput_iff args f x.path).1 ⟨x, by rw [← m3 f outs hm]; exact hx, rfl⟩)
        rw [hl, hn] at this
        cases this

theorem attestOutputsLoop_ok (e : DiskEnv) (args : AttestArgs) (d : Disk) : ∀ (files done : List Path)
    (map map' : Dict Path SigningOutputs), attestOutputsLoop e args d map files = .ok map' →
    MapFor done (fun f => ⟨none, none, some (args.bundle.getD (sibling f ".sigstore.json".toList))⟩) map →
    MapFor (done ++ files) (fun f => ⟨none, none, some (args.bundle.getD (sibling f ".sigstore.json".toList))⟩) map' ∧
      (∀ f ∈ files, e.isFile d f = true) ∧
      (args.overwrite = false → ∀ f ∈ files, d (e.resolve (args.bundle.getD (sibling f ".sigstore.json".toList))) = none) := by
  intro files
  induction files with
  | nil =>
    intro done map map' h hm
    rw [attestOutputsLoop] at h
    cases h
    simpa using hm
  | cons f files ih =>
    intro done map map' h hm
    rw [attestOutputsLoop] at h
    split at h
    · cases h
    rename_i hf
    dsimp only at h
    split at h
    · cases h
    rename_i hx
    obtain ⟨k1, k2, k3⟩ := ih (done ++ [f]) _ _ h (mapFor_set hm f)
    refine ⟨by simpa using k1, ?_, ?_⟩
    · intro g hg
      rcases List.mem_cons.1 hg with rfl | hg
      · simpa using hf
      · exact k2 g hg
    · intro ho g hg
      rcases List.mem_cons.1 hg with rfl | hg
      · simpa [ho, DiskEnv.exists_] using hx
      · exact k3 ho g hg

theorem attestBundlePath_iff (args : AttestArgs) (file p : Path) :
    args.bundle.getD (sibling file ".sigstore.json".toList) = p ↔ AttestBundlePath args file p := by
  constructor
  · rintro rfl
    cases hb : args.bundle with
    | none => exact .beside hb
    | some b => exact .explicit hb
  · rintro (hb | hb)
    · rw [hb]; rfl
    · rw [hb]; rfl

/-- **C42** The same for `attest`. -/
theorem C42_attest_keeps_files (libs : SignLibs) (o : SignOracle) (trust : TrustArgs) (ident : IdentityArgs) (args : AttestArgs)
    (s : SignState) (ho : args.overwrite = false) : Kept s.disk (attestMain libs o trust ident args s).2.disk := by
  unfold attestMain
  split
  · exact fun _ _ h => h
  · split
    · exact fun _ _ h => h
    · rename_i map h
      obtain ⟨⟨m1, m2, m3⟩, h2, h3⟩ := attestOutputsLoop_ok _ _ _ _ [] _ _ h (mapFor_nil _)
      intro l n hn
      rw [signCommon_frame]
      · exact hn
      · intro f outs hm x hx hl
        have hf : f ∈ args.files := by simpa using (m2 f).1 (List.mem_map.2 ⟨_, hm, rfl⟩)
        have := h3 ho f hf
        rw [m3 f outs hm] at hx
        rcases (mem_outputs _ _).1 hx with ⟨q, hq, rfl⟩ | ⟨q, hq, rfl⟩ | ⟨q, hq, rfl⟩
        · cases hq
        · cases hq
        · simp only [Option.some.injEq] at hq
          rw [hq] at this
          rw [show Output.path (.bundle q) = q from rfl] at hl
          rw [hl, hn] at this
          cases this

/-- **C42** A bad combination of options, an input that is no file, an output directory that is a file, or (without `--overwrite`) anything that exists at an
output path makes `sign` fail before it contacts anything: no trust material, key, certificate or signature is requested
and no file is written. -/
theorem C42_fails_early (libs : SignLibs) (o : SignOracle) (trust : TrustArgs) (ident : IdentityArgs) (args : SignArgs)
    (s : SignState)
    (h : ¬ConsistentSign args ∨ (∃ f ∈ args.files, ∀ c, s.disk (libs.disk.resolve f) ≠ some (.file c)) ∨
      (args.files ≠ [] ∧ ∃ dir c, args.outputDirectory = some dir ∧ s.disk (libs.disk.resolve dir) = some (.file c)) ∨
      (args.overwrite = false ∧ ∃ f ∈ args.files, ∃ p, SignOutput args f p ∧ s.disk (libs.disk.resolve p) ≠ none)) :
    (∃ e, (signMain libs o trust ident args s).1 = some (.error e)) ∧
      (signMain libs o trust ident args s).2.tuf = s.tuf ∧ (signMain libs o trust ident args s).2.world = s.world ∧
      OnlyDirectories s.disk (signMain libs o trust ident args s).2.disk := by
  unfold signMain
  have hd := signOutputs_disk libs.disk args s.disk
  cases hm : signOutputs libs.disk args s.disk with
  | mk r d =>
    rw [hm] at hd
    cases r with
    | error e => exact ⟨⟨e, rfl⟩, rfl, rfl, hd⟩
    | ok map =>
      exfalso
      obtain ⟨h1, h2, h3, _, h5⟩ := C42_checks_sound _ _ _ _ _ hm
      rcases h with h | ⟨f, hf, h⟩ | ⟨hne, dir, c, hd, hc⟩ | ⟨ho, f, hf, p, hp, h⟩
      · exact h h1
      · obtain ⟨c, hc⟩ := h2 f hf; exact h c hc
      · exact h5 dir c hne hd hc
      · exact h (h3 ho f hf p hp)

/-- **C42** The same for `attest`, where also the predicate must be a file; nothing at all is changed. -/
theorem C42_attest_fails_early (libs : SignLibs) (o : SignOracle) (trust : TrustArgs) (ident : IdentityArgs) (args : AttestArgs)
    (s : SignState)
    (h : (∀ c, s.disk (libs.disk.resolve args.predicate) ≠ some (.file c)) ∨
      (∃ f ∈ args.files, ∀ c, s.disk (libs.disk.resolve f) ≠ some (.file c)) ∨
      (args.overwrite = false ∧ ∃ f ∈ args.files, ∃ p, AttestBundlePath args f p ∧ s.disk (libs.disk.resolve p) ≠ none)) :
    ∃ e, attestMain libs o trust ident args s = (some (.error e), s) := by
  unfold attestMain
  cases hr : readPredicate libs.disk libs.loads args s.disk with
  | error e => exact ⟨e, rfl⟩
  | ok json =>
    dsimp only
    cases hm : attestOutputsLoop libs.disk args s.disk [] args.files with
    | error e => exact ⟨e, rfl⟩
    | ok map =>
      exfalso
      obtain ⟨_, h2, h3⟩ := attestOutputsLoop_ok _ _ _ _ [] _ _ hm (mapFor_nil _)
      rcases h with h | ⟨f, hf, h⟩ | ⟨ho, f, hf, p, hp, h⟩
      · unfold readPredicate at hr
        split at hr
        · cases hr
        · rename_i hf
          have : libs.disk.isFile s.disk args.predicate = true := by simpa using hf
          obtain ⟨c, hc⟩ := (isFile_iff _ _ _).1 this
          exact h c hc
      · obtain ⟨c, hc⟩ := (isFile_iff _ _ _).1 (h2 f hf); exact h c hc
      · have := h3 ho f hf
        rw [(attestBundlePath_iff args f p).2 hp] at this
        exact h this

/-! ## What a thread has made -/

/-- what the output `x` of a bundle must hold -/
def Holds (je : JobEnv) (cert : Cert) (d : Disk) (b : Bundle) : Output → Prop
  | .signature p => HoldsSignature je.disk d b p
  | .certificate p => HoldsCertificate je.disk d cert p
  | .bundle p => HoldsBundle je.disk je.toJson d b p

/-- what will be printed to it -/
def Prints (je : JobEnv) (cert : Cert) (b : Bundle) (data : Bytes) : Output → Prop
  | .signature _ => ∃ sig, b.signature = .ok sig ∧ data = utf8 (b64Encode sig ++ "\n".toList)
  | .certificate _ => data = utf8 (pemText cert.der ++ "\n".toList)
  | .bundle _ => data = utf8 (je.toJson b ++ "\n".toList)

theorem holds_of_prints {je : JobEnv} {cert : Cert} {d : Disk} {b : Bundle} {data : Bytes} {x : Output}
    (h : Prints je cert b data x) (hd : d (je.disk.resolve x.path) = some (.file data)) : Holds je cert d b x := by
  cases x with
  | signature p => obtain ⟨sig, h1, rfl⟩ := h; exact ⟨sig, h1, hd⟩
  | certificate p => cases h; exact hd
  | bundle p => cases h; exact hd

theorem holds_congr {je : JobEnv} {cert : Cert} {d d' : Disk} {b : Bundle} {x : Output}
    (h : d' (je.disk.resolve x.path) = d (je.disk.resolve x.path)) (hh : Holds je cert d b x) : Holds je cert d' b x := by
  cases x with
  | signature p => obtain ⟨sig, h1, h2⟩ := hh; exact ⟨sig, h1, h.trans h2⟩
  | certificate p => exact h.trans hh
  | bundle p => exact h.trans hh

/-- the content of the input in the first state, which can be read -/
def InputWas (je : JobEnv) (d₀ : Disk) (job : Job) (c : Bytes) : Prop :=
  je.disk.canRead job.file = true ∧ d₀ (je.disk.resolve job.file) = some (.file c)

/-- `b` is the result of the signing call for this content -/
def Called (je : JobEnv) (job : Job) (c : Bytes) (b : Bundle) : Prop :=
  ∃ w w' call, callFor je job.file ⟨.sha2_256, je.env.crypto.sha256 c⟩ = .ok call ∧
    je.signer.sign je.env je.ctx je.kp job.answers w call = (.ok b, w')

/-- `b` is a bundle for the input as it was in the first state -/
def Made (je : JobEnv) (k : Nat) (cert : Cert) (d₀ : Disk) (job : Job) (b : Bundle) : Prop :=
  ∃ c, InputWas je d₀ job c ∧ BundleOf je.env.crypto je.kp je.codec k cert je.predicate job.file.name c b ∧ Called je job c b

/-- the invariant of one thread -/
def JobInv (je : JobEnv) (k : Nat) (cert : Cert) (d₀ d : Disk) (job : Job) : JobPc → Prop
  | .start => True
  | .hashed h => ∃ c, InputWas je d₀ job c ∧ h = ⟨.sha2_256, je.env.crypto.sha256 c⟩
  | .emit b todo => Made je k cert d₀ job b ∧ ∃ pre, job.outputs.list = pre ++ todo ∧ ∀ x ∈ pre, Holds je cert d b x
  | .writing b p data n todo => Made je k cert d₀ job b ∧ ∃ pre x, job.outputs.list = pre ++ x :: todo ∧
      (∀ y ∈ pre, Holds je cert d b y) ∧ x.path = p ∧ Prints je cert b data x ∧
      d (je.disk.resolve p) = some (.file (data.take n))
  | .done => ∃ b, Made je k cert d₀ job b ∧ ∀ x ∈ job.outputs.list, Holds je cert d b x
  | .failed _ => True

theorem jobInv_within {je : JobEnv} {k : Nat} {cert : Cert} {d₀ d : Disk} {job : Job} {pc : JobPc}
    (h : JobInv je k cert d₀ d job pc) : PcWithin job pc := by
  cases pc with
  | emit b todo => obtain ⟨_, pre, hp, _⟩ := h; intro o ho; rw [hp]; simp [ho]
  | writing b p data n todo =>
    obtain ⟨_, pre, x, hp, _, hx, _⟩ := h
    exact ⟨⟨x, by rw [hp]; simp, hx⟩, fun o ho => by rw [hp]; simp [ho]⟩
  | start => trivial
  | hashed h => trivial
  | done => trivial
  | failed e => trivial

theorem jobInv_congr {je : JobEnv} {k : Nat} {cert : Cert} {d₀ d d' : Disk} {job : Job} {pc : JobPc}
    (hd : ∀ x ∈ job.outputs.list, d' (je.disk.resolve x.path) = d (je.disk.resolve x.path))
    (h : JobInv je k cert d₀ d job pc) : JobInv je k cert d₀ d' job pc := by
  cases pc with
  | emit b todo =>
    obtain ⟨h1, pre, hp, h2⟩ := h
    exact ⟨h1, pre, hp, fun x hx => holds_congr (hd x (by rw [hp]; simp [hx])) (h2 x hx)⟩
  | writing b p data n todo =>
    obtain ⟨h1, pre, x, hp, h2, rfl, h3, h4⟩ := h
    exact ⟨h1, pre, x, hp, fun y hy => holds_congr (hd y (by rw [hp]; simp [hy])) (h2 y hy), rfl, h3,
      (hd x (by rw [hp]; simp)).trans h4⟩
  | done => obtain ⟨b, h1, h2⟩ := h; exact ⟨b, h1, fun x hx => holds_congr (hd x hx) (h2 x hx)⟩
  | start => trivial
  | hashed h' => exact h
  | failed e => trivial

/-- the outputs of the jobs lead to different places, none of which is an input -/
structure Separate (je : JobEnv) (jobs : List Job) : Prop where
  within : ∀ job ∈ jobs, (job.outputs.list.map fun x => je.disk.resolve x.path).Nodup
  across : ∀ (i j : Nat) (a b : Job), jobs[i]? = some a → jobs[j]? = some b → i ≠ j →
    ∀ x ∈ a.outputs.list, ∀ y ∈ b.outputs.list, je.disk.resolve x.path ≠ je.disk.resolve y.path
  inputs : ∀ a ∈ jobs, ∀ b ∈ jobs, ∀ x ∈ a.outputs.list, je.disk.resolve x.path ≠ je.disk.resolve b.file

/-- the invariant of all threads -/
structure JobsInv (je : JobEnv) (k : Nat) (cert : Cert) (d₀ : Disk) (jobs : List Job) (st : JobsState) : Prop where
  each : ∀ i job, jobs[i]? = some job → JobInv je k cert d₀ st.disk job (st.pcs i)
  inputs : ∀ job ∈ jobs, st.disk (je.disk.resolve job.file) = d₀ (je.disk.resolve job.file)

theorem putByte_next (data : Bytes) (n : Nat) (b : UInt8) (h : data[n]? = some b) :
    putByte (data.take n) n b = data.take (n + 1) := by
  have hn : n < data.length := by
    by_contra hc
    rw [List.getElem?_eq_none (by omega)] at h
    cases h
  have hl : (data.take n).length = n := by simp; omega
  unfold putByte
  rw [hl, Nat.sub_self, List.replicate_zero, List.append_nil, List.take_take, Nat.min_self,
    List.drop_eq_nil_of_le (by omega), List.take_add_one, h]
  rfl

theorem callFor_made (je : JobEnv) (k : Nat) (cert : Cert) (hs : je.signer = ⟨some k, some cert⟩) (d₀ : Disk) (job : Job)
    (c : Bytes) (hc : InputWas je d₀ job c) (w w' : Signing.World) (call : Call) (b : Bundle)
    (h1 : callFor je job.file ⟨.sha2_256, je.env.crypto.sha256 c⟩ = .ok call)
    (h2 : je.signer.sign je.env je.ctx je.kp job.answers w call = (.ok b, w')) : Made je k cert d₀ job b := by
  refine ⟨c, hc, ?_, w, w', call, h1, h2⟩
  rw [hs] at h2
  obtain ⟨cert', w₁, k', request, ts, entry, g1, g2, g3, g4, g5, g6, g7⟩ := (sign_ok_iff _ _ _ _ _ _ _ _ _).1 h2
  rw [signingCert_cached] at g1
  split at g1
  · cases g1
  simp only [Prod.mk.injEq, Except.ok.injEq] at g1
  obtain ⟨rfl, rfl⟩ := g1
  cases g2
  obtain ⟨f1, f2, _⟩ := fromParts_content g7
  refine ⟨f2, job.answers.nonce, ?_⟩
  unfold callFor at h1
  cases hp : je.predicate with
  | none =>
    rw [hp] at h1
    cases h1
    exact f1
  | some p =>
    obtain ⟨pt, pred⟩ := p
    rw [hp] at h1
    cases h1
    exact ⟨f1.1, _, rfl, f1.2⟩

theorem outputData_prints (je : JobEnv) (k : Nat) (cert : Cert) (hs : je.signer = ⟨some k, some cert⟩) (a : Answers) (b : Bundle)
    (w w' : Signing.World) (x : Output) (data : Bytes) (h : outputData je a b w x = (.ok data, w')) :
    Prints je cert b data x := by
  cases x with
  | signature p =>
    unfold outputData at h
    dsimp only at h
    split at h
    · cases h
    · rename_i s hs
      cases h
      exact ⟨s, hs, rfl⟩
  | certificate p =>
    unfold outputData at h
    dsimp only at h
    rw [hs, signingCert_cached] at h
    split at h
    · cases h
    · rename_i c w₁ hc
      simp only [Prod.mk.injEq] at hc h
      obtain ⟨h1, h2⟩ := hc
      split at h1
      · cases h1
      · cases h1; cases h.1; rfl
  | bundle p => cases h; rfl

theorem separate_split {je : JobEnv} {job : Job} (hw : (job.outputs.list.map fun x => je.disk.resolve x.path).Nodup)
    {pre todo : List Output} {x : Output} (hp : job.outputs.list = pre ++ x :: todo) :
    ∀ y ∈ pre, je.disk.resolve y.path ≠ je.disk.resolve x.path := by
  intro y hy he
  rw [hp, List.map_append, List.map_cons, List.nodup_append] at hw
  exact hw.2.2 _ (List.mem_map.2 ⟨y, hy, rfl⟩) _ (by simp) he

/-- one step of a thread keeps its own invariant -/
theorem jobStep_self (je : JobEnv) (k : Nat) (cert : Cert) (hs : je.signer = ⟨some k, some cert⟩) (d₀ : Disk)
    (jobs : List Job) (st : JobsState) (i : Nat) (job : Job) (hj : jobs[i]? = some job)
    (hwithin : (job.outputs.list.map fun x => je.disk.resolve x.path).Nodup) (hi : JobInv je k cert d₀ st.disk job (st.pcs i))
    (hinput : st.pcs i = .start → st.disk (je.disk.resolve job.file) = d₀ (je.disk.resolve job.file)) :
    JobInv je k cert d₀ (jobStep je jobs st i).disk job ((jobStep je jobs st i).pcs i) := by
  unfold jobStep
  rw [hj]
  dsimp only
  cases hpc : st.pcs i with
  | start =>
    dsimp only
    cases hr : je.disk.read st.disk job.file with
    | error e => dsimp only; rw [goto_self]; trivial
    | ok c =>
      dsimp only
      rw [goto_self]
      refine ⟨c, ?_, rfl⟩
      unfold DiskEnv.read at hr
      rw [hinput hpc] at hr
      unfold InputWas
      split at hr
      · rename_i c' hc
        split at hr
        · rename_i hcr; cases hr; exact ⟨hcr, hc⟩
        · cases hr
      · cases hr
  | hashed h =>
    rw [hpc] at hi
    obtain ⟨c, hc, rfl⟩ := hi
    dsimp only
    cases hcall : callFor je job.file ⟨.sha2_256, je.env.crypto.sha256 c⟩ with
    | error e => dsimp only; rw [goto_self]; trivial
    | ok call =>
      dsimp only
      cases hsign : je.signer.sign je.env je.ctx je.kp job.answers st.world call with
      | mk r w =>
        cases r with
        | error e => dsimp only; rw [goto_self]; trivial
        | ok b =>
          dsimp only
          rw [goto_self]
          exact ⟨callFor_made je k cert hs d₀ job c hc _ _ call b hcall hsign, [], rfl, by simp⟩
  | emit b todo =>
    rw [hpc] at hi
    obtain ⟨hm, pre, hp, hh⟩ := hi
    cases todo with
    | nil =>
      dsimp only
      rw [goto_self]
      rw [List.append_nil] at hp
      exact ⟨b, hm, fun x hx => hh x (hp ▸ hx)⟩
    | cons x todo =>
      dsimp only
      cases hd : outputData je job.certAnswers b st.world x with
      | mk r w =>
        cases r with
        | error e => dsimp only; rw [goto_self]; trivial
        | ok data =>
          dsimp only
          cases ho : je.disk.openW st.disk x.path with
          | error e => dsimp only; rw [goto_self]; trivial
          | ok d =>
            dsimp only
            rw [goto_self]
            have he := openW_ok ho
            refine ⟨hm, pre, x, hp, ?_, rfl, outputData_prints je k cert hs _ _ _ _ _ _ hd, ?_⟩
            · intro y hy
              refine holds_congr ?_ (hh y hy)
              show d _ = _
              rw [he]
              exact Function.update_of_ne (separate_split hwithin hp y hy) ..
            · show d _ = _
              rw [he, List.take_zero]
              exact Function.update_self ..
  | writing b p data n todo =>
    rw [hpc] at hi
    obtain ⟨hm, pre, x, hp, hh, rfl, hpr, hd⟩ := hi
    dsimp only
    by_cases hput : je.disk.canPut x.path n = true
    case neg => rw [if_neg hput, goto_self]; trivial
    rw [if_pos hput]
    cases hn : data[n]? with
    | none =>
      dsimp only
      rw [goto_self]
      refine ⟨hm, pre ++ [x], by rw [hp]; simp, ?_⟩
      intro y hy
      rcases List.mem_append.1 hy with hy | hy
      · exact hh y hy
      · rw [List.mem_singleton] at hy
        subst hy
        rw [List.take_of_length_le (by rw [List.getElem?_eq_none_iff] at hn; exact hn)] at hd
        exact holds_of_prints hpr hd
    | some byte =>
      dsimp only
      rw [goto_self]
      refine ⟨hm, pre, x, hp, ?_, rfl, hpr, ?_⟩
      · intro y hy
        exact holds_congr (writeByte_other _ _ _ _ _ (separate_split hwithin hp y hy)) (hh y hy)
      · show je.disk.writeByte st.disk x.path n byte _ = _
        unfold DiskEnv.writeByte
        rw [hd]
        dsimp only
        rw [Function.update_self, putByte_next data n byte hn]
  | done => dsimp only; rw [hpc] at hi ⊢; exact hi
  | failed e => dsimp only; rw [hpc]; trivial

theorem jobStep_inv (je : JobEnv) (k : Nat) (cert : Cert) (hs : je.signer = ⟨some k, some cert⟩) (d₀ : Disk)
    (jobs : List Job) (sep : Separate je jobs) (st : JobsState) (inv : JobsInv je k cert d₀ jobs st) (i : Nat) :
    JobsInv je k cert d₀ jobs (jobStep je jobs st i) := by
  cases hj : jobs[i]? with
  | none => rw [jobStep_none _ _ _ _ hj]; exact inv
  | some job =>
    have hmem := List.mem_of_getElem? hj
    obtain ⟨f1, f2, _⟩ := jobStep_frame je jobs st i job hj (jobInv_within (inv.each i job hj))
    constructor
    · intro j jb hjb
      by_cases hij : j = i
      · subst hij
        rw [hj] at hjb
        cases hjb
        exact jobStep_self je k cert hs d₀ jobs st j job hj (sep.within job hmem) (inv.each j job hj) fun _ => inv.inputs job hmem
      · rw [f1 j hij]
        refine jobInv_congr ?_ (inv.each j jb hjb)
        intro x hx
        exact f2 _ fun y hy => sep.across i j job jb hj hjb (Ne.symm hij) y hy x hx
    · intro jb hjb
      rw [← inv.inputs jb hjb]
      exact f2 _ fun y hy => sep.inputs job hmem jb hjb y hy

/-- the invariant holds under every schedule -/
theorem runJobs_inv (je : JobEnv) (k : Nat) (cert : Cert) (hs : je.signer = ⟨some k, some cert⟩) (d₀ : Disk)
    (jobs : List Job) (sep : Separate je jobs) : ∀ (schedule : List Nat) (st : JobsState), JobsInv je k cert d₀ jobs st →
    JobsInv je k cert d₀ jobs (runJobs je jobs st schedule) := by
  intro schedule
  induction schedule with
  | nil => intro st h; exact h
  | cons i schedule ih => intro st h; exact ih _ (jobStep_inv je k cert hs d₀ jobs sep st h i)

theorem jobsResult_ok {jobs : List Job} {order : List Nat} {st : JobsState} (h : jobsResult jobs order st = some (.ok ())) :
    ∀ i < jobs.length, st.pcs i = .done := by
  intro i hi
  unfold jobsResult at h
  split at h
  · rename_i hall
    split at h
    · rename_i hnone
      have h1 := List.all_eq_true.1 hall i (by simp [hi])
      have h2 := (List.findSome?_eq_none_iff.1 hnone) i (by simp [hi])
      rw [if_pos hi] at h2
      cases hpc : st.pcs i with
      | done => rfl
      | failed e => rw [hpc] at h2; cases h2
      | _ => rw [hpc] at h1; cases h1
    · cases h
  · cases h

end Sigstore.Props
