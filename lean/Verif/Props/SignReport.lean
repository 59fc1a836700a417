import Verif.Spec.SignReport
import Verif.Props.CliSignCommands
import Verif.Props.CliReport

/-!
# What `sigstore sign` and `sigstore attest` report (C108)
-/

namespace Sigstore.Props

open Sigstore.Spec Sigstore.Trust Sigstore.Dsse Sigstore.Signing Sigstore.Config Sigstore.Cli

/-! ## Refinement -/

theorem signPrepareSaid_refines (libs : SignLibs) (o : SignOracle) (trust : TrustArgs) (ident : IdentityArgs) (s : SignState) :
    signPrepare libs o trust ident s =
      ((signPrepareSaid libs o trust ident s).1, (signPrepareSaid libs o trust ident s).2.1) := by
  unfold signPrepare signPrepareSaid
  cases h1 : getTrustConfig (libs.disk.fs s.disk) libs.tuf libs.parsers trust s.tuf with
  | mk r t =>
    cases r with
    | error e => rfl
    | ok cfg =>
      dsimp only
      cases h2 : contextFromTrustConfig o.now ⟨cfg.rootMediaType, cfg.signingConfig, cfg.forceTlogVersion⟩ with
      | error e => rfl
      | ok services =>
        dsimp only
        cases h3 : signIdentity libs.identity o.now ident cfg with
        | error e => rfl
        | ok token =>
          dsimp only
          cases h4 : Signer.init libs.env ⟨cfg.root, apiVersionOf services.rekor⟩ libs.kp (o.first token) true s.world with
          | mk r w =>
            cases r with
            | error e => rfl
            | ok signer =>
              dsimp only
              cases h5 : signer.signingCert libs.env ⟨cfg.root, apiVersionOf services.rekor⟩ libs.kp o.shown w with
              | mk r w =>
                cases r with
                | error e => rfl
                | ok c => rfl

theorem signCommonSaid_refines (libs : SignLibs) (o : SignOracle) (trust : TrustArgs) (ident : IdentityArgs)
    (map : Dict Path SigningOutputs) (predicate : Option (Str × Dict Str Json)) (s : SignState) :
    signCommon libs o trust ident map predicate s =
      ((signCommonSaid libs o trust ident map predicate s).1, (signCommonSaid libs o trust ident map predicate s).2.1) := by
  unfold signCommon signCommonSaid
  rw [signPrepareSaid_refines]
  cases h : signPrepareSaid libs o trust ident s with
  | mk r x =>
    obtain ⟨s', said⟩ := x
    cases r with
    | error e => rfl
    | ok cs =>
      obtain ⟨ctx, signer⟩ := cs
      rfl

/-- **C108** Forgetting what is written, the model with output is the model of `sign`. -/
theorem signMainSaid_refines (libs : SignLibs) (o : SignOracle) (trust : TrustArgs) (ident : IdentityArgs) (args : SignArgs)
    (s : SignState) :
    signMain libs o trust ident args s =
      ((signMainSaid libs o trust ident args s).1, (signMainSaid libs o trust ident args s).2.1) := by
  unfold signMain signMainSaid
  cases h : signOutputs libs.disk args s.disk with
  | mk r d =>
    cases r with
    | error e => rfl
    | ok map => exact signCommonSaid_refines ..

/-- **C108** The same for `attest`. -/
theorem attestMainSaid_refines (libs : SignLibs) (o : SignOracle) (trust : TrustArgs) (ident : IdentityArgs) (args : AttestArgs)
    (s : SignState) :
    attestMain libs o trust ident args s =
      ((attestMainSaid libs o trust ident args s).1, (attestMainSaid libs o trust ident args s).2.1) := by
  unfold attestMain attestMainSaid
  cases h : readPredicate libs.disk libs.loads args s.disk with
  | error e => rfl
  | ok json =>
    dsimp only
    cases h2 : attestOutputsLoop libs.disk args s.disk [] args.files with
    | error e => rfl
    | ok map => exact signCommonSaid_refines ..

/-! ## Before the threads -/

theorem signPrepareSaid_cases (libs : SignLibs) (o : SignOracle) (trust : TrustArgs) (ident : IdentityArgs) (s : SignState) :
    (∃ e s', signPrepareSaid libs o trust ident s = (.error e, s', [])) ∨
    (∃ s' token cert chain, signPrepareSaid libs o trust ident s = (.error .expiredCertificate, s', [CertificateHeader]) ∧
      (o.first token).fulcio { pubKey := libs.kp.pub s.world.keys } = .ok (cert, chain) ∧ o.shown.now > cert.notAfter) ∨
    (∃ ctx s' token cert chain, signPrepareSaid libs o trust ident s =
        (.ok (ctx, ⟨some s.world.keys, some cert⟩), s', [CertificateHeader, .out (pemText cert.der)]) ∧
      (o.first token).fulcio { pubKey := libs.kp.pub s.world.keys } = .ok (cert, chain) ∧ o.shown.now ≤ cert.notAfter) := by
  unfold signPrepareSaid
  cases h1 : getTrustConfig (libs.disk.fs s.disk) libs.tuf libs.parsers trust s.tuf with
  | mk r t =>
    cases r with
    | error e => exact .inl ⟨_, _, rfl⟩
    | ok cfg =>
      dsimp only
      cases h2 : contextFromTrustConfig o.now ⟨cfg.rootMediaType, cfg.signingConfig, cfg.forceTlogVersion⟩ with
      | error e => exact .inl ⟨_, _, rfl⟩
      | ok services =>
        dsimp only
        cases h3 : signIdentity libs.identity o.now ident cfg with
        | error e => exact .inl ⟨_, _, rfl⟩
        | ok token =>
          dsimp only
          cases h4 : Signer.init libs.env ⟨cfg.root, apiVersionOf services.rekor⟩ libs.kp (o.first token) true s.world with
          | mk r w =>
            cases r with
            | error e => exact .inl ⟨_, _, rfl⟩
            | ok signer =>
              dsimp only
              obtain ⟨cert, chain, _, k2, _, rfl, _⟩ := (init_cached_iff _ _ _ _ _ _ _).1 h4
              unfold Signer.signingCert
              dsimp only
              by_cases hx : o.shown.now > cert.notAfter
              · rw [if_pos hx]
                exact .inr (.inl ⟨_, token, cert, chain, rfl, k2, hx⟩)
              · rw [if_neg hx]
                exact .inr (.inr ⟨_, _, token, cert, chain, rfl, k2, Int.not_lt.1 hx⟩)

/-! ## The threads -/

/-- `b` is the result of a signing call of a thread -/
def SignedBy (je : JobEnv) (job : Job) (b : Bundle) : Prop :=
  ∃ h call w w', callFor je job.file h = .ok call ∧ je.signer.sign je.env je.ctx je.kp job.answers w call = (.ok b, w')

/-- the records of one thread so far -/
def PcRecords (je : JobEnv) (job : Job) (records : List Said) : JobPc → Prop
  | .start => records = []
  | .hashed _ => records = []
  | .emit b _ => records = [entrySaid b] ∧ SignedBy je job b
  | .writing b _ _ _ _ => records = [entrySaid b] ∧ SignedBy je job b
  | .done => ∃ b, records = [entrySaid b] ∧ SignedBy je job b
  | .failed e => records = [] ∨ records = signErrorSaid e ∨ ∃ b, records = [entrySaid b] ∧ SignedBy je job b

/-- the records of all threads so far -/
structure RecordsInv (je : JobEnv) (jobs : List Job) (st : JobsState) (records : List (Nat × Said)) : Prop where
  each : ∀ i job, jobs[i]? = some job → PcRecords je job (RecordsOf i records) (st.pcs i)
  known : ∀ x ∈ records, x.1 < jobs.length

theorem recordsOf_append (i : Nat) (l l' : List (Nat × Said)) : RecordsOf i (l ++ l') = RecordsOf i l ++ RecordsOf i l' := by
  unfold RecordsOf
  rw [List.filter_append, List.map_append]

theorem recordsOf_self (i : Nat) (l : List Said) : RecordsOf i (l.map (i, ·)) = l := by
  unfold RecordsOf
  induction l with
  | nil => rfl
  | cons x l ih => rw [List.map_cons, List.filter_cons_of_pos (by simp), List.map_cons, ih]

theorem recordsOf_other {i j : Nat} (h : j ≠ i) (l : List Said) : RecordsOf j (l.map (i, ·)) = [] := by
  unfold RecordsOf
  induction l with
  | nil => rfl
  | cons x l ih => rw [List.map_cons, List.filter_cons_of_neg (by simpa using Ne.symm h), ih]

theorem jobStep_other (je : JobEnv) (jobs : List Job) (st : JobsState) {i j : Nat} (h : j ≠ i) :
    (jobStep je jobs st i).pcs j = st.pcs j := by
  have hg : ∀ (st' : JobsState) (pc : JobPc), (st'.goto i pc).pcs j = st'.pcs j := fun st' pc => Function.update_of_ne h ..
  unfold jobStep
  split
  · rfl
  · split
    · split
      · exact hg _ _
      · exact hg _ _
    · split
      · exact hg _ _
      · split
        · exact hg _ _
        · exact hg _ _
    · exact hg _ _
    · split
      · exact hg _ _
      · split
        · exact hg _ _
        · exact hg _ _
    · split
      · split
        · exact hg _ _
        · exact hg _ _
      · exact hg _ _
    · rfl
    · rfl

theorem jobStep_records_self (je : JobEnv) (jobs : List Job) (st : JobsState) (i : Nat) (job : Job) (hj : jobs[i]? = some job)
    (records : List Said) (h : PcRecords je job records (st.pcs i)) :
    PcRecords je job (records ++ jobSaid je jobs st i) ((jobStep je jobs st i).pcs i) := by
  unfold jobStep jobSaid
  rw [hj]
  dsimp only
  cases hpc : st.pcs i with
  | start =>
    rw [hpc] at h
    obtain rfl : records = [] := h
    dsimp only
    cases hr : je.disk.read st.disk job.file with
    | error e => dsimp only; rw [goto_self]; exact .inl rfl
    | ok c => dsimp only; rw [goto_self]; rfl
  | hashed d =>
    rw [hpc] at h
    obtain rfl : records = [] := h
    dsimp only
    cases hc : callFor je job.file d with
    | error e => dsimp only; rw [goto_self]; exact .inr (.inl rfl)
    | ok call =>
      dsimp only
      cases hs : je.signer.sign je.env je.ctx je.kp job.answers st.world call with
      | mk r w =>
        cases r with
        | error e => dsimp only; rw [goto_self]; exact .inr (.inl rfl)
        | ok b => dsimp only; rw [goto_self]; exact ⟨rfl, d, call, _, _, hc, hs⟩
  | emit b todo =>
    rw [hpc] at h
    rw [List.append_nil]
    cases todo with
    | nil => dsimp only; rw [goto_self]; exact ⟨b, h⟩
    | cons x todo =>
      dsimp only
      cases hd : outputData je job.certAnswers b st.world x with
      | mk r w =>
        cases r with
        | error e => dsimp only; rw [goto_self]; exact .inr (.inr ⟨b, h⟩)
        | ok data =>
          dsimp only
          cases ho : je.disk.openW st.disk x.path with
          | error e => dsimp only; rw [goto_self]; exact .inr (.inr ⟨b, h⟩)
          | ok d => dsimp only; rw [goto_self]; exact h
  | writing b p data n todo =>
    rw [hpc] at h
    rw [List.append_nil]
    dsimp only
    split
    case isFalse => rw [goto_self]; exact .inr (.inr ⟨b, h⟩)
    cases hn : data[n]? with
    | none => dsimp only; rw [goto_self]; exact h
    | some byte => dsimp only; rw [goto_self]; exact h
  | done => rw [hpc] at h; rw [List.append_nil]; dsimp only; rw [hpc]; exact h
  | failed e => rw [hpc] at h; rw [List.append_nil]; dsimp only; rw [hpc]; exact h

theorem jobStep_records (je : JobEnv) (jobs : List Job) (st : JobsState) (i : Nat) (records : List (Nat × Said))
    (h : RecordsInv je jobs st records) :
    RecordsInv je jobs (jobStep je jobs st i) (records ++ (jobSaid je jobs st i).map (i, ·)) := by
  constructor
  · intro j job hj
    rw [recordsOf_append]
    by_cases hij : j = i
    · subst hij
      rw [recordsOf_self]
      exact jobStep_records_self je jobs st j job hj _ (h.each j job hj)
    · rw [recordsOf_other hij, List.append_nil, jobStep_other je jobs st hij]
      exact h.each j job hj
  · intro x hx
    rcases List.mem_append.1 hx with hx | hx
    · exact h.known x hx
    · obtain ⟨y, hy, rfl⟩ := List.mem_map.1 hx
      dsimp only
      cases hj : jobs[i]? with
      | none => unfold jobSaid at hy; rw [hj] at hy; cases hy
      | some job => exact (List.getElem?_eq_some_iff.1 hj).1

theorem runJobs_records (je : JobEnv) (jobs : List Job) : ∀ (schedule : List Nat) (st : JobsState) (records : List (Nat × Said)),
    RecordsInv je jobs st records →
    RecordsInv je jobs (runJobs je jobs st schedule) (records ++ runJobsSaid je jobs st schedule) := by
  intro schedule
  induction schedule with
  | nil => intro st records h; rw [runJobsSaid, List.append_nil]; exact h
  | cons i schedule ih =>
    intro st records h
    have := ih _ _ (jobStep_records je jobs st i records h)
    rw [List.append_assoc] at this
    exact this

/-! ## Order of the files -/

theorem signOutputsLoop_keys (e : DiskEnv) (args : SignArgs) : ∀ (files : List Path) (map map' : Dict Path SigningOutputs)
    (d d' : Disk), signOutputsLoop e args map files d = (.ok map', d') → map'.keys = addKeys map.keys files := by
  intro files
  induction files with
  | nil => intro map map' d d' h; rw [signOutputsLoop] at h; cases h; rfl
  | cons f files ih =>
    intro map map' d d' h
    rw [signOutputsLoop] at h
    split at h
    · cases h
    · rw [ih _ _ _ _ h, Dict.keys_set, addKeys]

theorem attestOutputsLoop_keys (e : DiskEnv) (args : AttestArgs) (d : Disk) : ∀ (files : List Path)
    (map map' : Dict Path SigningOutputs), attestOutputsLoop e args d map files = .ok map' → map'.keys = addKeys map.keys files := by
  intro files
  induction files with
  | nil => intro map map' h; rw [attestOutputsLoop] at h; cases h; rfl
  | cons f files ih =>
    intro map map' h
    rw [attestOutputsLoop] at h
    split at h
    · cases h
    dsimp only at h
    split at h
    · cases h
    rw [ih _ _ h, Dict.keys_set, addKeys]

theorem addKeys_nil (files : List Path) : addKeys [] files = Mentioned files := by
  rw [addKeys_eq files [] List.nodup_nil]
  unfold Mentioned
  rw [List.reverse_nil, List.append_nil]

/-- the map of outputs is determined by the files in the order of their first mention -/
theorem map_eq {files : List Path} {outs : Path → SigningOutputs} {map : Dict Path SigningOutputs} (h : MapFor files outs map)
    (hk : map.keys = Mentioned files) : map = (Mentioned files).map fun f => (f, outs f) := by
  rw [← hk]
  unfold Dict.keys
  rw [List.map_map]
  conv_lhs => rw [← List.map_id map]
  refine List.map_congr_left ?_
  rintro ⟨f, o⟩ hm
  show (f, o) = (f, outs f)
  rw [h.2.2 f o hm]

theorem signOutputs_eq {e : DiskEnv} {args : SignArgs} {d d' : Disk} {map : Dict Path SigningOutputs}
    (h : signOutputs e args d = (.ok map, d')) : map = (Mentioned args.files).map fun f => (f, signOutputsFor args f) := by
  refine map_eq (signOutputs_map e args d d' map h) ?_
  unfold signOutputs at h
  split at h
  · cases h
  · rw [signOutputsLoop_keys _ _ _ _ _ _ _ h]
    exact addKeys_nil _

/-- the outputs of `attest` -/
def attestOutputsFor (args : AttestArgs) (f : Path) : SigningOutputs :=
  ⟨none, none, some (args.bundle.getD (sibling f ".sigstore.json".toList))⟩

theorem attestOutputs_eq {e : DiskEnv} {args : AttestArgs} {d : Disk} {map : Dict Path SigningOutputs}
    (h : attestOutputsLoop e args d [] args.files = .ok map) :
    map = (Mentioned args.files).map fun f => (f, attestOutputsFor args f) := by
  have hm := (attestOutputsLoop_ok e args d args.files [] [] map h (mapFor_nil _)).1
  rw [List.nil_append] at hm
  refine map_eq hm ?_
  rw [attestOutputsLoop_keys _ _ _ _ _ _ h]
  exact addKeys_nil _

/-! ## Lines -/

theorem optionalLine (what : Str) (p : Option Path) :
    OptionalLine what p (p.map fun p => Said.out (what ++ " written to ".toList ++ Path.str p)).toList := by
  cases p with
  | none => rfl
  | some p => rfl

theorem writtenSaid_sign (args : SignArgs) (f : Path) : SignLines args f (writtenSaid (signOutputsFor args f)) := by
  unfold writtenSaid signOutputsFor
  refine ⟨_, _, _, rfl, optionalLine "Signature".toList _, optionalLine "Certificate".toList _, ?_⟩
  dsimp only
  cases hb : signBundlePath args f (args.outputDirectory.getD f.parent) with
  | some p => exact .inl ⟨p, (signBundlePath_iff args f p).1 hb, rfl⟩
  | none =>
    refine .inr ⟨fun p hp => ?_, rfl⟩
    exact nomatch hb.symm.trans ((signBundlePath_iff args f p).2 hp)

theorem writtenSaid_attest (args : AttestArgs) (f : Path) : AttestLines args f (writtenSaid (attestOutputsFor args f)) :=
  ⟨_, (attestBundlePath_iff args f _).1 rfl, rfl⟩

theorem linesFor_map {lines : Path → List Said → Prop} {outs : Path → SigningOutputs} (h : ∀ f, lines f (writtenSaid (outs f)))
    (files : List Path) : LinesFor lines files ((files.map fun f => (f, outs f)).flatMap fun p => writtenSaid p.2) := by
  refine ⟨files.map fun f => writtenSaid (outs f), ?_, ?_⟩
  · induction files with
    | nil => exact .nil
    | cons f files ih => exact .cons (h f) ih
  · rw [List.flatMap_map, List.flatMap_def]

/-! ## The report -/

theorem jobsOf_length (o : SignOracle) (map : Dict Path SigningOutputs) : (jobsOf o map).length = map.length :=
  List.length_map ..

theorem records_cases {je : JobEnv} {job : Job} {records : List Said} {pc : JobPc} (h : PcRecords je job records pc)
    {r : Option (Py Unit)} (hr : r = some (.ok ()) → pc = .done) :
    records = [] ∨ (∃ n, records = [EntryRecord n]) ∨
      ((records = [TokenExpired] ∨ records = [CertificateExpired]) ∧ r ≠ some (.ok ())) := by
  cases pc with
  | start => exact .inl h
  | hashed _ => exact .inl h
  | emit b _ => exact .inr (.inl ⟨_, h.1⟩)
  | writing b _ _ _ _ => exact .inr (.inl ⟨_, h.1⟩)
  | done => obtain ⟨b, h, _⟩ := h; exact .inr (.inl ⟨_, h⟩)
  | failed e =>
    rcases h with h | h | ⟨b, h, _⟩
    · exact .inl h
    · have hne : r ≠ some (.ok ()) := fun e => by have := hr e; cases this
      unfold signErrorSaid at h
      split at h
      · exact .inr (.inr ⟨.inl h, hne⟩)
      · split at h
        · exact .inr (.inr ⟨.inr h, hne⟩)
        · exact .inl h
    · exact .inr (.inl ⟨_, h⟩)

theorem signCommon_report (libs : SignLibs) (o : SignOracle) (trust : TrustArgs) (ident : IdentityArgs) (files : List Path)
    (outs : Path → SigningOutputs) (lines : Path → List Said → Prop) (hl : ∀ f, lines f (writtenSaid (outs f)))
    (predicate : Option (Str × Dict Str Json)) (s : SignState) :
    ∃ r s' before records after,
      signCommonSaid libs o trust ident ((Mentioned files).map fun f => (f, outs f)) predicate s =
        (r, s', before, records, after) ∧
      SignReport libs o s.world.keys files lines r before records after := by
  unfold signCommonSaid
  rcases signPrepareSaid_cases libs o trust ident s with ⟨e, s', h⟩ | ⟨s', token, cert, chain, h, h1, h2⟩ |
      ⟨ctx, s', token, cert, chain, h, h1, h2⟩
  · rw [h]
    exact ⟨_, _, _, _, _, rfl, .early⟩
  · rw [h]
    exact ⟨_, _, _, _, _, rfl, .expired h1 h2⟩
  · rw [h]
    dsimp only
    refine ⟨_, _, _, _, _, rfl, ?_⟩
    have hlen : (jobsOf o ((Mentioned files).map fun f => (f, outs f))).length = (Mentioned files).length := by
      rw [jobsOf_length, List.length_map]
    have hinv := runJobs_records (jobEnv libs ctx ⟨some s.world.keys, some cert⟩ predicate)
      (jobsOf o ((Mentioned files).map fun f => (f, outs f))) o.schedule (jobsStart s') []
      ⟨fun _ _ _ => rfl, fun x hx => by cases hx⟩
    rw [List.nil_append] at hinv
    refine .threads h1 h2 ?_ ?_ ?_
    · intro x hx
      rw [← hlen]
      exact hinv.known x hx
    · intro i hi
      rw [← hlen] at hi
      obtain ⟨job, hj⟩ : ∃ job, (jobsOf o ((Mentioned files).map fun f => (f, outs f)))[i]? = some job :=
        ⟨_, List.getElem?_eq_getElem hi⟩
      exact records_cases (hinv.each i job hj) fun hr => jobsResult_ok hr i hi
    · split
      · rename_i hr
        exact .inr ⟨hr, linesFor_map hl _⟩
      · rename_i hr
        exact .inl ⟨hr, rfl⟩

/-- **C108** What `sigstore sign` writes, under every schedule of its threads and whatever happens. -/
theorem C108_sign_report (libs : SignLibs) (o : SignOracle) (trust : TrustArgs) (ident : IdentityArgs) (args : SignArgs)
    (s : SignState) :
    ∃ r s' before records after, signMainSaid libs o trust ident args s = (r, s', before, records, after) ∧
      SignReport libs o s.world.keys args.files (SignLines args) r before records after := by
  unfold signMainSaid
  cases hm : signOutputs libs.disk args s.disk with
  | mk r d =>
    cases r with
    | error e => exact ⟨_, _, _, _, _, rfl, .early⟩
    | ok map =>
      dsimp only
      rw [signOutputs_eq hm]
      exact signCommon_report libs o trust ident args.files (signOutputsFor args) (SignLines args) (writtenSaid_sign args) none
        { s with disk := d }

/-- **C108** The same for `sigstore attest`. -/
theorem C108_attest_report (libs : SignLibs) (o : SignOracle) (trust : TrustArgs) (ident : IdentityArgs) (args : AttestArgs)
    (s : SignState) :
    ∃ r s' before records after, attestMainSaid libs o trust ident args s = (r, s', before, records, after) ∧
      SignReport libs o s.world.keys args.files (AttestLines args) r before records after := by
  unfold attestMainSaid
  cases hp : readPredicate libs.disk libs.loads args s.disk with
  | error e => exact ⟨_, _, _, _, _, rfl, .early⟩
  | ok json =>
    dsimp only
    cases hm : attestOutputsLoop libs.disk args s.disk [] args.files with
    | error e => exact ⟨_, _, _, _, _, rfl, .early⟩
    | ok map =>
      dsimp only
      rw [attestOutputs_eq hm]
      exact signCommon_report libs o trust ident args.files (attestOutputsFor args) (AttestLines args) (writtenSaid_attest args)
        (some (args.predicateType, json)) s

/-! ## After success -/

/-- a thread that is done: its outputs hold the bundle that its record is about -/
def DoneRecords (je : JobEnv) (k : Nat) (cert : Cert) (d₀ d : Disk) (job : Job) (records : List Said) : JobPc → Prop
  | .done => ∃ b, JobInv je k cert d₀ d job (.emit b []) ∧ records = [entrySaid b]
  | _ => True

theorem jobStep_done {je : JobEnv} {jobs : List Job} {st : JobsState} {i : Nat} {job : Job} (hj : jobs[i]? = some job)
    (h : (jobStep je jobs st i).pcs i = .done) :
    jobSaid je jobs st i = [] ∧ (jobStep je jobs st i).disk = st.disk ∧ (st.pcs i = .done ∨ ∃ b, st.pcs i = .emit b []) := by
  revert h
  unfold jobStep jobSaid
  rw [hj]
  dsimp only
  cases hpc : st.pcs i with
  | start =>
    dsimp only
    cases hr : je.disk.read st.disk job.file with
    | error e => dsimp only; rw [goto_self]; exact nofun
    | ok c => dsimp only; rw [goto_self]; exact nofun
  | hashed d =>
    dsimp only
    cases hc : callFor je job.file d with
    | error e => dsimp only; rw [goto_self]; exact nofun
    | ok call =>
      dsimp only
      cases hs : je.signer.sign je.env je.ctx je.kp job.answers st.world call with
      | mk r w =>
        cases r with
        | error e => dsimp only; rw [goto_self]; exact nofun
        | ok b => dsimp only; rw [goto_self]; exact nofun
  | emit b todo =>
    cases todo with
    | nil => exact fun _ => ⟨rfl, rfl, .inr ⟨b, rfl⟩⟩
    | cons x todo =>
      dsimp only
      cases hd : outputData je job.certAnswers b st.world x with
      | mk r w =>
        cases r with
        | error e => dsimp only; rw [goto_self]; exact nofun
        | ok data =>
          dsimp only
          cases ho : je.disk.openW st.disk x.path with
          | error e => dsimp only; rw [goto_self]; exact nofun
          | ok d => dsimp only; rw [goto_self]; exact nofun
  | writing b p data n todo =>
    dsimp only
    split
    case isFalse => rw [goto_self]; exact nofun
    cases hn : data[n]? with
    | none => dsimp only; rw [goto_self]; exact nofun
    | some byte => dsimp only; rw [goto_self]; exact nofun
  | done => exact fun _ => ⟨rfl, rfl, .inl rfl⟩
  | failed e => dsimp only; rw [hpc]; exact nofun

theorem runJobs_done (je : JobEnv) (k : Nat) (cert : Cert) (hs : je.signer = ⟨some k, some cert⟩) (d₀ : Disk)
    (jobs : List Job) (sep : Separate je jobs) : ∀ (schedule : List Nat) (st : JobsState) (records : List (Nat × Said)),
    JobsInv je k cert d₀ jobs st → RecordsInv je jobs st records →
    (∀ i job, jobs[i]? = some job → DoneRecords je k cert d₀ st.disk job (RecordsOf i records) (st.pcs i)) →
    ∀ i job, jobs[i]? = some job → DoneRecords je k cert d₀ (runJobs je jobs st schedule).disk job
      (RecordsOf i (records ++ runJobsSaid je jobs st schedule)) ((runJobs je jobs st schedule).pcs i) := by
  intro schedule
  induction schedule with
  | nil => intro st records _ _ h; rw [runJobsSaid, List.append_nil]; exact h
  | cons i schedule ih =>
    intro st records h1 h2 h3
    have := ih _ _ (jobStep_inv je k cert hs d₀ jobs sep st h1 i) (jobStep_records je jobs st i records h2) (by
      intro j jb hjb
      rw [recordsOf_append]
      cases hj : jobs[i]? with
      | none =>
        have hij : j ≠ i := by rintro rfl; rw [hj] at hjb; cases hjb
        rw [recordsOf_other hij, List.append_nil, jobStep_none _ _ _ _ hj]
        exact h3 j jb hjb
      | some job =>
        by_cases hij : j = i
        · subst hij
          rw [hj] at hjb
          cases hjb
          cases hpc : (jobStep je jobs st j).pcs j with
          | done =>
            obtain ⟨g1, g2, g3⟩ := jobStep_done hj hpc
            rw [g1, List.map_nil, show RecordsOf j [] = [] from rfl, List.append_nil, g2]
            rcases g3 with g3 | ⟨b, g3⟩
            · have := h3 j jb hj
              rw [g3] at this
              exact this
            · have k1 := h1.each j jb hj
              have k2 := h2.each j jb hj
              rw [g3] at k1 k2
              exact ⟨b, k1, k2.1⟩
          | _ => trivial
        · obtain ⟨_, f2, _⟩ := jobStep_frame je jobs st i job hj (jobInv_within (h1.each i job hj))
          rw [recordsOf_other hij, List.append_nil, jobStep_other je jobs st hij]
          have := h3 j jb hjb
          cases hpc : st.pcs j with
          | done =>
            rw [hpc] at this
            obtain ⟨b, k1, k2⟩ := this
            refine ⟨b, jobInv_congr ?_ k1, k2⟩
            intro x hx
            exact f2 _ fun y hy => sep.across i j job jb hj hjb (Ne.symm hij) y hy x hx
          | _ => trivial)
    rw [List.append_assoc] at this
    exact this

theorem signCommon_announced (libs : SignLibs) (o : SignOracle) (trust : TrustArgs) (ident : IdentityArgs) (files : List Path)
    (outs : Path → SigningOutputs) (predicate : Option (Str × Dict Str Json)) (s : SignState)
    (hm : MapApart libs.disk ((Mentioned files).map fun f => (f, outs f)))
    {s' : SignState} {before after : List Said} {records : List (Nat × Said)}
    (h : signCommonSaid libs o trust ident ((Mentioned files).map fun f => (f, outs f)) predicate s =
      (some (.ok ()), s', before, records, after)) :
    ∃ cert, before = [CertificateHeader, .out (pemText cert.der)] ∧
      after = ((Mentioned files).map fun f => (f, outs f)).flatMap (fun p => writtenSaid p.2) ∧
      ∀ i f, (Mentioned files)[i]? = some f → ∃ content b, s.disk (libs.disk.resolve f) = some (.file content) ∧
        BundleOf libs.env.crypto libs.kp libs.codec s.world.keys cert predicate f.name content b ∧
        (∀ x ∈ (outs f).list, OutputHolds libs cert s'.disk b x) ∧ RecordsOf i records = [EntryRecord b.entry.logIndex] := by
  have hd := signPrepare_disk libs o trust ident s
  rw [signPrepareSaid_refines] at hd
  unfold signCommonSaid at h
  rcases signPrepareSaid_cases libs o trust ident s with ⟨e, t, hp⟩ | ⟨t, token, cert, chain, hp, h1, h2⟩ |
      ⟨ctx, t, token, cert, chain, hp, h1, h2⟩
  · rw [hp] at h
    cases h
  · rw [hp] at h
    cases h
  · rw [hp] at h hd
    dsimp only at h hd
    rw [Prod.mk.injEq, Prod.mk.injEq, Prod.mk.injEq, Prod.mk.injEq] at h
    obtain ⟨g1, rfl, rfl, rfl, g5⟩ := h
    rw [g1] at g5
    dsimp only at g5
    refine ⟨cert, rfl, g5.symm, ?_⟩
    have sep := separate_of_apart (je := jobEnv libs ctx ⟨some s.world.keys, some cert⟩ predicate) (o := o) hm
    have hdone := runJobs_done (jobEnv libs ctx ⟨some s.world.keys, some cert⟩ predicate) s.world.keys cert rfl t.disk
      (jobsOf o ((Mentioned files).map fun f => (f, outs f))) sep o.schedule (jobsStart t) []
      ⟨fun _ _ _ => trivial, fun _ _ => rfl⟩ ⟨fun _ _ _ => rfl, fun x hx => by cases hx⟩ (fun _ _ _ => trivial)
    intro i f hf
    have hjob : (jobsOf o ((Mentioned files).map fun f => (f, outs f)))[i]? =
        some ⟨f, outs f, (o.perFile f).1, (o.perFile f).2⟩ := by
      unfold jobsOf
      rw [List.getElem?_map, List.getElem?_map, hf]
      rfl
    have hj := hdone i _ hjob
    rw [jobsResult_ok g1 i (List.getElem?_eq_some_iff.1 hjob).1, List.nil_append] at hj
    obtain ⟨b, ⟨⟨c, hc, hb, _⟩, pre, hpre, hh⟩, hr⟩ := hj
    rw [List.append_nil] at hpre
    dsimp only at hpre
    refine ⟨c, b, ?_, hb, ?_, hr⟩
    · rw [← hd]; exact hc.2
    · intro x hx
      have := hh x (hpre ▸ hx)
      cases x <;> exact this

/-- **C108** If `sigstore sign` succeeds, its outputs lead to different places and none leads to an input (implied without
`--overwrite`), then all that it announced is true at the end: it printed the certificate of every bundle, the lines name exactly the outputs, which hold the
bundle, signature and certificate for the content the input had at the start, and the record of the file's thread tells the log
index of the entry in this bundle.  Missing compared with the property: the two conditions; without the first an announced bundle
may be lost (`C108_announced_lost`). -/
theorem C108_sign_announced_partial (libs : SignLibs) (o : SignOracle) (trust : TrustArgs) (ident : IdentityArgs) (args : SignArgs)
    (s s' : SignState) (before after : List Said) (records : List (Nat × Said)) (ha : SignOutputsApart libs.disk args)
    (hi : args.overwrite = false ∨ SignInputsApart libs.disk args)
    (h : signMainSaid libs o trust ident args s = (some (.ok ()), s', before, records, after)) :
    ∃ cert, before = [CertificateHeader, .out (pemText cert.der)] ∧ LinesFor (SignLines args) (Mentioned args.files) after ∧
      ∀ i f, (Mentioned args.files)[i]? = some f → ∃ content b, s.disk (libs.disk.resolve f) = some (.file content) ∧
        BundleOf libs.env.crypto libs.kp libs.codec s.world.keys cert none f.name content b ∧
        OutputsHold libs args s'.disk f cert b ∧ RecordsOf i records = [EntryRecord b.entry.logIndex] := by
  unfold signMainSaid at h
  have hd := signOutputs_disk libs.disk args s.disk
  cases hm : signOutputs libs.disk args s.disk with
  | mk r d =>
    rw [hm] at h hd
    cases r with
    | error e => cases h
    | ok map =>
      dsimp only at h hd
      have hi' : SignInputsApart libs.disk args := by
        rcases hi with how | hi
        · intro f hf g hg p hp he
          obtain ⟨_, h2, h3, _⟩ := C42_checks_sound _ _ _ _ _ hm
          obtain ⟨c, hc⟩ := h2 g hg
          have := h3 how f hf p hp
          rw [he, hc] at this
          cases this
        · exact hi
      have hap := signMap_apart (signOutputs_map _ _ _ _ _ hm) ha hi'
      rw [signOutputs_eq hm] at h hap
      obtain ⟨cert, h1, h2, h3⟩ := signCommon_announced libs o trust ident args.files (signOutputsFor args) none { s with disk := d }
        hap h
      refine ⟨cert, h1, ?_, ?_⟩
      · rw [h2]
        exact linesFor_map (writtenSaid_sign args) _
      · intro i f hf
        obtain ⟨content, b, g1, g2, g3, g4⟩ := h3 i f hf
        refine ⟨content, b, hd.file.1 g1, g2, ⟨?_, ?_, ?_⟩, g4⟩
        · intro p hp
          exact g3 (.bundle p) ((mem_outputs _ _).2 (.inr (.inr ⟨p, (signBundlePath_iff args f p).2 hp, rfl⟩)))
        · intro p hp
          exact g3 (.signature p) ((mem_outputs _ _).2 (.inl ⟨p, hp, rfl⟩))
        · intro p hp
          exact g3 (.certificate p) ((mem_outputs _ _).2 (.inr (.inl ⟨p, hp, rfl⟩)))

/-- **C108** The same for `sigstore attest`, with the same conditions missing. -/
theorem C108_attest_announced_partial (libs : SignLibs) (o : SignOracle) (trust : TrustArgs) (ident : IdentityArgs) (args : AttestArgs)
    (s s' : SignState) (before after : List Said) (records : List (Nat × Said))
    (ha : ∀ f ∈ args.files, ∀ g ∈ args.files, f ≠ g → ∀ p q, AttestBundlePath args f p → AttestBundlePath args g q →
      libs.disk.resolve p ≠ libs.disk.resolve q)
    (hi : args.overwrite = false ∨
      ∀ f ∈ args.files, ∀ g ∈ args.files, ∀ p, AttestBundlePath args f p → libs.disk.resolve p ≠ libs.disk.resolve g)
    (h : attestMainSaid libs o trust ident args s = (some (.ok ()), s', before, records, after)) :
    ∃ cert pred, before = [CertificateHeader, .out (pemText cert.der)] ∧
      LinesFor (AttestLines args) (Mentioned args.files) after ∧
      (∃ predicate text, s.disk (libs.disk.resolve args.predicate) = some (.file predicate) ∧
        utf8Decode predicate = some text ∧ libs.loads text = some (.obj pred)) ∧
      ∀ i f, (Mentioned args.files)[i]? = some f → ∃ content b p, s.disk (libs.disk.resolve f) = some (.file content) ∧
        BundleOf libs.env.crypto libs.kp libs.codec s.world.keys cert (some (args.predicateType, pred)) f.name content b ∧
        AttestBundlePath args f p ∧ HoldsBundle libs.disk libs.toJson s'.disk b p ∧
        RecordsOf i records = [EntryRecord b.entry.logIndex] := by
  unfold attestMainSaid at h
  cases hr : readPredicate libs.disk libs.loads args s.disk with
  | error e => rw [hr] at h; cases h
  | ok pred =>
    rw [hr] at h
    dsimp only at h
    cases hl : attestOutputsLoop libs.disk args s.disk [] args.files with
    | error e => rw [hl] at h; cases h
    | ok map =>
      rw [hl] at h
      dsimp only at h
      obtain ⟨hmap, hfile, habs⟩ := attestOutputsLoop_ok _ _ _ _ [] _ _ hl (mapFor_nil _)
      rw [List.nil_append] at hmap
      have hi' : ∀ f ∈ args.files, ∀ g ∈ args.files, ∀ p, AttestBundlePath args f p →
          libs.disk.resolve p ≠ libs.disk.resolve g := by
        rcases hi with ho | hi
        · intro f hf g hg p hp he
          obtain ⟨c, hc⟩ := (isFile_iff _ _ _).1 (hfile g hg)
          have := habs ho f hf
          rw [(attestBundlePath_iff args f p).2 hp, he, hc] at this
          cases this
        · exact hi
      have hap := attestMap_apart hmap ha hi'
      rw [attestOutputs_eq hl] at h hap
      obtain ⟨cert, h1, h2, h3⟩ := signCommon_announced libs o trust ident args.files _ _ s hap h
      obtain ⟨predicate, text, p1, _, p2, p3, _⟩ := (readPredicate_ok_iff _ _ _ _ _).1 hr
      refine ⟨cert, pred, h1, ?_, ⟨predicate, text, p1, p2, p3⟩, ?_⟩
      · rw [h2]
        exact linesFor_map (writtenSaid_attest args) _
      · intro i f hf
        obtain ⟨content, b, g1, g2, g3, g4⟩ := h3 i f hf
        exact ⟨content, b, _, g1, g2, (attestBundlePath_iff args f _).1 rfl,
          g3 (.bundle _) ((mem_outputs _ _).2 (.inr (.inr ⟨_, rfl, rfl⟩))), g4⟩

end Sigstore.Props
