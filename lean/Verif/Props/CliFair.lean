import Verif.Props.CliSignCommands

/-!
# C103: the signing threads end
-/

namespace Sigstore.Props

open Sigstore.Trust Sigstore.Dsse Sigstore.Signing Sigstore.Cli Sigstore.Spec

/-- where a step of a thread leads -/
def NextPc (job : Job) : JobPc → JobPc → Prop
  | .start, pc => (∃ e, pc = .failed e) ∨ ∃ h, pc = .hashed h
  | .hashed _, pc => (∃ e, pc = .failed e) ∨ ∃ b, pc = .emit b job.outputs.list
  | .emit _ [], pc => pc = .done
  | .emit b (o :: todo), pc => (∃ e, pc = .failed e) ∨ ∃ data, pc = .writing b o.path data 0 todo
  | .writing b p data n todo, pc => (∃ e, pc = .failed e) ∨
    (data.length ≤ n ∧ pc = .emit b todo) ∨ (n < data.length ∧ pc = .writing b p data (n + 1) todo)
  | .done, pc => pc = .done
  | .failed e, pc => pc = .failed e

theorem jobStep_next (je : JobEnv) (jobs : List Job) (st : JobsState) (i : Nat) (job : Job) (hj : jobs[i]? = some job) :
    NextPc job (st.pcs i) ((jobStep je jobs st i).pcs i) := by
  unfold jobStep
  rw [hj]
  dsimp only
  cases hpc : st.pcs i with
  | start =>
    dsimp only
    split
    · rw [goto_self]; exact .inl ⟨_, rfl⟩
    · rw [goto_self]; exact .inr ⟨_, rfl⟩
  | hashed h =>
    dsimp only
    split
    · rw [goto_self]; exact .inl ⟨_, rfl⟩
    · split
      · rw [goto_self]; exact .inl ⟨_, rfl⟩
      · rw [goto_self]; exact .inr ⟨_, rfl⟩
  | emit b todo =>
    cases todo with
    | nil => dsimp only; rw [goto_self]; rfl
    | cons o todo =>
      dsimp only
      split
      · rw [goto_self]; exact .inl ⟨_, rfl⟩
      · split
        · rw [goto_self]; exact .inl ⟨_, rfl⟩
        · rw [goto_self]; exact .inr ⟨_, rfl⟩
  | writing b p data n todo =>
    dsimp only
    split
    case isFalse => rw [goto_self]; exact .inl ⟨_, rfl⟩
    cases hn : data[n]? with
    | none => dsimp only; rw [goto_self]; exact .inr (.inl ⟨List.getElem?_eq_none_iff.1 hn, rfl⟩)
    | some x => dsimp only; rw [goto_self]; exact .inr (.inr ⟨(List.getElem?_eq_some_iff.1 hn).1, rfl⟩)
  | done => exact hpc
  | failed e => exact hpc

/-- a step of one thread does not move the others -/
theorem jobStep_others (je : JobEnv) (jobs : List Job) (st : JobsState) {i k : Nat} (hk : k ≠ i) :
    (jobStep je jobs st i).pcs k = st.pcs k := by
  unfold jobStep
  split
  · rfl
  · split
    · split <;> exact goto_other _ _ hk
    · split
      · exact goto_other _ _ hk
      · split <;> exact goto_other _ _ hk
    · exact goto_other _ _ hk
    · split
      · exact goto_other _ _ hk
      · split <;> exact goto_other _ _ hk
    · split
      · split <;> exact goto_other _ _ hk
      · exact goto_other _ _ hk
    · rfl
    · rfl

/-- an ended thread does nothing -/
theorem jobStep_ended (je : JobEnv) (jobs : List Job) (st : JobsState) (i : Nat) (h : (st.pcs i).ended = true) :
    jobStep je jobs st i = st := by
  unfold jobStep
  split
  · rfl
  · cases hpc : st.pcs i with
    | done => rfl
    | failed e => rfl
    | _ => rw [hpc] at h; cases h

section Fair

variable (je : JobEnv) (jobs : List Job) (st : JobsState) (σ : Nat → Nat)

/-- the state after `t` steps -/
def after (t : Nat) : JobsState := runJobs je jobs st ((List.range t).map σ)

theorem after_succ (t : Nat) : after je jobs st σ (t + 1) = jobStep je jobs (after je jobs st σ t) (σ t) := by
  unfold after runJobs
  rw [List.range_succ, List.map_append, List.foldl_append]
  rfl

/-- thread `i` gets its next turn -/
theorem next_turn {i : Nat} (hfair : ∀ t, ∃ t', t ≤ t' ∧ σ t' = i) (t : Nat) :
    ∃ t', t ≤ t' ∧ σ t' = i ∧ (after je jobs st σ t').pcs i = (after je jobs st σ t).pcs i := by
  obtain ⟨t₂, h1, h2⟩ := hfair t
  obtain ⟨n, rfl⟩ := Nat.exists_eq_add_of_le h1
  clear h1
  induction n generalizing t with
  | zero => exact ⟨t, le_refl _, h2, rfl⟩
  | succ n ih =>
    by_cases ht : σ t = i
    · exact ⟨t, le_refl _, ht, rfl⟩
    · obtain ⟨t', k1, k2, k3⟩ := ih (t + 1) (by rw [← h2]; congr 1; omega)
      refine ⟨t', by omega, k2, ?_⟩
      rw [k3, after_succ, jobStep_others je jobs _ (Ne.symm ht)]

/-- thread `i` makes its next step -/
theorem next_step {i : Nat} {job : Job} (hj : jobs[i]? = some job) (hfair : ∀ t, ∃ t', t ≤ t' ∧ σ t' = i) (t : Nat) :
    ∃ t', t < t' ∧ NextPc job ((after je jobs st σ t).pcs i) ((after je jobs st σ t').pcs i) := by
  obtain ⟨t', h1, h2, h3⟩ := next_turn je jobs st σ hfair t
  refine ⟨t' + 1, by omega, ?_⟩
  rw [after_succ, h2, ← h3]
  exact jobStep_next je jobs _ i job hj

/-- thread `i` ends -/
theorem thread_ends {i : Nat} {job : Job} (hj : jobs[i]? = some job) (hfair : ∀ t, ∃ t', t ≤ t' ∧ σ t' = i) :
    ∃ t, ((after je jobs st σ t).pcs i).ended = true := by
  have hwriting : ∀ (m : Nat) (t : Nat) b p data n todo, data.length - n = m →
      (after je jobs st σ t).pcs i = .writing b p data n todo →
        ∃ t', ((after je jobs st σ t').pcs i).ended = true ∨ (after je jobs st σ t').pcs i = .emit b todo := by
    intro m
    induction m with
    | zero =>
      intro t b p data n todo hm hpc
      obtain ⟨t', _, hn⟩ := next_step je jobs st σ hj hfair t
      rw [hpc] at hn
      rcases hn with ⟨e, hn⟩ | ⟨_, hn⟩ | ⟨h, _⟩
      · exact ⟨t', .inl (by rw [hn]; rfl)⟩
      · exact ⟨t', .inr hn⟩
      · omega
    | succ m ih =>
      intro t b p data n todo hm hpc
      obtain ⟨t', _, hn⟩ := next_step je jobs st σ hj hfair t
      rw [hpc] at hn
      rcases hn with ⟨e, hn⟩ | ⟨h, _⟩ | ⟨_, hn⟩
      · exact ⟨t', .inl (by rw [hn]; rfl)⟩
      · omega
      · exact ih t' b p data (n + 1) todo (by omega) hn
  have hemit : ∀ (todo : List Output) (t : Nat) b, (after je jobs st σ t).pcs i = .emit b todo →
      ∃ t', ((after je jobs st σ t').pcs i).ended = true := by
    intro todo
    induction todo with
    | nil =>
      intro t b hpc
      obtain ⟨t', _, hn⟩ := next_step je jobs st σ hj hfair t
      rw [hpc] at hn
      exact ⟨t', by rw [show (after je jobs st σ t').pcs i = .done from hn]; rfl⟩
    | cons o todo ih =>
      intro t b hpc
      obtain ⟨t', _, hn⟩ := next_step je jobs st σ hj hfair t
      rw [hpc] at hn
      rcases hn with ⟨e, hn⟩ | ⟨data, hn⟩
      · exact ⟨t', by rw [hn]; rfl⟩
      · obtain ⟨t₂, h2 | h2⟩ := hwriting _ t' b o.path data 0 todo rfl hn
        · exact ⟨t₂, h2⟩
        · exact ih t₂ b h2
  have hhashed : ∀ t h, (after je jobs st σ t).pcs i = .hashed h → ∃ t', ((after je jobs st σ t').pcs i).ended = true := by
    intro t h hpc
    obtain ⟨t', _, hn⟩ := next_step je jobs st σ hj hfair t
    rw [hpc] at hn
    rcases hn with ⟨e, hn⟩ | ⟨b, hn⟩
    · exact ⟨t', by rw [hn]; rfl⟩
    · exact hemit _ t' b hn
  cases hpc : (after je jobs st σ 0).pcs i with
  | start =>
    obtain ⟨t', _, hn⟩ := next_step je jobs st σ hj hfair 0
    rw [hpc] at hn
    rcases hn with ⟨e, hn⟩ | ⟨h, hn⟩
    · exact ⟨t', by rw [hn]; rfl⟩
    · exact hhashed t' h hn
  | hashed h => exact hhashed 0 h hpc
  | emit b todo => exact hemit todo 0 b hpc
  | writing b p data n todo =>
    obtain ⟨t₂, h2 | h2⟩ := hwriting _ 0 b p data n todo rfl hpc
    · exact ⟨t₂, h2⟩
    · exact hemit todo t₂ b h2
  | done => exact ⟨0, by rw [hpc]; rfl⟩
  | failed e => exact ⟨0, by rw [hpc]; rfl⟩

theorem ended_stays {i t : Nat} (h : ((after je jobs st σ t).pcs i).ended = true) (n : Nat) :
    ((after je jobs st σ (t + n)).pcs i).ended = true := by
  induction n with
  | zero => exact h
  | succ n ih =>
    rw [← Nat.add_assoc, after_succ]
    by_cases hi : i = σ (t + n)
    · rw [jobStep_ended _ _ _ _ (by rw [← hi]; exact ih)]; exact ih
    · rw [jobStep_others _ _ _ hi]; exact ih

/-- all threads end, if each gets turns again and again; then nothing happens any more -/
theorem jobs_end (hfair : ∀ i < jobs.length, ∀ t, ∃ t', t ≤ t' ∧ σ t' = i) :
    ∃ N, (∀ i < jobs.length, ((after je jobs st σ N).pcs i).ended = true) ∧ ∀ M, N ≤ M → after je jobs st σ M = after je jobs st σ N := by
  have hall : ∀ n ≤ jobs.length, ∃ N, ∀ i < n, ((after je jobs st σ N).pcs i).ended = true := by
    intro n
    induction n with
    | zero => intro _; exact ⟨0, fun i hi => absurd hi (by omega)⟩
    | succ n ih =>
      intro hn
      obtain ⟨N, hN⟩ := ih (by omega)
      obtain ⟨t, ht⟩ := thread_ends je jobs st σ (i := n) (List.getElem?_eq_getElem (by omega)) (hfair n (by omega))
      refine ⟨N + t, ?_⟩
      intro i hi
      by_cases hin : i < n
      · exact ended_stays je jobs st σ (hN i hin) t
      · obtain rfl : i = n := by omega
        rw [Nat.add_comm]
        exact ended_stays je jobs st σ ht N
  obtain ⟨N, hN⟩ := hall jobs.length (le_refl _)
  refine ⟨N, hN, ?_⟩
  intro M hM
  obtain ⟨n, rfl⟩ := Nat.exists_eq_add_of_le hM
  clear hM
  induction n with
  | zero => rfl
  | succ n ih =>
    rw [← Nat.add_assoc, after_succ, ih]
    cases hj : jobs[σ (N + n)]? with
    | none => exact jobStep_none _ _ _ _ hj
    | some job => exact jobStep_ended _ _ _ _ (hN _ (List.getElem?_eq_some_iff.1 hj).1)

end Fair

theorem jobsResult_ended {jobs : List Job} {order : List Nat} {st : JobsState}
    (h : ∀ i < jobs.length, (st.pcs i).ended = true) : ∃ r, jobsResult jobs order st = some r := by
  unfold jobsResult
  rw [if_pos (List.all_eq_true.2 fun i hi => h i (List.mem_range.1 hi))]
  split
  · exact ⟨_, rfl⟩
  · exact ⟨_, rfl⟩

theorem signCommon_ends (libs : SignLibs) (o : SignOracle) (trust : TrustArgs) (ident : IdentityArgs)
    (map : Dict Path SigningOutputs) (predicate : Option (Str × Dict Str Json)) (s : SignState) (σ : Nat → Nat)
    (hfair : ∀ i < map.length, ∀ t, ∃ t', t ≤ t' ∧ σ t' = i) :
    ∃ N r s', ∀ M, N ≤ M →
      signCommon libs { o with schedule := (List.range M).map σ } trust ident map predicate s = (some r, s') := by
  have hprep : ∀ sch, signPrepare libs { o with schedule := sch } trust ident s = signPrepare libs o trust ident s := fun _ => rfl
  unfold signCommon
  simp only [hprep]
  cases hp : signPrepare libs o trust ident s with
  | mk r s₁ =>
    cases r with
    | error e => exact ⟨0, _, _, fun _ _ => rfl⟩
    | ok cs =>
      obtain ⟨ctx, signer⟩ := cs
      have hjobs : ∀ sch, jobsOf { o with schedule := sch } map = jobsOf o map := fun _ => rfl
      simp only [hjobs]
      obtain ⟨N, h1, h2⟩ := jobs_end (jobEnv libs ctx signer predicate) (jobsOf o map) (jobsStart s₁) σ (by
        intro i hi
        refine hfair i ?_
        rw [jobsOf, List.length_map] at hi
        exact hi)
      obtain ⟨r, hr⟩ := jobsResult_ended (order := o.order) h1
      refine ⟨N, r, { s₁ with
        world := (after (jobEnv libs ctx signer predicate) (jobsOf o map) (jobsStart s₁) σ N).world,
        disk := (after (jobEnv libs ctx signer predicate) (jobsOf o map) (jobsStart s₁) σ N).disk }, fun M hM => ?_⟩
      have := h2 M hM
      unfold after at this hr ⊢
      rw [this, hr]

/-- every one of the first `n` threads gets turns again and again -/
def FairFor (n : Nat) (σ : Nat → Nat) : Prop := ∀ i < n, ∀ t, ∃ t', t ≤ t' ∧ σ t' = i

theorem mapFor_length {files : List Path} {outs : Path → SigningOutputs} {map : Dict Path SigningOutputs}
    (h : MapFor files outs map) : map.length ≤ files.length := by
  have := (List.subperm_of_subset h.1 fun f hf => (h.2.1 f).1 hf).length_le
  rwa [Dict.keys, List.length_map] at this

/-- **C103** `sign` ends: whatever the services answer, if every thread gets turns again and again, then after finitely many
steps the command has a result, and nothing happens afterwards. -/
theorem C103_sign_ends (libs : SignLibs) (o : SignOracle) (trust : TrustArgs) (ident : IdentityArgs) (args : SignArgs)
    (s : SignState) (σ : Nat → Nat) (hfair : FairFor args.files.length σ) :
    ∃ N r s', ∀ M, N ≤ M → signMain libs { o with schedule := (List.range M).map σ } trust ident args s = (some r, s') := by
  unfold signMain
  cases hm : signOutputs libs.disk args s.disk with
  | mk r d =>
    cases r with
    | error e => exact ⟨0, _, _, fun _ _ => rfl⟩
    | ok map =>
      have := mapFor_length (signOutputs_map _ _ _ _ _ hm)
      exact signCommon_ends libs o trust ident map none { s with disk := d } σ fun i hi => hfair i (by omega)

/-- **C103** The same for `attest`. -/
theorem C103_attest_ends (libs : SignLibs) (o : SignOracle) (trust : TrustArgs) (ident : IdentityArgs) (args : AttestArgs)
    (s : SignState) (σ : Nat → Nat) (hfair : FairFor args.files.length σ) :
    ∃ N r s', ∀ M, N ≤ M → attestMain libs { o with schedule := (List.range M).map σ } trust ident args s = (some r, s') := by
  unfold attestMain
  cases readPredicate libs.disk libs.loads args s.disk with
  | error e => exact ⟨0, _, _, fun _ _ => rfl⟩
  | ok json =>
    dsimp only
    cases hm : attestOutputsLoop libs.disk args s.disk [] args.files with
    | error e => exact ⟨0, _, _, fun _ _ => rfl⟩
    | ok map =>
      obtain ⟨hmap, _⟩ := attestOutputsLoop_ok _ _ _ _ [] _ _ hm (mapFor_nil _)
      have := mapFor_length hmap
      exact signCommon_ends libs o trust ident map _ s σ fun i hi => hfair i (by rw [List.nil_append] at this; omega)

end Sigstore.Props
