import Verif.Spec.SharedDisk
import Verif.Props.CliSignExamples

/-!
# C129: `sigstore sign` next to other programs
-/

namespace Sigstore.Props

open Sigstore.Trust Sigstore.Dsse Sigstore.Signing Sigstore.Cli Sigstore.Spec

/-! ## Without others -/

theorem runShared_alone (je : JobEnv) (jobs : List Job) : ∀ (schedule : List Nat) (st : JobsState),
    (Shared.runShared je jobs st (schedule.map .step)).1 = runJobs je jobs st schedule
  | [], _ => rfl
  | i :: schedule, st => runShared_alone je jobs schedule (jobStep je jobs st i)

theorem loop_alone (e : DiskEnv) (args : SignArgs) {m : Nat → Disk → Disk} (hm : ∀ n d, m n d = d) :
    ∀ (files : List Path) (map : Dict Path SigningOutputs) (n : Nat) (d : Disk),
    Shared.signOutputsLoop e args m map n files d = signOutputsLoop e args map files d
  | [], _, _, _ => rfl
  | f :: files, map, n, d => by
    unfold Shared.signOutputsLoop signOutputsLoop
    rw [hm]
    rcases signOutputsOne e args f d with ⟨_ | o, d'⟩
    · rfl
    · exact loop_alone e args hm files _ _ _

/-- **C129**: if others do nothing, it is the command of the other theorems. -/
theorem C129_alone (libs : SignLibs) (o : SignOracle) (others : Shared.Others) (trust : TrustArgs) (ident : IdentityArgs) (args : SignArgs)
    (s : SignState) (h : Alone others o.schedule) :
    ((Shared.signMain libs o others trust ident args s).1, (Shared.signMain libs o others trust ident args s).2.1) =
      signMain libs o trust ident args s := by
  unfold Shared.signMain signMain Shared.signOutputs signOutputs
  rw [loop_alone _ _ h.beforeCheck]
  by_cases hc : signConflict args = true
  · rw [if_pos hc]
  · rw [if_neg hc]
    rcases signOutputsLoop libs.disk args [] args.files s.disk with ⟨_ | map, d⟩
    · rfl
    · dsimp only
      rw [h.afterChecks]
      unfold Shared.signCommon signCommon
      rcases signPrepare libs o trust ident { s with disk := d } with ⟨_ | ⟨ctx, signer⟩, s'⟩
      · rfl
      · dsimp only
        rw [h.events, runShared_alone]

/-! ## The threads -/

theorem runShared_head (je : JobEnv) (jobs : List Job) (st : JobsState) (events : List Shared.Event) :
    st.disk ∈ (Shared.runShared je jobs st events).2 := by
  cases events <;> simp [Shared.runShared]

/-- threads change files only at the outputs of the jobs -/
theorem runShared_frame (je : JobEnv) (jobs : List Job) (l : Path)
    (hl : ∀ job ∈ jobs, ∀ o ∈ job.outputs.list, je.disk.resolve o.path ≠ l) :
    ∀ (events : List Shared.Event) (st : JobsState), (∀ f, Shared.Event.others f ∈ events → ∀ d, f d l = d l) → Within jobs st →
      (Shared.runShared je jobs st events).1.disk l = st.disk l
  | [], _, _, _ => rfl
  | .step i :: events, st, hf, h => by
    show (Shared.runShared je jobs (jobStep je jobs st i) events).1.disk l = _
    rw [runShared_frame je jobs l hl events _ (fun f hm => hf f (List.mem_cons_of_mem _ hm)) (jobStep_within _ _ _ _ h)]
    cases hj : jobs[i]? with
    | none => rw [jobStep_none _ _ _ _ hj]
    | some job => exact (jobStep_frame je jobs st i job hj (h i job hj)).2.1 l (hl job (List.mem_of_getElem? hj))
  | .others f :: events, st, hf, h => by
    show (Shared.runShared je jobs { st with disk := f st.disk } events).1.disk l = _
    rw [runShared_frame je jobs l hl events { st with disk := f st.disk } (fun f hm => hf f (List.mem_cons_of_mem _ hm)) h]
    exact hf f List.mem_cons_self _

/-- every thread has signed what its input was at some moment, and has written it -/
def SharedInv (je : JobEnv) (k : Nat) (cert : Cert) (moments : List Disk) (jobs : List Job) (st : JobsState) : Prop :=
  ∀ i job, jobs[i]? = some job → st.pcs i = .start ∨ ∃ d₀ ∈ moments, JobInv je k cert d₀ st.disk job (st.pcs i)

theorem SharedInv.within {je : JobEnv} {k : Nat} {cert : Cert} {moments : List Disk} {jobs : List Job} {st : JobsState}
    (h : SharedInv je k cert moments jobs st) {i : Nat} {job : Job} (hj : jobs[i]? = some job) : PcWithin job (st.pcs i) := by
  rcases h i job hj with h | ⟨_, _, h⟩
  · rw [h]
    trivial
  · exact jobInv_within h

theorem shared_step (je : JobEnv) (k : Nat) (cert : Cert) (hs : je.signer = ⟨some k, some cert⟩) (moments : List Disk)
    (jobs : List Job) (hw : ∀ job ∈ jobs, (job.outputs.list.map fun x => je.disk.resolve x.path).Nodup)
    (ha : ∀ (i j : Nat) (a b : Job), jobs[i]? = some a → jobs[j]? = some b → i ≠ j →
      ∀ x ∈ a.outputs.list, ∀ y ∈ b.outputs.list, je.disk.resolve x.path ≠ je.disk.resolve y.path)
    (st : JobsState) (hm : st.disk ∈ moments) (inv : SharedInv je k cert moments jobs st) (i : Nat) :
    SharedInv je k cert moments jobs (jobStep je jobs st i) := by
  cases hj : jobs[i]? with
  | none => rw [jobStep_none _ _ _ _ hj]; exact inv
  | some job =>
    obtain ⟨f1, f2, _⟩ := jobStep_frame je jobs st i job hj (inv.within hj)
    intro j jb hjb
    by_cases hij : j = i
    · subst hij
      rw [hj] at hjb
      cases hjb
      right
      rcases inv j job hj with h | ⟨d₀, hd, h⟩
      · exact ⟨st.disk, hm, jobStep_self je k cert hs st.disk jobs st j job hj (hw job (List.mem_of_getElem? hj))
          (by rw [h]; trivial) fun _ => rfl⟩
      · by_cases hp : st.pcs j = .start
        · exact ⟨st.disk, hm, jobStep_self je k cert hs st.disk jobs st j job hj (hw job (List.mem_of_getElem? hj))
            (by rw [hp]; trivial) fun _ => rfl⟩
        · exact ⟨d₀, hd, jobStep_self je k cert hs d₀ jobs st j job hj (hw job (List.mem_of_getElem? hj)) h fun h => absurd h hp⟩
    · rw [f1 j hij]
      rcases inv j jb hjb with h | ⟨d₀, hd, h⟩
      · exact .inl h
      · refine .inr ⟨d₀, hd, jobInv_congr ?_ h⟩
        intro x hx
        exact f2 _ fun y hy => ha i j job jb hj hjb (Ne.symm hij) y hy x hx

theorem SharedInv.mono {je : JobEnv} {k : Nat} {cert : Cert} {m m' : List Disk} {jobs : List Job} {st : JobsState}
    (h : SharedInv je k cert m jobs st) (hm : ∀ d ∈ m, d ∈ m') : SharedInv je k cert m' jobs st := by
  intro i job hj
  rcases h i job hj with h | ⟨d, hd, h⟩
  · exact .inl h
  · exact .inr ⟨d, hm d hd, h⟩

theorem shared_inv (je : JobEnv) (k : Nat) (cert : Cert) (hs : je.signer = ⟨some k, some cert⟩)
    (jobs : List Job) (hw : ∀ job ∈ jobs, (job.outputs.list.map fun x => je.disk.resolve x.path).Nodup)
    (ha : ∀ (i j : Nat) (a b : Job), jobs[i]? = some a → jobs[j]? = some b → i ≠ j →
      ∀ x ∈ a.outputs.list, ∀ y ∈ b.outputs.list, je.disk.resolve x.path ≠ je.disk.resolve y.path) :
    ∀ (events : List Shared.Event) (st : JobsState) (moments : List Disk),
      (∀ f, Shared.Event.others f ∈ events → ∀ job ∈ jobs, ∀ x ∈ job.outputs.list, ∀ d,
        f d (je.disk.resolve x.path) = d (je.disk.resolve x.path)) →
      SharedInv je k cert moments jobs st →
      SharedInv je k cert (moments ++ (Shared.runShared je jobs st events).2) jobs (Shared.runShared je jobs st events).1
  | [], st, moments, _, inv => inv.mono fun d hd => List.mem_append_left _ hd
  | .step i :: events, st, moments, hf, inv => by
    have h1 := shared_step je k cert hs (moments ++ [st.disk]) jobs hw ha st (by simp)
      (inv.mono fun d hd => List.mem_append_left _ hd) i
    have h2 := shared_inv je k cert hs jobs hw ha events _ _ (fun f hm => hf f (List.mem_cons_of_mem _ hm)) h1
    refine SharedInv.mono h2 ?_
    intro d hd
    show d ∈ moments ++ st.disk :: (Shared.runShared je jobs (jobStep je jobs st i) events).2
    simpa [or_assoc] using hd
  | .others f :: events, st, moments, hf, inv => by
    have h1 : SharedInv je k cert (moments ++ [st.disk]) jobs { st with disk := f st.disk } := by
      intro j jb hjb
      rcases inv j jb hjb with h | ⟨d₀, hd, h⟩
      · exact .inl h
      · exact .inr ⟨d₀, List.mem_append_left _ hd,
          jobInv_congr (fun x hx => hf f List.mem_cons_self jb (List.mem_of_getElem? hjb) x hx _) h⟩
    have h2 := shared_inv je k cert hs jobs hw ha events _ _ (fun f hm => hf f (List.mem_cons_of_mem _ hm)) h1
    refine SharedInv.mono h2 ?_
    intro d hd
    show d ∈ moments ++ st.disk :: (Shared.runShared je jobs { st with disk := f st.disk } events).2
    simpa [or_assoc] using hd

/-! ## The checks -/

theorem sharedLoop_ok (e : DiskEnv) (args : SignArgs) (m : Nat → Disk → Disk) : ∀ (files done : List Path)
    (map map' : Dict Path SigningOutputs) (n : Nat) (d d' : Disk),
    Shared.signOutputsLoop e args m map n files d = (.ok map', d') → MapFor done (signOutputsFor args) map →
    MapFor (done ++ files) (signOutputsFor args) map' := by
  intro files
  induction files with
  | nil =>
    intro done map map' n d d' h hm
    rw [Shared.signOutputsLoop] at h
    cases h
    simpa using hm
  | cons f files ih =>
    intro done map map' n d d' h hm
    rw [Shared.signOutputsLoop] at h
    cases hf : signOutputsOne e args f (m n d) with
    | mk r d₁ =>
      rw [hf] at h
      cases r with
      | error x => cases h
      | ok o =>
        dsimp only at h
        obtain ⟨_, rfl, _⟩ := signOutputsOne_ok e args f _ d₁ o hf
        simpa using ih (done ++ [f]) _ _ _ _ _ h (mapFor_set hm f)

theorem sharedOutputs_map {e : DiskEnv} {args : SignArgs} {m : Nat → Disk → Disk} {d d' : Disk} {map : Dict Path SigningOutputs}
    (h : Shared.signOutputs e args m d = (.ok map, d')) : MapFor args.files (signOutputsFor args) map := by
  unfold Shared.signOutputs at h
  split at h
  · cases h
  · simpa using sharedLoop_ok e args m args.files [] [] map 0 d d' h (mapFor_nil _)

/-- what others leave alone is as before the checks, or a directory was made; without `--overwrite` no output was there -/
theorem sharedLoop_at (e : DiskEnv) (args : SignArgs) (m : Nat → Disk → Disk) (l : Path) (hm : ∀ n d, m n d l = d l) :
    ∀ (files : List Path) (map : Dict Path SigningOutputs) (n : Nat) (d : Disk),
    ((Shared.signOutputsLoop e args m map n files d).2 l = d l ∨
      (d l = none ∧ (Shared.signOutputsLoop e args m map n files d).2 l = some .dir)) ∧
    (args.overwrite = false → (∃ map', (Shared.signOutputsLoop e args m map n files d).1 = .ok map') →
      ∀ f ∈ files, ∀ p, SignOutput args f p → e.resolve p = l → d l = none)
  | [], _, _, _ => ⟨.inl rfl, by simp⟩
  | f :: files, map, n, d => by
    unfold Shared.signOutputsLoop
    have h1 := signOutputsOne_disk e args f (m n d) l
    rw [hm] at h1
    cases hf : signOutputsOne e args f (m n d) with
    | mk r d₁ =>
      rw [hf] at h1
      cases r with
      | error x => exact ⟨h1, fun _ ⟨_, h⟩ => (by cases h)⟩
      | ok o =>
        dsimp only at h1 ⊢
        obtain ⟨_, _, g3, _⟩ := signOutputsOne_ok e args f _ d₁ o hf
        obtain ⟨i1, i2⟩ := sharedLoop_at e args m l hm files (map.set f o) (n + 1) d₁
        have key : d₁ l = none → d l = none := by
          intro hn
          rcases h1 with h1 | ⟨h1, _⟩
          · rw [← h1]
            exact hn
          · exact h1
        refine ⟨?_, ?_⟩
        · rcases i1 with i1 | ⟨i1, i3⟩
          · rw [i1]
            exact h1
          · exact .inr ⟨key i1, i3⟩
        · intro ho hok g hg p hp hl
          rcases List.mem_cons.1 hg with rfl | hg
          · have := g3 ho p hp
            rw [hl, hm] at this
            exact this
          · exact key (i2 ho hok g hg p hp hl)

/-! ## The properties -/

/-- **C129**: also next to other programs, a place that is not that of an output, and that others leave alone, is as before, or a
directory was made where nothing was. -/
theorem C129_only_outputs (libs : SignLibs) (o : SignOracle) (others : Shared.Others) (trust : TrustArgs) (ident : IdentityArgs)
    (args : SignArgs) (s : SignState) (l : Path) (ho : LeaveAlone others l)
    (hl : ∀ f ∈ args.files, ∀ p, SignOutput args f p → libs.disk.resolve p ≠ l) :
    (Shared.signMain libs o others trust ident args s).2.1.disk l = s.disk l ∨
      (s.disk l = none ∧ (Shared.signMain libs o others trust ident args s).2.1.disk l = some .dir) := by
  unfold Shared.signMain
  have hd : ((Shared.signOutputs libs.disk args others.beforeCheck s.disk).2 l = s.disk l ∨
      (s.disk l = none ∧ (Shared.signOutputs libs.disk args others.beforeCheck s.disk).2 l = some .dir)) := by
    unfold Shared.signOutputs
    split
    · exact .inl rfl
    · exact (sharedLoop_at libs.disk args others.beforeCheck l ho.beforeCheck args.files [] 0 s.disk).1
  cases h : Shared.signOutputs libs.disk args others.beforeCheck s.disk with
  | mk r d =>
    rw [h] at hd
    cases r with
    | error e => exact hd
    | ok map =>
      dsimp only at hd ⊢
      obtain ⟨m1, m2, m3⟩ := sharedOutputs_map h
      have key : (Shared.signCommon libs o others.events trust ident map none { s with disk := others.afterChecks d }).2.1.disk l = d l := by
        unfold Shared.signCommon
        have hp := signPrepare_disk libs o trust ident { s with disk := others.afterChecks d }
        rcases hq : signPrepare libs o trust ident { s with disk := others.afterChecks d } with ⟨_ | ⟨ctx, signer⟩, s'⟩
        · rw [hq] at hp
          dsimp only at hp ⊢
          rw [hp]
          exact ho.afterChecks d
        · rw [hq] at hp
          dsimp only at hp ⊢
          rw [runShared_frame _ _ l _ _ _ ho.events (within_start _ _)]
          · show s'.disk l = _
            rw [hp]
            exact ho.afterChecks d
          · intro job hj x hx
            have hmem := mem_jobsOf hj
            have hf : job.file ∈ args.files := (m2 _).1 (List.mem_map.2 ⟨_, hmem, rfl⟩)
            exact hl _ hf x.path ((signOutput_iff args _ x.path).1 ⟨x, by rw [← m3 _ _ hmem]; exact hx, rfl⟩)
      rw [key]
      exact hd

/-- **C129**: also next to other programs, without `--overwrite`, whatever was there before the command and others leave alone stays. -/
theorem C129_keeps_files_partial (libs : SignLibs) (o : SignOracle) (others : Shared.Others) (trust : TrustArgs) (ident : IdentityArgs)
    (args : SignArgs) (s : SignState) (how : args.overwrite = false) (l : Path) (ho : LeaveAlone others l) (n : Node)
    (hn : s.disk l = some n) : (Shared.signMain libs o others trust ident args s).2.1.disk l = some n := by
  by_cases hl : ∀ f ∈ args.files, ∀ p, SignOutput args f p → libs.disk.resolve p ≠ l
  · rcases C129_only_outputs libs o others trust ident args s l ho hl with h | ⟨h, _⟩
    · rw [h, hn]
    · rw [hn] at h
      cases h
  · simp only [not_forall, not_not] at hl
    obtain ⟨f, hf, p, hp, hl⟩ := hl
    unfold Shared.signMain
    cases h : Shared.signOutputs libs.disk args others.beforeCheck s.disk with
    | mk r d =>
      unfold Shared.signOutputs at h
      split at h
      · cases h
        exact hn
      · obtain ⟨h1, h2⟩ := sharedLoop_at libs.disk args others.beforeCheck l ho.beforeCheck args.files [] 0 s.disk
        rw [h] at h1 h2
        cases r with
        | error e =>
          rcases h1 with h1 | ⟨h1, _⟩
          · exact h1.trans hn
          · rw [hn] at h1
            cases h1
        | ok map =>
          have := h2 how ⟨map, rfl⟩ f hf p hp hl
          rw [hn] at this
          cases this

/-- **C129**: next to other programs that leave the outputs alone, a successful `sign` leaves for every input a bundle of what the
input was at one moment while the threads ran, all with one key and a certificate issued for it; also if others (or the outputs
themselves) change the inputs. -/
theorem C129_own_bundle (libs : SignLibs) (o : SignOracle) (others : Shared.Others) (trust : TrustArgs) (ident : IdentityArgs)
    (args : SignArgs) (s : SignState) (ha : SignOutputsApart libs.disk args)
    (hf : ∀ f ∈ args.files, ∀ p, SignOutput args f p → LeaveAlone others (libs.disk.resolve p))
    (h : (Shared.signMain libs o others trust ident args s).1 = some (.ok ())) :
    ∃ token cert, (∃ cfg, signIdentity libs.identity o.now ident cfg = .ok token) ∧
      IssuedFor libs.kp (o.first token) s.world.keys cert ∧
      ∀ f ∈ args.files, ∃ content b,
        (∃ d ∈ (Shared.signMain libs o others trust ident args s).2.2, d (libs.disk.resolve f) = some (.file content)) ∧
        BundleOf libs.env.crypto libs.kp libs.codec s.world.keys cert none f.name content b ∧
        OutputsHold libs args (Shared.signMain libs o others trust ident args s).2.1.disk f cert b := by
  unfold Shared.signMain at h ⊢
  cases hm : Shared.signOutputs libs.disk args others.beforeCheck s.disk with
  | mk r d =>
    rw [hm] at h
    cases r with
    | error e => cases h
    | ok map =>
      dsimp only at h ⊢
      have hmap := sharedOutputs_map hm
      unfold Shared.signCommon at h ⊢
      cases hp : signPrepare libs o trust ident { s with disk := others.afterChecks d } with
      | mk r s' =>
        rw [hp] at h
        cases r with
        | error e => cases h
        | ok cs =>
          obtain ⟨ctx, signer⟩ := cs
          dsimp only at h ⊢
          obtain ⟨token, cert, rfl, hi, hid, w₁, hw⟩ := signPrepare_ok hp
          refine ⟨token, cert, hid, hi, ?_⟩
          have hwithin : ∀ job ∈ jobsOf o map, (job.outputs.list.map fun x => libs.disk.resolve x.path).Nodup := by
            intro job hj
            exact signMap_within hmap ha _ _ (mem_jobsOf hj)
          have hacross : ∀ (i j : Nat) (a b : Job), (jobsOf o map)[i]? = some a → (jobsOf o map)[j]? = some b → i ≠ j →
              ∀ x ∈ a.outputs.list, ∀ y ∈ b.outputs.list, libs.disk.resolve x.path ≠ libs.disk.resolve y.path := by
            intro i j a b ha' hb hij
            have h1 := jobsOf_get ha'
            have h2 := jobsOf_get hb
            refine signMap_across hmap ha _ _ _ _ (List.mem_of_getElem? h1) (List.mem_of_getElem? h2) ?_
            intro hfe
            have hi : map.keys[i]? = some a.file := by unfold Dict.keys; rw [List.getElem?_map, h1]; rfl
            have hj : map.keys[j]? = some b.file := by unfold Dict.keys; rw [List.getElem?_map, h2]; rfl
            rw [← hfe] at hj
            exact hij ((List.getElem?_inj (List.getElem?_eq_some_iff.1 hi).1 hmap.1).1 (hi.trans hj.symm))
          have inv := shared_inv (jobEnv libs ctx ⟨some s.world.keys, some cert⟩ none) s.world.keys cert rfl (jobsOf o map)
            hwithin hacross others.events (jobsStart s') [] ?_ (fun _ _ _ => .inl rfl)
          · have hdone := jobsResult_ok h
            intro f hff
            obtain ⟨i, hi⟩ := List.mem_iff_getElem?.1 ((mapFor_mem hmap).1 hff)
            have hjob : (jobsOf o map)[i]? = some ⟨f, signOutputsFor args f, (o.perFile f).1, (o.perFile f).2⟩ := by
              unfold jobsOf; rw [List.getElem?_map, hi]; rfl
            rcases inv i _ hjob with hj | ⟨d₀, hd₀, hj⟩
            · rw [hdone i (List.getElem?_eq_some_iff.1 hjob).1] at hj
              cases hj
            · rw [hdone i (List.getElem?_eq_some_iff.1 hjob).1] at hj
              obtain ⟨b, ⟨c, hc, hb, _⟩, hh⟩ := hj
              refine ⟨c, b, ⟨d₀, by simpa using hd₀, hc.2⟩, hb, ?_, ?_, ?_⟩
              · intro p hp
                exact hh (.bundle p) ((mem_outputs _ _).2 (.inr (.inr ⟨p, (signBundlePath_iff args f p).2 hp, rfl⟩)))
              · intro p hp
                exact hh (.signature p) ((mem_outputs _ _).2 (.inl ⟨p, hp, rfl⟩))
              · intro p hp
                exact hh (.certificate p) ((mem_outputs _ _).2 (.inr (.inl ⟨p, hp, rfl⟩)))
          · intro g hg job hj x hx dd
            have hmem := mem_jobsOf hj
            have hff : job.file ∈ args.files := (hmap.2.1 _).1 (List.mem_map.2 ⟨_, hmem, rfl⟩)
            exact (hf _ hff x.path ((signOutput_iff args _ x.path).1 ⟨x, by rw [← hmap.2.2 _ _ hmem]; exact hx, rfl⟩)).events g hg dd

/-! ## Another program gets in between -/

/-- another program writes `a.sigstore.json` after the checks -/
def exRace : Shared.Others where
  beforeCheck _ d := d
  afterChecks d := Function.update d (exPath "a.sigstore.json") (some (.file [42]))
  events := exTurns.map .step

/-- another program changes the input `a` while the threads run, after `b` was read -/
def exChanged : Shared.Others where
  beforeCheck _ d := d
  afterChecks d := d
  events := [.step 1, .others fun d => Function.update d (exPath "a") (some (.file [5]))] ++ exTurns.map .step

/-- **C129**: without `--overwrite`, a file that another program makes at the place of an output after the checks is overwritten, and
`sign` succeeds. -/
theorem C129_race : ∃ (libs : SignLibs) (o : SignOracle) (others : Shared.Others) (trust : TrustArgs) (ident : IdentityArgs)
    (args : SignArgs) (s : SignState) (l : Path) (theirs : Bytes),
    args.overwrite = false ∧ (∀ d, others.afterChecks d l = some (.file theirs)) ∧
      (∀ f, Shared.Event.others f ∈ others.events → ∀ d, f d l = d l) ∧
      (Shared.signMain libs o others trust ident args s).1 = some (.ok ()) ∧
      (Shared.signMain libs o others trust ident args s).2.1.disk l ≠ some (.file theirs) := by
  refine ⟨exSignLibs, exOracle [], exRace, exTrust, exIdent, exSignArgs, exSignState [(exPath "a", 1), (exPath "b", 2)],
    exPath "a.sigstore.json", [42], rfl, fun d => (by simp only [exRace, Function.update_self]), ?_, by decide, by decide⟩
  intro f hf
  simp only [exRace, List.mem_map] at hf
  obtain ⟨_, _, h⟩ := hf
  cases h

/-- signing succeeds while `a` changes, and its bundle is that of what it was then -/
example : (Shared.signMain exSignLibs (exOracle []) exChanged exTrust exIdent exSignArgs (exSignState [(exPath "a", 1), (exPath "b", 2)])).1 =
      some (.ok ()) ∧
    (Shared.signMain exSignLibs (exOracle []) exChanged exTrust exIdent exSignArgs (exSignState [(exPath "a", 1), (exPath "b", 2)])).2.1.disk
      (exPath "a.sigstore.json") = some (.file [5, 10]) ∧
    (Shared.signMain exSignLibs (exOracle []) exChanged exTrust exIdent exSignArgs (exSignState [(exPath "a", 1), (exPath "b", 2)])).2.1.disk
      (exPath "b.sigstore.json") = some (.file [2, 10]) := by decide

/-- it is the case of `C129_own_bundle` -/
example : SignOutputsApart exSignLibs.disk exSignArgs ∧
    ∀ f ∈ exSignArgs.files, ∀ p, SignOutput exSignArgs f p → LeaveAlone exChanged (exSignLibs.disk.resolve p) := by
  have hout : ∀ f ∈ exSignArgs.files, ∀ p, SignOutput exSignArgs f p →
      (f = exPath "a" ∧ p = exPath "a.sigstore.json") ∨ (f = exPath "b" ∧ p = exPath "b.sigstore.json") := by
    intro f hf p hp
    have hf : f = exPath "a" ∨ f = exPath "b" := by simpa [exSignArgs] using hf
    have hp : p = f.parent.join (f.name ++ ".sigstore.json".toList) := by
      cases hp with
      | beside => rfl
      | signature h => cases h
      | certificate h => cases h
      | bundle h => cases h
      | inDirectory _ _ h => cases h
    rcases hf with rfl | rfl
    · exact .inl ⟨rfl, hp⟩
    · exact .inr ⟨rfl, hp⟩
  refine ⟨⟨?_, fun _ _ h => (by cases h), fun _ _ _ _ h => (by rcases h with h | h <;> cases h)⟩, ?_⟩
  · intro f hf g hg hfg p q hp hq
    rcases hout f hf p hp with ⟨rfl, rfl⟩ | ⟨rfl, rfl⟩ <;> rcases hout g hg q hq with ⟨rfl, rfl⟩ | ⟨rfl, rfl⟩
    · exact absurd rfl hfg
    · decide
    · decide
    · exact absurd rfl hfg
  · intro f hf p hp
    have hne : exSignLibs.disk.resolve p ≠ exPath "a" := by
      rcases hout f hf p hp with ⟨rfl, rfl⟩ | ⟨rfl, rfl⟩ <;> decide
    refine ⟨fun _ _ => rfl, fun _ => rfl, ?_⟩
    intro g hg d
    simp only [exChanged, List.cons_append, List.nil_append, List.mem_cons, List.mem_map] at hg
    rcases hg with hg | hg | ⟨_, _, hg⟩
    · cases hg
    · cases hg
      exact Function.update_of_ne hne ..
    · cases hg

end Sigstore.Props
