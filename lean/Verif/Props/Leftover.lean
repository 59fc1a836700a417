import Verif.Spec.Leftover
import Verif.Props.CliSignExamples

/-!
# C131: what `sign` and `attest` leave behind whenever they stop
-/

namespace Sigstore.Props

open Sigstore.Trust Sigstore.Dsse Sigstore.Signing Sigstore.Cli Sigstore.Spec

/-- the output is as it was when the threads started -/
def Still (je : JobEnv) (d₀ d : Disk) (x : Output) : Prop := d (je.disk.resolve x.path) = d₀ (je.disk.resolve x.path)

/-- what a thread has left alone so far -/
def Ahead (je : JobEnv) (k : Nat) (cert : Cert) (d₀ d : Disk) (job : Job) : JobPc → Prop
  | .start => ∀ x ∈ job.outputs.list, Still je d₀ d x
  | .hashed _ => ∀ x ∈ job.outputs.list, Still je d₀ d x
  | .emit _ todo => ∀ x ∈ todo, Still je d₀ d x
  | .writing _ _ _ _ todo => ∀ x ∈ todo, Still je d₀ d x
  | .done => True
  | .failed _ => (∀ x ∈ job.outputs.list, Still je d₀ d x) ∨
      ∃ b, Made je k cert d₀ job b ∧ ∃ pre todo, job.outputs.list = pre ++ todo ∧ (∀ x ∈ pre, Holds je cert d b x) ∧
        ((∀ x ∈ todo, Still je d₀ d x) ∨ ∃ x rest data n, todo = x :: rest ∧ Prints je cert b data x ∧
          d (je.disk.resolve x.path) = some (.file (data.take n)) ∧ je.disk.canPut x.path n = false ∧
          ∀ y ∈ rest, Still je d₀ d y)

theorem ahead_congr {je : JobEnv} {k : Nat} {cert : Cert} {d₀ d d' : Disk} {job : Job} {pc : JobPc} (hw : PcWithin job pc)
    (hd : ∀ x ∈ job.outputs.list, d' (je.disk.resolve x.path) = d (je.disk.resolve x.path))
    (h : Ahead je k cert d₀ d job pc) : Ahead je k cert d₀ d' job pc := by
  cases pc with
  | start => exact fun x hx => (hd x hx).trans (h x hx)
  | hashed _ => exact fun x hx => (hd x hx).trans (h x hx)
  | emit b todo => exact fun x hx => (hd x (hw x hx)).trans (h x hx)
  | writing b p data n todo => exact fun x hx => (hd x (hw.2 x hx)).trans (h x hx)
  | done => trivial
  | failed e =>
    rcases h with h | ⟨b, hm, pre, todo, hp, h1, h2⟩
    · exact .inl fun x hx => (hd x hx).trans (h x hx)
    · refine .inr ⟨b, hm, pre, todo, hp, fun x hx => holds_congr (hd x (by rw [hp]; simp [hx])) (h1 x hx), ?_⟩
      rcases h2 with h2 | ⟨x, rest, data, n, rfl, g1, g2, g3, g4⟩
      · exact .inl fun x hx => (hd x (by rw [hp]; simp [hx])).trans (h2 x hx)
      · exact .inr ⟨x, rest, data, n, rfl, g1, (hd x (by rw [hp]; simp)).trans g2, g3,
          fun y hy => (hd y (by rw [hp]; simp [hy])).trans (g4 y hy)⟩

theorem separate_rest {je : JobEnv} {job : Job} (hw : (job.outputs.list.map fun x => je.disk.resolve x.path).Nodup)
    {pre todo : List Output} {x : Output} (hp : job.outputs.list = pre ++ x :: todo) :
    ∀ y ∈ todo, je.disk.resolve y.path ≠ je.disk.resolve x.path := by
  intro y hy he
  rw [hp, List.map_append, List.map_cons, List.nodup_append, List.nodup_cons] at hw
  exact hw.2.1.1 (he ▸ List.mem_map.2 ⟨y, hy, rfl⟩)

/-- one step of a thread: what it has left alone stays so until its turn comes -/
theorem jobStep_ahead (je : JobEnv) (k : Nat) (cert : Cert) (d₀ : Disk) (jobs : List Job) (st : JobsState) (i : Nat) (job : Job)
    (hj : jobs[i]? = some job) (hwithin : (job.outputs.list.map fun x => je.disk.resolve x.path).Nodup)
    (hi : JobInv je k cert d₀ st.disk job (st.pcs i)) (ha : Ahead je k cert d₀ st.disk job (st.pcs i)) :
    Ahead je k cert d₀ (jobStep je jobs st i).disk job ((jobStep je jobs st i).pcs i) := by
  unfold jobStep
  rw [hj]
  dsimp only
  cases hpc : st.pcs i with
  | start =>
    rw [hpc] at ha
    dsimp only
    cases hr : je.disk.read st.disk job.file with
    | error e => dsimp only; rw [goto_self]; exact .inl ha
    | ok c => dsimp only; rw [goto_self]; exact ha
  | hashed h =>
    rw [hpc] at ha
    dsimp only
    cases hcall : callFor je job.file h with
    | error e => dsimp only; rw [goto_self]; exact .inl ha
    | ok call =>
      dsimp only
      cases hsign : je.signer.sign je.env je.ctx je.kp job.answers st.world call with
      | mk r w =>
        cases r with
        | error e => dsimp only; rw [goto_self]; exact .inl ha
        | ok b => dsimp only; rw [goto_self]; exact ha
  | emit b todo =>
    rw [hpc] at hi ha
    obtain ⟨hm, pre, hp, hh⟩ := hi
    cases todo with
    | nil => dsimp only; rw [goto_self]; trivial
    | cons x todo =>
      dsimp only
      cases hd : outputData je job.certAnswers b st.world x with
      | mk r w =>
        cases r with
        | error e => dsimp only; rw [goto_self]; exact .inr ⟨b, hm, pre, x :: todo, hp, hh, .inl ha⟩
        | ok data =>
          dsimp only
          cases ho : je.disk.openW st.disk x.path with
          | error e => dsimp only; rw [goto_self]; exact .inr ⟨b, hm, pre, x :: todo, hp, hh, .inl ha⟩
          | ok d =>
            dsimp only
            rw [goto_self]
            have he := openW_ok ho
            intro y hy
            show d _ = _
            rw [he, Function.update_of_ne (separate_rest hwithin hp y hy)]
            exact ha y (by simp [hy])
  | writing b p data n todo =>
    rw [hpc] at hi ha
    obtain ⟨hm, pre, x, hp, hh, rfl, hpr, hd⟩ := hi
    dsimp only
    by_cases hput : je.disk.canPut x.path n = true
    case neg =>
      rw [if_neg hput, goto_self]
      exact .inr ⟨b, hm, pre, x :: todo, hp, hh, .inr ⟨x, todo, data, n, rfl, hpr, hd, by simpa using hput, ha⟩⟩
    rw [if_pos hput]
    cases hn : data[n]? with
    | none => dsimp only; rw [goto_self]; exact ha
    | some byte =>
      dsimp only
      rw [goto_self]
      intro y hy
      exact (writeByte_other _ _ _ _ _ (separate_rest hwithin hp y hy)).trans (ha y hy)
  | done => dsimp only; rw [hpc]; trivial
  | failed e => dsimp only; rw [hpc] at ha ⊢; exact ha

/-- both invariants of all threads -/
structure JobsAhead (je : JobEnv) (k : Nat) (cert : Cert) (d₀ : Disk) (jobs : List Job) (st : JobsState) : Prop where
  inv : JobsInv je k cert d₀ jobs st
  ahead : ∀ i job, jobs[i]? = some job → Ahead je k cert d₀ st.disk job (st.pcs i)

theorem runJobs_ahead (je : JobEnv) (k : Nat) (cert : Cert) (hs : je.signer = ⟨some k, some cert⟩) (d₀ : Disk)
    (jobs : List Job) (sep : Separate je jobs) : ∀ (schedule : List Nat) (st : JobsState), JobsAhead je k cert d₀ jobs st →
    JobsAhead je k cert d₀ jobs (runJobs je jobs st schedule) := by
  intro schedule
  induction schedule with
  | nil => intro st h; exact h
  | cons i schedule ih =>
    intro st h
    refine ih _ ⟨jobStep_inv je k cert hs d₀ jobs sep st h.inv i, ?_⟩
    intro j jb hjb
    cases hj : jobs[i]? with
    | none => rw [jobStep_none _ _ _ _ hj]; exact h.ahead j jb hjb
    | some job =>
      have hmem := List.mem_of_getElem? hj
      obtain ⟨f1, f2, _⟩ := jobStep_frame je jobs st i job hj (jobInv_within (h.inv.each i job hj))
      by_cases hij : j = i
      · subst hij
        obtain rfl := Option.some.inj (hj.symm.trans hjb)
        exact jobStep_ahead je k cert d₀ jobs st j job hj (sep.within job hmem) (h.inv.each j job hj) (h.ahead j job hj)
      · rw [f1 j hij]
        refine ahead_congr (jobInv_within (h.inv.each j jb hjb)) ?_ (h.ahead j jb hjb)
        intro x hx
        exact f2 _ fun y hy => sep.across i j job jb hj hjb (Ne.symm hij) y hy x hx

/-- how far the outputs of a bundle have got: those before are complete, those behind are untouched, and between them
there may be one that is not complete unless `whole` -/
def Reached (je : JobEnv) (cert : Cert) (d₀ d : Disk) (b : Bundle) (whole : Prop) (l : List Output) : Prop :=
  ∃ pre rest, l = pre ++ rest ∧ (∀ x ∈ pre, Holds je cert d b x) ∧
    ((∀ x ∈ rest, Still je d₀ d x) ∨ (¬whole ∧ ∃ x todo data n, rest = x :: todo ∧ Prints je cert b data x ∧
      d (je.disk.resolve x.path) = some (.file (data.take n)) ∧ ∀ y ∈ todo, Still je d₀ d y))

theorem reached_of_ahead {je : JobEnv} {k : Nat} {cert : Cert} {d₀ d : Disk} {job : Job} {pc : JobPc} {whole : Prop}
    (he : whole → pc = .done ∨ (pc.ended = true ∧ ∀ x ∈ job.outputs.list, ∀ n, je.disk.canPut x.path n = true)) (hi : JobInv je k cert d₀ d job pc) (ha : Ahead je k cert d₀ d job pc) :
    (∀ x ∈ job.outputs.list, Still je d₀ d x) ∨
      ∃ b, Made je k cert d₀ job b ∧ Reached je cert d₀ d b whole job.outputs.list := by
  cases pc with
  | start => exact .inl ha
  | hashed _ => exact .inl ha
  | emit b todo =>
    obtain ⟨hm, pre, hp, hh⟩ := hi
    exact .inr ⟨b, hm, pre, todo, hp, hh, .inl ha⟩
  | writing b p data n todo =>
    obtain ⟨hm, pre, x, hp, hh, rfl, hpr, hd⟩ := hi
    exact .inr ⟨b, hm, pre, x :: todo, hp, hh, .inr ⟨fun h => (by rcases he h with h | ⟨h, _⟩ <;> cases h), x, todo, data, n, rfl, hpr, hd, ha⟩⟩
  | done =>
    obtain ⟨b, hm, hh⟩ := hi
    exact .inr ⟨b, hm, job.outputs.list, [], by simp, hh, .inl (by simp)⟩
  | failed e =>
    rcases ha with h | ⟨b, hm, pre, todo, hp, h1, h2⟩
    · exact .inl h
    · refine .inr ⟨b, hm, pre, todo, hp, h1, ?_⟩
      rcases h2 with h2 | ⟨x, rest, data, n, rfl, g1, g2, g3, g4⟩
      · exact .inl h2
      · refine .inr ⟨fun h => ?_, x, rest, data, n, rfl, g1, g2, g4⟩
        rcases he h with h | ⟨_, h⟩
        · cases h
        · rw [h x (by rw [hp]; simp) n] at g3
          cases g3


theorem jobsResult_stopped {jobs : List Job} {order : List Nat} {st : JobsState} (h : jobsResult jobs order st ≠ none) :
    ∀ i < jobs.length, (st.pcs i).ended = true := by
  intro i hi
  unfold jobsResult at h
  split at h
  · rename_i hall
    exact List.all_eq_true.1 hall i (by simp [hi])
  · exact absurd rfl h

/-- whenever `_sign_common` stops -/
theorem signCommon_leftover (libs : SignLibs) (o : SignOracle) (trust : TrustArgs) (ident : IdentityArgs)
    (map : Dict Path SigningOutputs) (predicate : Option (Str × Dict Str Json)) (s : SignState) (hm : MapApart libs.disk map)
    (f : Path) (outs : SigningOutputs) (hf : (f, outs) ∈ map) :
    (∀ x ∈ outs.list, (signCommon libs o trust ident map predicate s).2.disk (libs.disk.resolve x.path) =
      s.disk (libs.disk.resolve x.path)) ∨
    ∃ token cert ctx, (∃ cfg, signIdentity libs.identity o.now ident cfg = .ok token) ∧
      IssuedFor libs.kp (o.first token) s.world.keys cert ∧
      ∃ content b, s.disk (libs.disk.resolve f) = some (.file content) ∧
        BundleOf libs.env.crypto libs.kp libs.codec s.world.keys cert predicate f.name content b ∧
        Reached (jobEnv libs ctx ⟨some s.world.keys, some cert⟩ predicate) cert s.disk
          (signCommon libs o trust ident map predicate s).2.disk b
          ((signCommon libs o trust ident map predicate s).1 = some (.ok ()) ∨
            ((signCommon libs o trust ident map predicate s).1 ≠ none ∧ ∀ x ∈ outs.list, ∀ n, libs.disk.canPut x.path n = true))
          outs.list := by
  unfold signCommon
  have hd := signPrepare_disk libs o trust ident s
  cases hp : signPrepare libs o trust ident s with
  | mk r s' =>
    rw [hp] at hd
    cases r with
    | error e => left; intro x _; dsimp only at hd ⊢; rw [hd]
    | ok cs =>
      obtain ⟨ctx, signer⟩ := cs
      dsimp only at hd ⊢
      obtain ⟨token, cert, rfl, hi, hid, _, _⟩ := signPrepare_ok hp
      have inv := runJobs_ahead (jobEnv libs ctx ⟨some s.world.keys, some cert⟩ predicate) s.world.keys cert rfl s'.disk
        (jobsOf o map) (separate_of_apart hm) o.schedule (jobsStart s')
        ⟨⟨fun _ _ _ => trivial, fun _ _ => rfl⟩, fun _ _ _ _ _ => rfl⟩
      obtain ⟨i, hi'⟩ := List.mem_iff_getElem?.1 hf
      have hjob : (jobsOf o map)[i]? = some ⟨f, outs, (o.perFile f).1, (o.perFile f).2⟩ := by
        unfold jobsOf; rw [List.getElem?_map, hi']; rfl
      have hlen := (List.getElem?_eq_some_iff.1 hjob).1
      have := reached_of_ahead (whole := jobsResult (jobsOf o map) o.order
          (runJobs (jobEnv libs ctx ⟨some s.world.keys, some cert⟩ predicate) (jobsOf o map) (jobsStart s') o.schedule) =
            some (.ok ()) ∨ (jobsResult (jobsOf o map) o.order
          (runJobs (jobEnv libs ctx ⟨some s.world.keys, some cert⟩ predicate) (jobsOf o map) (jobsStart s') o.schedule) ≠ none ∧
            ∀ x ∈ outs.list, ∀ n, libs.disk.canPut x.path n = true))
        (fun h => h.imp (fun h => jobsResult_ok h i hlen) fun h => ⟨jobsResult_stopped h.1 i hlen, h.2⟩)
        (inv.inv.each i _ hjob) (inv.ahead i _ hjob)
      rw [hd] at this
      rcases this with h | ⟨b, ⟨c, hc, hb, _⟩, hr⟩
      · exact .inl h
      · exact .inr ⟨token, cert, ctx, hid, hi, c, b, hc.2, hb, hr⟩

/-- what a place holds when its output has been reached or not -/
theorem begun_of_reached {je : JobEnv} {cert : Cert} {d₀ d : Disk} {b : Bundle} {whole : Prop} {l : List Output}
    (h : Reached je cert d₀ d b whole l) (x : Output) (hx : x ∈ l) : Still je d₀ d x ∨
      ∃ data, Prints je cert b data x ∧ ∃ n, d (je.disk.resolve x.path) = some (.file (data.take n)) ∧
        (whole → data.length ≤ n) := by
  obtain ⟨pre, rest, rfl, h1, h2⟩ := h
  rcases List.mem_append.1 hx with hx | hx
  · right
    have := h1 x hx
    cases x with
    | signature p =>
      obtain ⟨sig, g1, g2⟩ := this
      exact ⟨_, ⟨sig, g1, rfl⟩, _, by rw [List.take_of_length_le (Nat.le_refl _)]; exact g2, fun _ => Nat.le_refl _⟩
    | certificate p =>
      exact ⟨_, rfl, _, by rw [List.take_of_length_le (Nat.le_refl _)]; exact this, fun _ => Nat.le_refl _⟩
    | bundle p =>
      exact ⟨_, rfl, _, by rw [List.take_of_length_le (Nat.le_refl _)]; exact this, fun _ => Nat.le_refl _⟩
  · rcases h2 with h2 | ⟨he, y, todo, data, n, rfl, g1, g2, g3⟩
    · exact .inl (h2 x hx)
    · rcases List.mem_cons.1 hx with rfl | hx
      · exact .inr ⟨data, g1, n, g2, fun h => absurd h he⟩
      · exact .inl (g3 x hx)

/-- the bundle, which is last, is reached only when the others are complete -/
theorem last_of_reached {je : JobEnv} {cert : Cert} {d₀ d : Disk} {b : Bundle} {whole : Prop} {l : List Output} {x : Output}
    (h : Reached je cert d₀ d b whole (l ++ [x])) : Still je d₀ d x ∨ ∀ y ∈ l, Holds je cert d b y := by
  obtain ⟨pre, rest, hl, h1, h2⟩ := h
  rcases List.eq_nil_or_concat rest with rfl | ⟨rest', z, rfl⟩
  · right
    intro y hy
    rw [List.append_nil] at hl
    exact h1 y (hl ▸ (by simp [hy]))
  · rw [List.concat_eq_append, ← List.append_assoc] at hl
    obtain ⟨h3, h4⟩ := List.append_inj' hl rfl
    cases h4
    rcases h2 with h2 | ⟨_, y, todo, data, n, g, _, _, g3⟩
    · exact .inl (h2 x (by simp))
    · cases rest' with
      | nil =>
        right
        intro w hw
        exact h1 w (by rw [h3, List.append_nil] at hw; exact hw)
      | cons v rest' =>
        simp only [List.concat_eq_append, List.cons_append, List.cons.injEq] at g
        exact .inl (g3 x (by rw [← g.2]; simp))

theorem untouched_of_still {d₀ d₁ d : Disk} (h : OnlyDirectories d₀ d₁) {l : Path} (hs : d l = d₁ l) : Untouched d₀ d l := by
  rcases h l with h | ⟨h1, h2⟩
  · exact .inl (hs.trans h)
  · exact .inr ⟨h1, hs.trans h2⟩

/-- **C131** Whatever `sign` does and whenever it stops — also when it fails or is killed at any point of any schedule of the
threads — the outputs of each input are all as before, or each is as before or a beginning of what belongs to one bundle
that was made for this input; if the command succeeded, or failed although no write failed, what is begun is complete.  The
bundle is begun only when signature and certificate are complete.  Missing compared with the property: outputs that lead to
one place or to an input, and the cases of `C131_killed_loses`, `C131_full_disk` and `C131_failure_mixes`. -/
theorem C131_sign_leftover_partial (libs : SignLibs) (o : SignOracle) (trust : TrustArgs) (ident : IdentityArgs)
    (args : SignArgs) (s : SignState) (ha : SignOutputsApart libs.disk args) (hi : SignInputsApart libs.disk args)
    (f : Path) (hf : f ∈ args.files) :
    (∀ p, SignOutput args f p → Untouched s.disk (signMain libs o trust ident args s).2.disk (libs.disk.resolve p)) ∨
    ∃ token cert, (∃ cfg, signIdentity libs.identity o.now ident cfg = .ok token) ∧
      IssuedFor libs.kp (o.first token) s.world.keys cert ∧
      ∃ content b, s.disk (libs.disk.resolve f) = some (.file content) ∧
        BundleOf libs.env.crypto libs.kp libs.codec s.world.keys cert none f.name content b ∧
        OutputsBegun libs args s.disk (signMain libs o trust ident args s).2.disk
          ((signMain libs o trust ident args s).1 = some (.ok ()) ∨
            ((signMain libs o trust ident args s).1 ≠ none ∧ WritesSucceed libs.disk args f)) f cert b := by
  unfold signMain
  have hd := signOutputs_disk libs.disk args s.disk
  cases hm : signOutputs libs.disk args s.disk with
  | mk r d =>
    rw [hm] at hd
    cases r with
    | error e => exact .inl fun p _ => untouched_of_still hd rfl
    | ok map =>
      dsimp only at hd ⊢
      have hmap := signOutputs_map _ _ _ _ _ hm
      rcases signCommon_leftover libs o trust ident map none { s with disk := d } (signMap_apart hmap ha hi) f _
          ((mapFor_mem hmap).1 hf) with h | ⟨token, cert, ctx, h1, h2, content, b, h3, h4, h5⟩
      · left
        intro p hp
        obtain ⟨x, hx, rfl⟩ := (signOutput_iff args f p).2 hp
        exact untouched_of_still hd (h x hx)
      · right
        have hall : WritesSucceed libs.disk args f → ∀ x ∈ (signOutputsFor args f).list, ∀ n,
            libs.disk.canPut x.path n = true := fun h x hx => h _ ((signOutput_iff args f _).1 ⟨x, hx, rfl⟩)
        refine ⟨token, cert, h1, h2, content, b, hd.file.1 h3, h4, ?_, ?_, ?_, ?_⟩
        · intro p hp
          rcases begun_of_reached h5 (.bundle p)
            ((mem_outputs _ _).2 (.inr (.inr ⟨p, (signBundlePath_iff args f p).2 hp, rfl⟩))) with h | ⟨_, rfl, h⟩
          · exact .inl (untouched_of_still hd h)
          · obtain ⟨n, g1, g2⟩ := h
            exact .inr ⟨n, g1, fun h => g2 (h.imp id fun h => ⟨h.1, hall h.2⟩)⟩
        · intro p hp
          rcases begun_of_reached h5 (.signature p) ((mem_outputs _ _).2 (.inl ⟨p, hp, rfl⟩)) with h | ⟨_, ⟨sig, h, rfl⟩, h'⟩
          · exact .inl (untouched_of_still hd h)
          · obtain ⟨n, g1, g2⟩ := h'
            exact .inr ⟨sig, h, .inr ⟨n, g1, fun h => g2 (h.imp id fun h => ⟨h.1, hall h.2⟩)⟩⟩
        · intro p hp
          rcases begun_of_reached h5 (.certificate p) ((mem_outputs _ _).2 (.inr (.inl ⟨p, hp, rfl⟩))) with h | ⟨_, rfl, h⟩
          · exact .inl (untouched_of_still hd h)
          · obtain ⟨n, g1, g2⟩ := h
            exact .inr ⟨n, g1, fun h => g2 (h.imp id fun h => ⟨h.1, hall h.2⟩)⟩
        · intro p hp
          have hb : (signOutputsFor args f).bundle = some p := (signBundlePath_iff args f p).2 hp
          have hl : (signOutputsFor args f).list = (((signOutputsFor args f).signature.map Output.signature).toList ++
              ((signOutputsFor args f).certificate.map Output.certificate).toList) ++ [.bundle p] := by
            unfold SigningOutputs.list
            rw [hb]
            rfl
          rw [hl] at h5
          rcases last_of_reached h5 with h | h
          · exact .inl (untouched_of_still hd h)
          · right
            constructor
            · intro q hq
              have hq : (signOutputsFor args f).signature = some q := hq
              exact h (.signature q) (by rw [hq]; simp)
            · intro q hq
              have hq : (signOutputsFor args f).certificate = some q := hq
              exact h (.certificate q) (by rw [hq]; simp)

/-- **C131** The same for `attest`. -/
theorem C131_attest_leftover_partial (libs : SignLibs) (o : SignOracle) (trust : TrustArgs) (ident : IdentityArgs)
    (args : AttestArgs) (s : SignState)
    (ha : ∀ f ∈ args.files, ∀ g ∈ args.files, f ≠ g → ∀ p q, AttestBundlePath args f p → AttestBundlePath args g q →
      libs.disk.resolve p ≠ libs.disk.resolve q)
    (hi : ∀ f ∈ args.files, ∀ g ∈ args.files, ∀ p, AttestBundlePath args f p → libs.disk.resolve p ≠ libs.disk.resolve g)
    (f : Path) (hf : f ∈ args.files) (p : Path) (hp : AttestBundlePath args f p) :
    (attestMain libs o trust ident args s).2.disk (libs.disk.resolve p) = s.disk (libs.disk.resolve p) ∨
    ∃ token cert pred, (∃ cfg, signIdentity libs.identity o.now ident cfg = .ok token) ∧
      IssuedFor libs.kp (o.first token) s.world.keys cert ∧
      (∃ predicate text, s.disk (libs.disk.resolve args.predicate) = some (.file predicate) ∧
        utf8Decode predicate = some text ∧ libs.loads text = some (.obj pred)) ∧
      ∃ content b n, s.disk (libs.disk.resolve f) = some (.file content) ∧
        BundleOf libs.env.crypto libs.kp libs.codec s.world.keys cert (some (args.predicateType, pred)) f.name content b ∧
        (attestMain libs o trust ident args s).2.disk (libs.disk.resolve p) =
          some (.file ((utf8 (libs.toJson b ++ "\n".toList)).take n)) ∧
        ((attestMain libs o trust ident args s).1 = some (.ok ()) ∨
          ((attestMain libs o trust ident args s).1 ≠ none ∧ ∀ n, libs.disk.canPut p n = true) →
            (utf8 (libs.toJson b ++ "\n".toList)).length ≤ n) := by
  unfold attestMain
  cases hr : readPredicate libs.disk libs.loads args s.disk with
  | error e => exact .inl rfl
  | ok pred =>
    dsimp only
    cases hl : attestOutputsLoop libs.disk args s.disk [] args.files with
    | error e => exact .inl rfl
    | ok map =>
      dsimp only
      obtain ⟨hmap, _, _⟩ := attestOutputsLoop_ok _ _ _ _ [] _ _ hl (mapFor_nil _)
      rw [List.nil_append] at hmap
      have hpe := (attestBundlePath_iff args f p).2 hp
      have hx : Output.bundle p ∈ SigningOutputs.list ⟨none, none, some (args.bundle.getD (sibling f ".sigstore.json".toList))⟩ :=
        (mem_outputs _ _).2 (.inr (.inr ⟨p, congrArg some hpe, rfl⟩))
      rcases signCommon_leftover libs o trust ident map (some (args.predicateType, pred)) s (attestMap_apart hmap ha hi) f _
          ((mapFor_mem hmap).1 hf) with h | ⟨token, cert, ctx, h1, h2, content, b, h3, h4, h5⟩
      · exact .inl (h (.bundle p) hx)
      · rcases begun_of_reached h5 (.bundle p) hx with h | ⟨_, rfl, n, g1, g2⟩
        · exact .inl h
        · obtain ⟨predicate, text, p1, _, p2, p3, _⟩ := (readPredicate_ok_iff _ _ _ _ _).1 hr
          refine .inr ⟨token, cert, pred, h1, h2, ⟨predicate, text, p1, p2, p3⟩, content, b, n, h3, h4, g1, fun h => g2 (h.imp id
            fun h => ⟨h.1, fun x hx => ?_⟩)⟩
          rcases (mem_outputs _ _).1 hx with ⟨q, hq, rfl⟩ | ⟨q, hq, rfl⟩ | ⟨q, hq, rfl⟩
          · cases hq
          · cases hq
          · obtain rfl : q = p := (Option.some.inj hq).symm.trans hpe
            exact h.2

/-! ## Concrete cases -/

/-- `sigstore sign --overwrite a` -/
def exAgainArgs : SignArgs := ⟨[exPath "a"], none, none, none, none, false, true⟩

/-- `a` with an older bundle -/
def exAgainState : SignState := exSignState [(exPath "a", 1), (exPath "a.sigstore.json", 7)]

theorem exAgain_out {f p : Path} (h : SignOutput exAgainArgs f p) : p = f.parent.join (f.name ++ ".sigstore.json".toList) := by
  cases h with
  | signature h => cases h
  | certificate h => cases h
  | bundle h => cases h
  | inDirectory _ _ h => cases h
  | beside => rfl

theorem exAgain_apart (e : DiskEnv) : SignOutputsApart e exAgainArgs := by
  refine ⟨?_, (by intro p q h; cases h), (by rintro f _ p q (h | h) <;> cases h)⟩
  intro f hf g hg hfg
  have hf : f = exPath "a" := by simpa [exAgainArgs] using hf
  have hg : g = exPath "a" := by simpa [exAgainArgs] using hg
  exact absurd (hf.trans hg.symm) hfg

theorem exAgain_inputs {e : DiskEnv} (he : e.resolve = id) : SignInputsApart e exAgainArgs := by
  intro f hf g hg p hp
  have hf : f = exPath "a" := by simpa [exAgainArgs] using hf
  have hg : g = exPath "a" := by simpa [exAgainArgs] using hg
  rw [exAgain_out hp, hf, hg, he]
  decide

/-- **C131** `sign --overwrite` that is killed can lose the previous bundle without leaving a new one: the output is an empty
file, although nothing else was wrong. -/
theorem C131_killed_loses : ∃ (libs : SignLibs) (o : SignOracle) (trust : TrustArgs) (ident : IdentityArgs) (args : SignArgs)
    (s : SignState), SignOutputsApart libs.disk args ∧ SignInputsApart libs.disk args ∧
      (signMain libs o trust ident args s).1 = none ∧
      ∃ f ∈ args.files, ∃ p old, SignBundlePath args f p ∧ old ≠ [] ∧ s.disk (libs.disk.resolve p) = some (.file old) ∧
        (signMain libs o trust ident args s).2.disk (libs.disk.resolve p) = some (.file []) := by
  refine ⟨exSignLibs, exOracle [0, 0, 0], exTrust, exIdent, exAgainArgs, exAgainState, exAgain_apart _, exAgain_inputs rfl, by decide,
    exPath "a", by simp [exAgainArgs], exPath "a.sigstore.json", [7], .beside rfl rfl rfl, by decide, by decide, by decide⟩

/-- without an interruption it is complete -/
example : (signMain exSignLibs (exOracle (List.replicate 10 0)) exTrust exIdent exAgainArgs exAgainState).1 = some (.ok ()) ∧
    (signMain exSignLibs (exOracle (List.replicate 10 0)) exTrust exIdent exAgainArgs exAgainState).2.disk
      (exPath "a.sigstore.json") = some (.file [1, 10]) := by decide

/-- libraries with a disk that is full after one byte -/
def exFullLibs : SignLibs := { exSignLibs with disk := ⟨id, fun _ => true, fun _ => true, fun _ => true, fun _ n => n < 1⟩ }

/-- **C131** `sign --overwrite` that ends because the disk is full can lose the previous bundle, too: the output holds only a
beginning of the new one. -/
theorem C131_full_disk : ∃ (libs : SignLibs) (o : SignOracle) (trust : TrustArgs) (ident : IdentityArgs) (args : SignArgs)
    (s : SignState), SignOutputsApart libs.disk args ∧ SignInputsApart libs.disk args ∧
      (signMain libs o trust ident args s).1 = some (.error .osError) ∧
      ∃ f ∈ args.files, ∃ p old new data, SignBundlePath args f p ∧ old ≠ new ∧ new ≠ data ∧ new <+: data ∧
        s.disk (libs.disk.resolve p) = some (.file old) ∧
        (signMain libs o trust ident args s).2.disk (libs.disk.resolve p) = some (.file new) ∧
        ∃ content b cert, s.disk (libs.disk.resolve f) = some (.file content) ∧ data = utf8 (libs.toJson b ++ "\n".toList) ∧
          BundleOf libs.env.crypto libs.kp libs.codec s.world.keys cert none f.name content b := by
  have hrun : (signMain exFullLibs (exOracle (List.replicate 10 0)) exTrust exIdent exAgainArgs exAgainState).2.disk
      (exFullLibs.disk.resolve (exPath "a.sigstore.json")) = some (.file [1]) := by decide
  have hold : exAgainState.disk (exFullLibs.disk.resolve (exPath "a.sigstore.json")) = some (.file [7]) := by decide
  refine ⟨exFullLibs, exOracle (List.replicate 10 0), exTrust, exIdent, exAgainArgs, exAgainState, exAgain_apart _,
    exAgain_inputs rfl, by decide, exPath "a", by simp [exAgainArgs], exPath "a.sigstore.json", [7], [1], [1, 10], .beside rfl rfl rfl,
    by decide, by decide, by decide, hold, hrun, ?_⟩
  rcases C131_sign_leftover_partial exFullLibs (exOracle (List.replicate 10 0)) exTrust exIdent exAgainArgs exAgainState
      (exAgain_apart _) (exAgain_inputs rfl) (exPath "a") (by simp [exAgainArgs]) with h | ⟨token, cert, _, _, content, b, h1, h2, _⟩
  · exfalso
    rcases h (exPath "a.sigstore.json") (.beside rfl rfl rfl) with h | ⟨h, _⟩
    · rw [hrun, hold] at h
      exact absurd h (by decide)
    · rw [hold] at h
      cases h
  · obtain rfl : content = [1] := by
      have h : exAgainState.disk (exFullLibs.disk.resolve (exPath "a")) = some (.file [1]) := by decide
      rw [h] at h1
      simpa using h1.symm
    refine ⟨[1], b, cert, h1, ?_, h2⟩
    have h : exFullLibs.toJson b = [Char.ofNat (1 : UInt8).toNat] := exToJson_artifact h2
    rw [h]
    decide

/-- libraries with a bundle `x` that cannot be written -/
def exReadOnlyLibs : SignLibs := { exSignLibs with disk := ⟨id, fun _ => true, fun p => !(p == exPath "x"), fun _ => true, fun _ _ => true⟩ }

/-- `sigstore sign --overwrite --signature s --certificate c --bundle x a` -/
def exThreeArgs : SignArgs := ⟨[exPath "a"], some (exPath "s"), some (exPath "c"), some (exPath "x"), none, false, true⟩

/-- `a` with older outputs -/
def exThreeState : SignState := exSignState [(exPath "a", 1), (exPath "s", 9), (exPath "c", 9), (exPath "x", 7)]

/-- the run that fails at the bundle -/
def exThreeRun : Option (Py Unit) × SignState :=
  signMain exReadOnlyLibs (exOracle (List.replicate 130 0)) exTrust exIdent exThreeArgs exThreeState

theorem exThree_result : exThreeRun.1 = some (.error .osError) := by decide +kernel

theorem exThree_signature : (match exThreeRun.2.disk (exReadOnlyLibs.disk.resolve (exPath "s")) with | some (.file new) => new.length | _ => 0) = 49 := by
  decide +kernel

theorem exThree_before : exThreeState.disk (exReadOnlyLibs.disk.resolve (exPath "s")) = some (.file [9]) := by decide

theorem exThree_bundle : exThreeRun.2.disk (exReadOnlyLibs.disk.resolve (exPath "x")) = some (.file [7]) := by decide +kernel

theorem exThree_out {f p : Path} (h : SignOutput exThreeArgs f p) : p = exPath "s" ∨ p = exPath "c" ∨ p = exPath "x" := by
  cases h with
  | signature h => cases h; exact .inl rfl
  | certificate h => cases h; exact .inr (.inl rfl)
  | bundle h => cases h; exact .inr (.inr rfl)
  | inDirectory h => cases h
  | beside h => cases h

theorem exThree_apart : SignOutputsApart exReadOnlyLibs.disk exThreeArgs := by
  refine ⟨?_, ?_, ?_⟩
  · intro f hf g hg hfg
    have hf : f = exPath "a" := by simpa [exThreeArgs] using hf
    have hg : g = exPath "a" := by simpa [exThreeArgs] using hg
    exact absurd (hf.trans hg.symm) hfg
  · intro p q hp hq
    cases hp; cases hq
    decide
  · rintro f _ p q (hp | hp) hq <;> cases hp <;> cases hq with
    | explicit h => cases h; decide
    | inDirectory h => cases h
    | beside h => cases h

theorem exThree_inputs : SignInputsApart exReadOnlyLibs.disk exThreeArgs := by
  intro f hf g hg p hp
  have hg : g = exPath "a" := by simpa [exThreeArgs] using hg
  rw [hg]
  rcases exThree_out hp with rfl | rfl | rfl <;> decide

/-- **C131** `sign --overwrite` that fails can leave outputs that do not belong together: the new signature next to the old
bundle. -/
theorem C131_failure_mixes : ∃ (libs : SignLibs) (o : SignOracle) (trust : TrustArgs) (ident : IdentityArgs) (args : SignArgs)
    (s : SignState), SignOutputsApart libs.disk args ∧ SignInputsApart libs.disk args ∧
      (∃ e, (signMain libs o trust ident args s).1 = some (.error e)) ∧
      ∃ f ∈ args.files, ∃ p q oldSignature oldBundle, args.signature = some p ∧ SignBundlePath args f q ∧
        s.disk (libs.disk.resolve p) = some (.file oldSignature) ∧ s.disk (libs.disk.resolve q) = some (.file oldBundle) ∧
        (signMain libs o trust ident args s).2.disk (libs.disk.resolve q) = some (.file oldBundle) ∧
        ∃ content b, s.disk (libs.disk.resolve f) = some (.file content) ∧
          (∃ cert, BundleOf libs.env.crypto libs.kp libs.codec s.world.keys cert none f.name content b) ∧
          HoldsSignature libs.disk (signMain libs o trust ident args s).2.disk b p ∧
          ¬HoldsSignature libs.disk s.disk b p := by
  refine ⟨exReadOnlyLibs, exOracle (List.replicate 130 0), exTrust, exIdent, exThreeArgs, exThreeState, exThree_apart,
    exThree_inputs, ⟨_, exThree_result⟩, exPath "a", by simp [exThreeArgs], exPath "s", exPath "x", [9], [7], rfl,
    .explicit rfl, by decide, by decide, exThree_bundle, ?_⟩
  have hs := exThree_signature
  rcases C131_sign_leftover_partial exReadOnlyLibs (exOracle (List.replicate 130 0)) exTrust exIdent exThreeArgs exThreeState
      exThree_apart exThree_inputs (exPath "a") (by simp [exThreeArgs]) with h | ⟨token, cert, _, _, content, b, h1, h2, h3⟩
  · exfalso
    rcases h (exPath "s") (.signature rfl) with h | ⟨h, _⟩
    · have h : exThreeRun.2.disk (exReadOnlyLibs.disk.resolve (exPath "s")) = some (.file [9]) := h.trans exThree_before
      rw [h] at hs
      cases hs
    · revert h; decide
  · refine ⟨content, b, h1, ⟨cert, h2⟩, ?_⟩
    rcases h3.signature (exPath "s") rfl with h | ⟨sig, g1, h | ⟨n, g2, g3⟩⟩
    · exfalso
      rcases h with h | ⟨h, _⟩
      · have h : exThreeRun.2.disk (exReadOnlyLibs.disk.resolve (exPath "s")) = some (.file [9]) := h.trans exThree_before
        rw [h] at hs
        cases hs
      · revert h; decide
    · exfalso
      rcases h with h | ⟨h, _⟩
      · have h : exThreeRun.2.disk (exReadOnlyLibs.disk.resolve (exPath "s")) = some (.file [9]) := h.trans exThree_before
        rw [h] at hs
        cases hs
      · revert h; decide
    · have hn := g3 (.inr ⟨by rw [show (signMain _ _ _ _ _ _).1 = _ from exThree_result]; simp, fun _ _ _ => rfl⟩)
      rw [List.take_of_length_le hn] at g2
      refine ⟨⟨sig, g1, g2⟩, ?_⟩
      rintro ⟨sig', g1', g2'⟩
      rw [g1] at g1'
      cases g1'
      have g2 : exThreeRun.2.disk (exReadOnlyLibs.disk.resolve (exPath "s")) = _ := g2
      rw [g2] at hs
      have e := exThree_before.symm.trans g2'
      simp only [Option.some.injEq, Node.file.injEq] at e
      rw [← e] at hs
      cases hs

/-- `attest` that is killed between two bytes meets the conditions, and has begun one output and not the other -/
example : (attestMain exSignLibs (exOracle [0, 0, 0, 0]) exTrust exIdent exAttestArgs exAttestState).1 = none ∧
    (attestMain exSignLibs (exOracle [0, 0, 0, 0]) exTrust exIdent exAttestArgs exAttestState).2.disk
      (exPath "a.sigstore.json") = some (.file (utf8 "0".toList)) ∧
    (attestMain exSignLibs (exOracle [0, 0, 0, 0]) exTrust exIdent exAttestArgs exAttestState).2.disk
      (exPath "b.sigstore.json") = none ∧
    (∀ f ∈ exAttestArgs.files, ∀ g ∈ exAttestArgs.files, f ≠ g → ∀ p q, AttestBundlePath exAttestArgs f p →
      AttestBundlePath exAttestArgs g q → exSignLibs.disk.resolve p ≠ exSignLibs.disk.resolve q) ∧
    (∀ f ∈ exAttestArgs.files, ∀ g ∈ exAttestArgs.files, ∀ p, AttestBundlePath exAttestArgs f p →
      exSignLibs.disk.resolve p ≠ exSignLibs.disk.resolve g) := by
  refine ⟨by decide, by decide, by decide, ?_, ?_⟩
  · intro f hf g hg hfg p q hp hq
    rw [← (attestBundlePath_iff _ _ _).2 hp, ← (attestBundlePath_iff _ _ _).2 hq]
    have hf : f = exPath "a" ∨ f = exPath "b" := by simpa [exAttestArgs] using hf
    have hg : g = exPath "a" ∨ g = exPath "b" := by simpa [exAttestArgs] using hg
    rcases hf with rfl | rfl <;> rcases hg with rfl | rfl
    · exact absurd rfl hfg
    · decide
    · decide
    · exact absurd rfl hfg
  · intro f hf g hg p hp
    rw [← (attestBundlePath_iff _ _ _).2 hp]
    have hf : f = exPath "a" ∨ f = exPath "b" := by simpa [exAttestArgs] using hf
    have hg : g = exPath "a" ∨ g = exPath "b" := by simpa [exAttestArgs] using hg
    rcases hf with rfl | rfl <;> rcases hg with rfl | rfl <;> decide

end Sigstore.Props
