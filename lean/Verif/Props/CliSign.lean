import Verif.Spec.CliSign
import Verif.Props.Signer

/-!
# C42, C43: the outputs of `sign` and `attest`
-/

namespace Sigstore.Props

open Sigstore.Trust Sigstore.Dsse Sigstore.Signing Sigstore.Cli Sigstore.Spec

/-! ## The file system -/

theorem _root_.Sigstore.Spec.OnlyDirectories.refl (d : Disk) : OnlyDirectories d d := fun _ => .inl rfl

theorem _root_.Sigstore.Spec.OnlyDirectories.trans {a b c : Disk} (h : OnlyDirectories a b) (h' : OnlyDirectories b c) : OnlyDirectories a c := by
  intro l
  rcases h' l with h2 | ⟨h2, h3⟩
  · rw [h2]; exact h l
  · rcases h l with h1 | ⟨h1, h4⟩
    · exact .inr ⟨h1 ▸ h2, h3⟩
    · rw [h4] at h2; cases h2

theorem _root_.Sigstore.Spec.OnlyDirectories.kept {a b : Disk} (h : OnlyDirectories a b) : Kept a b := by
  intro l n hn
  rcases h l with h | ⟨h, _⟩
  · rw [h, hn]
  · rw [hn] at h; cases h

theorem _root_.Sigstore.Spec.OnlyDirectories.absent {a b : Disk} (h : OnlyDirectories a b) {l : Path} (hn : b l = none) : a l = none := by
  rcases h l with h | ⟨h, _⟩
  · rw [← h, hn]
  · exact h

theorem _root_.Sigstore.Spec.OnlyDirectories.file {a b : Disk} (h : OnlyDirectories a b) {l : Path} {c : Bytes} : b l = some (.file c) ↔ a l = some (.file c) := by
  constructor
  · intro hn
    rcases h l with h | ⟨_, h⟩
    · rw [← h, hn]
    · rw [hn] at h; cases h
  · exact h.kept l _

theorem mkdirOne_only (e : DiskEnv) (d : Disk) (p : Path) : OnlyDirectories d (e.mkdirOne d p) := by
  intro l
  unfold DiskEnv.mkdirOne
  cases hn : d (e.resolve p) with
  | none =>
    by_cases hl : l = e.resolve p
    · subst hl; exact .inr ⟨hn, Function.update_self ..⟩
    · exact .inl (Function.update_of_ne hl ..)
  | some n => exact .inl rfl

theorem mkdir_only (e : DiskEnv) (d d' : Disk) (p : Path) (h : e.mkdir d p = .ok d') : OnlyDirectories d d' := by
  unfold DiskEnv.mkdir at h
  split at h
  · cases h; exact .refl _
  · cases h
  · split at h
    · cases h
      generalize Path.ancestors p = l
      induction l generalizing d with
      | nil => exact .refl _
      | cons q l ih =>
        by_cases hm : e.mkdirOne d q (e.resolve p) = none
        · exact (mkdirOne_only e d q).trans (ih _ hm)
        · have key : ∀ (l : List Path) (d : Disk), OnlyDirectories d (l.foldl e.mkdirOne d) := by
            intro l
            induction l with
            | nil => intro d; exact .refl _
            | cons q l ih => intro d; exact (mkdirOne_only e d q).trans (ih _)
          exact (mkdirOne_only e d q).trans (key _ _)
    · cases h

theorem isFile_iff (e : DiskEnv) (d : Disk) (p : Path) : e.isFile d p = true ↔ ∃ c, d (e.resolve p) = some (.file c) := by
  unfold DiskEnv.isFile
  split
  · rename_i c h; simp [h]
  · rename_i h; simp only [Bool.false_eq_true, false_iff, not_exists]; exact h

theorem extant_false_iff (e : DiskEnv) (d : Disk) (o : Option Path) :
    e.extant d o = false ↔ ∀ p, o = some p → d (e.resolve p) = none := by
  cases o with
  | none => simp [DiskEnv.extant]
  | some p => simp [DiskEnv.extant, DiskEnv.exists_]

/-! ## The map of outputs -/

theorem signConflict_iff (args : SignArgs) : signConflict args = false ↔ ConsistentSign args := by
  obtain ⟨files, sig, crt, bundle, dir, nodef, ow⟩ := args
  unfold signConflict
  constructor
  · intro h
    simp only [Bool.or_eq_false_iff] at h
    obtain ⟨⟨⟨h1, h2⟩, h3⟩, h4⟩ := h
    refine ⟨?_, ?_, ?_, ?_⟩
    · cases bundle <;> cases nodef <;> simp_all
    · intro hs
      by_contra hl
      have hl : files.length > 1 := by simpa using hl
      cases sig <;> cases crt <;> cases bundle <;> simp_all
    · cases dir <;> cases sig <;> cases crt <;> cases bundle <;> simp_all
    · cases sig <;> cases crt <;> simp_all
  · rintro ⟨h1, h2, h3, h4⟩
    simp only [Bool.or_eq_false_iff]
    refine ⟨⟨⟨?_, ?_⟩, ?_⟩, ?_⟩
    · cases bundle <;> cases nodef <;> simp_all
    · by_cases hl : files.length > 1
      · cases sig <;> cases crt <;> cases bundle <;> simp_all <;> omega
      · simp [hl]
    · cases dir <;> cases sig <;> cases crt <;> cases bundle <;> simp_all
    · cases sig <;> cases crt <;> simp_all

/-- the outputs that `sign` computes for a file -/
def signOutputsFor (args : SignArgs) (file : Path) : SigningOutputs :=
  ⟨args.signature, args.certificate, signBundlePath args file (args.outputDirectory.getD file.parent)⟩

theorem mem_outputs (o : SigningOutputs) (x : Output) : x ∈ o.list ↔
    (∃ p, o.signature = some p ∧ x = .signature p) ∨ (∃ p, o.certificate = some p ∧ x = .certificate p) ∨
    (∃ p, o.bundle = some p ∧ x = .bundle p) := by
  obtain ⟨s, c, b⟩ := o
  unfold SigningOutputs.list
  cases s <;> cases c <;> cases b <;> simp

theorem signBundlePath_iff (args : SignArgs) (file p : Path) :
    (signOutputsFor args file).bundle = some p ↔ SignBundlePath args file p := by
  unfold signOutputsFor signBundlePath
  constructor
  · intro h
    cases hb : args.bundle with
    | some b => simp only [hb, Option.some.injEq] at h; subst h; exact .explicit hb
    | none =>
      simp only [hb] at h
      cases hn : args.noDefaultFiles with
      | true => simp [hn] at h
      | false =>
        simp only [hn, Bool.false_eq_true, if_false, Option.some.injEq] at h
        cases hd : args.outputDirectory with
        | none => rw [hd] at h; subst h; exact .beside hb hn hd
        | some dir => rw [hd] at h; subst h; exact .inDirectory hb hn hd
  · rintro (hb | ⟨hb, hn, hd⟩ | ⟨hb, hn, hd⟩)
    · simp only [hb]
    · simp [hb, hn, hd]
    · simp [hb, hn, hd]

theorem signOutput_iff (args : SignArgs) (file p : Path) :
    (∃ x ∈ (signOutputsFor args file).list, x.path = p) ↔ SignOutput args file p := by
  constructor
  · rintro ⟨x, hx, rfl⟩
    rcases (mem_outputs _ _).1 hx with ⟨p, h, rfl⟩ | ⟨p, h, rfl⟩ | ⟨p, h, rfl⟩
    · exact .signature h
    · exact .certificate h
    · cases (signBundlePath_iff args file p).1 h with
      | explicit h => exact .bundle h
      | inDirectory h1 h2 h3 => exact .inDirectory h1 h2 h3
      | beside h1 h2 h3 => exact .beside h1 h2 h3
  · intro h
    have key : ∀ q, SignBundlePath args file q → ∃ x ∈ (signOutputsFor args file).list, x.path = q := fun q hq =>
      ⟨.bundle q, (mem_outputs _ _).2 (.inr (.inr ⟨q, (signBundlePath_iff args file q).2 hq, rfl⟩)), rfl⟩
    cases h with
    | signature h => exact ⟨.signature _, (mem_outputs _ _).2 (.inl ⟨_, h, rfl⟩), rfl⟩
    | certificate h => exact ⟨.certificate _, (mem_outputs _ _).2 (.inr (.inl ⟨_, h, rfl⟩)), rfl⟩
    | bundle h => exact key _ (.explicit h)
    | inDirectory h1 h2 h3 => exact key _ (.inDirectory h1 h2 h3)
    | beside h1 h2 h3 => exact key _ (.beside h1 h2 h3)

theorem signOutputsOne_disk (e : DiskEnv) (args : SignArgs) (file : Path) (d : Disk) :
    OnlyDirectories d (signOutputsOne e args file d).2 := by
  unfold signOutputsOne
  split
  · exact .refl _
  · dsimp only
    split
    · exact .refl _
    · split
      · exact .refl _
      · rename_i d' hd
        have := mkdir_only e d d' _ hd
        split <;> exact this

theorem signOutputsOne_ok (e : DiskEnv) (args : SignArgs) (file : Path) (d d' : Disk) (o : SigningOutputs)
    (h : signOutputsOne e args file d = (.ok o, d')) :
    e.isFile d file = true ∧ o = signOutputsFor args file ∧
      (args.overwrite = false → ∀ p, SignOutput args file p → d (e.resolve p) = none) ∧
      (∀ c, d (e.resolve (args.outputDirectory.getD file.parent)) ≠ some (.file c)) := by
  unfold signOutputsOne at h
  split at h
  · cases h
  rename_i hf
  dsimp only at h
  split at h
  · cases h
  rename_i hdir
  split at h
  · cases h
  rename_i d₁ hd
  split at h
  · cases h
  rename_i hx
  simp only [Prod.mk.injEq, Except.ok.injEq] at h
  obtain ⟨rfl, rfl⟩ := h
  refine ⟨by simpa using hf, rfl, ?_, ?_⟩
  swap
  · intro c hc
    apply hdir
    unfold DiskEnv.exists_ DiskEnv.isDir
    rw [hc]
    rfl
  intro ho p hp
  simp only [ho, Bool.not_false, Bool.true_and, Bool.not_eq_true, Bool.or_eq_false_iff] at hx
  obtain ⟨⟨h1, h2⟩, h3⟩ := hx
  have hdir := mkdir_only e d d₁ _ hd
  apply hdir.absent
  obtain ⟨x, hx, rfl⟩ := (signOutput_iff args file p).2 hp
  rcases (mem_outputs _ _).1 hx with ⟨q, hq, rfl⟩ | ⟨q, hq, rfl⟩ | ⟨q, hq, rfl⟩
  · exact (extant_false_iff _ _ _).1 h1 q hq
  · exact (extant_false_iff _ _ _).1 h2 q hq
  · exact (extant_false_iff _ _ _).1 h3 q hq

theorem signOutputsLoop_disk (e : DiskEnv) (args : SignArgs) : ∀ (files : List Path) (map : Dict Path SigningOutputs) (d : Disk),
    OnlyDirectories d (signOutputsLoop e args map files d).2 := by
  intro files
  induction files with
  | nil => intro map d; exact .refl _
  | cons f files ih =>
    intro map d
    have h1 := signOutputsOne_disk e args f d
    rw [signOutputsLoop]
    cases h : signOutputsOne e args f d with
    | mk r d₁ =>
      rw [h] at h1
      cases r with
      | error x => exact h1
      | ok o => exact h1.trans (ih _ _)

/-- the map has the files as its keys, and the outputs of each are those of the specification -/
def MapFor (files : List Path) (outs : Path → SigningOutputs) (map : Dict Path SigningOutputs) : Prop :=
  map.keys.Nodup ∧ (∀ f, f ∈ map.keys ↔ f ∈ files) ∧ ∀ f o, (f, o) ∈ map → o = outs f

theorem mapFor_set {files : List Path} {outs : Path → SigningOutputs} {map : Dict Path SigningOutputs}
    (h : MapFor files outs map) (f : Path) : MapFor (files ++ [f]) outs (map.set f (outs f)) := by
  obtain ⟨h1, h2, h3⟩ := h
  have hn := Dict.nodup_keys_set map f (outs f) h1
  refine ⟨hn, ?_, ?_⟩
  · intro g
    rw [Dict.keys_set]
    split
    · rename_i hm
      rw [h2, List.mem_append]
      constructor
      · exact .inl
      · rintro (h | h)
        · exact h
        · simp only [List.mem_singleton] at h; subst h; exact (h2 _).1 hm
    · simp [h2]
  · intro g o hm
    have := Dict.get?_of_mem hn hm
    by_cases hg : f = g
    · subst hg
      rw [Dict.get?_set_self] at this
      cases this; rfl
    · rw [Dict.get?_set_ne _ _ hg] at this
      exact h3 _ _ (Dict.mem_of_get? this)

theorem signOutputsLoop_ok (e : DiskEnv) (args : SignArgs) : ∀ (files done : List Path) (map map' : Dict Path SigningOutputs) (d d' : Disk),
    signOutputsLoop e args map files d = (.ok map', d') → MapFor done (signOutputsFor args) map →
    MapFor (done ++ files) (signOutputsFor args) map' ∧ (∀ f ∈ files, e.isFile d f = true) ∧
      (args.overwrite = false → ∀ f ∈ files, ∀ p, SignOutput args f p → d (e.resolve p) = none) ∧
      (∀ f ∈ files, ∀ c, d (e.resolve (args.outputDirectory.getD f.parent)) ≠ some (.file c)) := by
  intro files
  induction files with
  | nil =>
    intro done map map' d d' h hm
    rw [signOutputsLoop] at h
    cases h
    simpa using hm
  | cons f files ih =>
    intro done map map' d d' h hm
    rw [signOutputsLoop] at h
    have h1 := signOutputsOne_disk e args f d
    cases hf : signOutputsOne e args f d with
    | mk r d₁ =>
      rw [hf] at h h1
      cases r with
      | error x => cases h
      | ok o =>
        dsimp only at h h1
        obtain ⟨g1, rfl, g3, g4⟩ := signOutputsOne_ok e args f d d₁ o hf
        obtain ⟨k1, k2, k3, k4⟩ := ih (done ++ [f]) _ _ _ _ h (mapFor_set hm f)
        refine ⟨by simpa using k1, ?_, ?_, ?_⟩
        · intro g hg
          rcases List.mem_cons.1 hg with rfl | hg
          · exact g1
          · obtain ⟨c, hc⟩ := (isFile_iff _ _ _).1 (k2 g hg)
            exact (isFile_iff _ _ _).2 ⟨c, h1.file.1 hc⟩
        · intro ho g hg p hp
          rcases List.mem_cons.1 hg with rfl | hg
          · exact g3 ho p hp
          · exact h1.absent (k3 ho g hg p hp)
        · intro g hg c hc
          rcases List.mem_cons.1 hg with rfl | hg
          · exact g4 c hc
          · exact k4 g hg c (h1.file.2 hc)

theorem mapFor_nil (outs : Path → SigningOutputs) : MapFor [] outs [] := ⟨List.nodup_nil, by simp [Dict.keys], by simp⟩

/-- **C42** If the argument checks of `sign` pass, the options fit together, every input is a file, the output directory is
no file, and without `--overwrite` nothing exists at any output path; up to here only directories were made. -/
theorem C42_checks_sound (e : DiskEnv) (args : SignArgs) (d d' : Disk) (map : Dict Path SigningOutputs)
    (h : signOutputs e args d = (.ok map, d')) :
    ConsistentSign args ∧ (∀ f ∈ args.files, ∃ c, d (e.resolve f) = some (.file c)) ∧
      (args.overwrite = false → ∀ f ∈ args.files, ∀ p, SignOutput args f p → d (e.resolve p) = none) ∧
      OnlyDirectories d d' ∧ (∀ dir c, args.files ≠ [] → args.outputDirectory = some dir → d (e.resolve dir) ≠ some (.file c)) := by
  have hd : OnlyDirectories d (signOutputs e args d).2 := by
    unfold signOutputs
    split
    · exact .refl _
    · exact signOutputsLoop_disk e args args.files [] d
  rw [h] at hd
  unfold signOutputs at h
  split at h
  · cases h
  · rename_i hc
    obtain ⟨_, h2, h3, h4⟩ := signOutputsLoop_ok e args args.files [] [] map d d' h (mapFor_nil _)
    refine ⟨(signConflict_iff args).1 (by simpa using hc), fun f hf => (isFile_iff _ _ _).1 (h2 f hf), h3, hd, ?_⟩
    intro dir c hne hdir
    obtain ⟨f, hf⟩ := List.exists_mem_of_ne_nil _ hne
    have := h4 f hf c
    rw [hdir] at this
    exact this

theorem signOutputs_map (e : DiskEnv) (args : SignArgs) (d d' : Disk) (map : Dict Path SigningOutputs)
    (h : signOutputs e args d = (.ok map, d')) : MapFor args.files (signOutputsFor args) map := by
  unfold signOutputs at h
  split at h
  · cases h
  · have := (signOutputsLoop_ok e args args.files [] [] map d d' h (mapFor_nil _)).1
    simpa using this

theorem signOutputs_disk (e : DiskEnv) (args : SignArgs) (d : Disk) : OnlyDirectories d (signOutputs e args d).2 := by
  unfold signOutputs
  split
  · exact .refl _
  · exact signOutputsLoop_disk e args args.files [] d

theorem signOutputsLoop_total (e : DiskEnv) (args : SignArgs) (d : Disk) : ∀ (files : List Path) (map : Dict Path SigningOutputs),
    (∀ f ∈ files, ∃ c, d (e.resolve f) = some (.file c)) →
    (∀ f ∈ files, d (e.resolve (args.outputDirectory.getD f.parent)) = some .dir) →
    (args.overwrite = false → ∀ f ∈ files, ∀ p, SignOutput args f p → d (e.resolve p) = none) →
    ∃ map', signOutputsLoop e args map files d = (.ok map', d) := by
  intro files
  induction files with
  | nil => intro map _ _ _; exact ⟨map, rfl⟩
  | cons f files ih =>
    intro map h1 h2 h3
    have hone : signOutputsOne e args f d = (.ok (signOutputsFor args f), d) := by
      have hdir := h2 f (by simp)
      unfold signOutputsOne
      rw [(isFile_iff e d f).2 (h1 f (by simp))]
      simp only [Bool.not_true, Bool.false_eq_true, if_false]
      rw [show e.isDir d (args.outputDirectory.getD f.parent) = true by unfold DiskEnv.isDir; rw [hdir]; rfl]
      simp only [Bool.not_true, Bool.and_false, Bool.false_eq_true, if_false]
      rw [show e.mkdir d (args.outputDirectory.getD f.parent) = .ok d by unfold DiskEnv.mkdir; rw [hdir]]
      dsimp only
      rw [if_neg]
      · rfl
      · intro hx
        simp only [Bool.and_eq_true, Bool.not_eq_true'] at hx
        obtain ⟨ho, hx⟩ := hx
        have hs := fun p hp => h3 ho f (by simp) p hp
        have g1 : e.extant d args.signature = false := (extant_false_iff _ _ _).2 fun p hp => hs p (.signature hp)
        have g2 : e.extant d args.certificate = false := (extant_false_iff _ _ _).2 fun p hp => hs p (.certificate hp)
        have g3 : e.extant d (signBundlePath args f (args.outputDirectory.getD f.parent)) = false :=
          (extant_false_iff _ _ _).2 fun p hp => hs p ((signOutput_iff args f p).1
            ⟨.bundle p, (mem_outputs _ _).2 (.inr (.inr ⟨p, hp, rfl⟩)), rfl⟩)
        rw [g1, g2, g3] at hx
        cases hx
    rw [signOutputsLoop, hone]
    exact ih _ (fun g hg => h1 g (by simp [hg])) (fun g hg => h2 g (by simp [hg]))
      (fun ho g hg => h3 ho g (by simp [hg]))

/-- **C42** The checks are exact if the output directories already exist: they pass if and only if the options fit
together, every input is a file, and nothing exists at an output path or `--overwrite` is given. -/
theorem C42_checks_iff (e : DiskEnv) (args : SignArgs) (d : Disk)
    (hdir : ∀ f ∈ args.files, d (e.resolve (args.outputDirectory.getD f.parent)) = some .dir) :
    (∃ map d', signOutputs e args d = (.ok map, d')) ↔
      ConsistentSign args ∧ (∀ f ∈ args.files, ∃ c, d (e.resolve f) = some (.file c)) ∧
        (args.overwrite = false → ∀ f ∈ args.files, ∀ p, SignOutput args f p → d (e.resolve p) = none) := by
  constructor
  · rintro ⟨map, d', h⟩
    obtain ⟨h1, h2, h3, _⟩ := C42_checks_sound _ _ _ _ _ h
    exact ⟨h1, h2, h3⟩
  · rintro ⟨h1, h2, h3⟩
    obtain ⟨map, h⟩ := signOutputsLoop_total e args d args.files [] h2 hdir h3
    refine ⟨map, d, ?_⟩
    unfold signOutputs
    rw [(signConflict_iff args).2 h1]
    exact h

end Sigstore.Props
