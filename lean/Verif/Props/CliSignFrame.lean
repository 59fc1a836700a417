import Verif.Props.CliSignJobs

/-!
# C42: `sign` and `attest` change nothing but their outputs
-/

namespace Sigstore.Props

open Sigstore.Trust Sigstore.LogEntry Sigstore.Dsse Sigstore.Signing Sigstore.Cli Sigstore.Spec

/-- **C42** However `sign` ends, however its threads are scheduled, and even with `--overwrite`: a place that is not that of an
output of one of the files is as before, or a directory was made where nothing was. -/
theorem C42_sign_only_outputs (libs : SignLibs) (o : SignOracle) (trust : TrustArgs) (ident : IdentityArgs) (args : SignArgs)
    (s : SignState) (l : Path) (hl : ∀ f ∈ args.files, ∀ p, SignOutput args f p → libs.disk.resolve p ≠ l) :
    (signMain libs o trust ident args s).2.disk l = s.disk l ∨
      (s.disk l = none ∧ (signMain libs o trust ident args s).2.disk l = some .dir) := by
  unfold signMain
  have hd := signOutputs_disk libs.disk args s.disk
  cases h : signOutputs libs.disk args s.disk with
  | mk r d =>
    rw [h] at hd
    cases r with
    | error e => exact hd l
    | ok map =>
      dsimp only at hd ⊢
      obtain ⟨m1, m2, m3⟩ := signOutputs_map _ _ _ _ _ h
      rw [signCommon_frame]
      · exact hd l
      · intro f outs hm x hx
        have hf : f ∈ args.files := (m2 f).1 (List.mem_map.2 ⟨_, hm, rfl⟩)
        exact hl f hf x.path ((signOutput_iff args f x.path).1 ⟨x, by rw [← m3 f outs hm]; exact hx, rfl⟩)

/-- **C42** The same for `attest`, which makes no directories. -/
theorem C42_attest_only_outputs (libs : SignLibs) (o : SignOracle) (trust : TrustArgs) (ident : IdentityArgs) (args : AttestArgs)
    (s : SignState) (l : Path) (hl : ∀ f ∈ args.files, ∀ p, AttestBundlePath args f p → libs.disk.resolve p ≠ l) :
    (attestMain libs o trust ident args s).2.disk l = s.disk l := by
  unfold attestMain
  cases readPredicate libs.disk libs.loads args s.disk with
  | error e => rfl
  | ok pred =>
    dsimp only
    cases hm : attestOutputsLoop libs.disk args s.disk [] args.files with
    | error e => rfl
    | ok map =>
      dsimp only
      obtain ⟨⟨m1, m2, m3⟩, _⟩ := attestOutputsLoop_ok _ _ _ _ [] _ _ hm (mapFor_nil _)
      rw [List.nil_append] at m2
      rw [signCommon_frame]
      intro f outs hmem x hx
      have hf : f ∈ args.files := (m2 f).1 (List.mem_map.2 ⟨_, hmem, rfl⟩)
      rw [m3 f outs hmem] at hx
      have hx := List.mem_singleton.1 hx
      subst hx
      exact hl f hf _ ((attestBundlePath_iff args f _).1 rfl)

end Sigstore.Props
