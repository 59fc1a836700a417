import Verif.Model.Library
import Verif.Props.CliExitStatus

/-!
# C127: the command line and the library agree
-/

namespace Sigstore.Props

open Sigstore.Trust Sigstore.LogEntry Sigstore.Dsse Sigstore.Cli Sigstore.Tuf Sigstore.Spec

/-- the verifier of the library is made of the trust configuration that the command line loads -/
theorem library_verifier_iff {venv : VerifyEnv} {fs : Fs} {now : Time} {useStaging offline : Bool} {w : Tuf.World} {v : Verifier} :
    (if useStaging then Library.staging venv.tuf venv.parsers now offline w
      else Library.production venv.tuf venv.parsers now offline w).1 = .ok v ↔
    ∃ config, (getTrustConfig fs venv.tuf venv.parsers ⟨none, none, useStaging, offline, none⟩ w).1 = .ok config ∧
      config.rootMediaType = "application/vnd.dev.sigstore.trustedroot+json;version=0.1".toList ∧ config.root.tlogs ≠ [] ∧
      getFulcioCerts now config.root = .ok v.fulcioCerts ∧ v.root = config.root := by
  have hc : ∀ url, (Library.verifierFor now (Library.trustConfigFromTuf venv.tuf venv.parsers url offline w)).1 = .ok v ↔
      ∃ config, (Library.trustConfigFromTuf venv.tuf venv.parsers url offline w).1 = .ok config ∧
        config.rootMediaType = "application/vnd.dev.sigstore.trustedroot+json;version=0.1".toList ∧ config.root.tlogs ≠ [] ∧
        getFulcioCerts now config.root = .ok v.fulcioCerts ∧ v.root = config.root := by
    intro url
    obtain ⟨r, w'⟩ := Library.trustConfigFromTuf venv.tuf venv.parsers url offline w
    cases r with
    | error e =>
      constructor
      · intro h; cases h
      · rintro ⟨_, h, _⟩; cases h
    | ok config =>
      unfold Library.verifierFor
      dsimp only
      unfold LoadedConfig.trustedRoot
      constructor
      · intro h
        split at h
        · cases h
        · rename_i root hr
          split at hr
          · rename_i hm
            cases hr
            unfold Verifier.init at h
            dsimp only at h
            split at h
            · cases h
            · rename_i certs hcs
              split at h
              · cases h
              · rename_i ht
                cases h
                exact ⟨config, rfl, hm, by rw [ht]; exact List.cons_ne_nil _ _, hcs, rfl⟩
          · cases hr
      · rintro ⟨config', h, hm, ht, hcs, hv⟩
        cases h
        rw [if_pos (show config.rootMediaType = Config.trustedRootMediaType from hm)]
        dsimp only
        unfold Verifier.init
        rw [hcs]
        dsimp only
        cases htl : config.root.tlogs with
        | nil => exact absurd htl ht
        | cons t ts =>
          dsimp only
          rw [← hv]
  have hg : ∀ url, trustSource ⟨none, none, useStaging, offline, none⟩ = .tuf url →
      getTrustConfig fs venv.tuf venv.parsers ⟨none, none, useStaging, offline, none⟩ w =
      Library.trustConfigFromTuf venv.tuf venv.parsers url offline w := by
    intro url h
    unfold getTrustConfig Library.trustConfigFromTuf
    rw [h]
    rfl
  cases useStaging with
  | true =>
    rw [if_pos rfl, hg stagingTufUrl rfl]
    exact hc _
  | false =>
    rw [if_neg (by decide), hg defaultTufUrl rfl]
    exact hc _

section Agree

variable (venv : VerifyEnv) (fs : Fs) (hl : LibrariesDoNotExit venv fs) (now : Time) (cmd : VerifyCommand) (verbose useStaging offline : Bool)
  (arg : Str) (bundle : Path) (w : VerifyWorld)

include hl

/-- exit status 0 of `sigstore [--staging] verify … [--offline] --bundle bundle arg`, in terms of the library -/
theorem cli_bundle_iff :
    exitStatus (verifyMain venv fs now cmd verbose [arg] none none (some bundle) ⟨none, none, useStaging, offline, none⟩ w).1 = 0 ↔
    ∃ i d raw b v policy, ArgDenotes fs arg i ∧ DigestOf venv.env.crypto fs i d ∧ fs.isFile bundle = true ∧ fs.read bundle = .ok raw ∧
      Library.bundleFromJson venv raw = .ok b ∧
      (if useStaging then Library.staging venv.tuf venv.parsers now offline w.tuf
        else Library.production venv.tuf venv.parsers now offline w.tuf).1 = .ok v ∧
      cmd.policy = .ok policy ∧ Accepted venv now v policy.verify (PrintsText cmd) d b := by
  rw [C44_exit_zero_iff venv fs hl]
  constructor
  · rintro ⟨_, inputs, config, hd, hcfg, hs⟩
    obtain ⟨policy, certs, hp, hcs, hin⟩ := hs.inputs
    cases hd with
    | cons hd hn =>
      rename_i i rest
      cases hn
      obtain ⟨m, d, b, hm, hdig, hload, hacc⟩ := hin i List.mem_cons_self
      cases hm with
      | explicitBundle hb hf =>
        cases hb
        cases hload with
        | bundled hr hpb hinit =>
          refine ⟨i, d, _, b, ⟨config.root, certs⟩, policy, hd, hdig, hf, hr, ?_, ?_, hp, hacc⟩
          · unfold Library.bundleFromJson
            rw [hpb]
            exact hinit
          · exact (library_verifier_iff (fs := fs)).2 ⟨config, hcfg, hs.rootType, hs.logs, hcs, rfl⟩
      | foundBundle hb => cases hb
      | foundLegacy hb => cases hb
      | detachedFile hb => cases hb
      | detachedDigest hb => cases hb
  · rintro ⟨i, d, raw, b, v, policy, hd, hdig, hf, hr, hb, hv, hp, hacc⟩
    obtain ⟨config, hcfg, hm, ht, hcs, hroot⟩ := (library_verifier_iff (fs := fs)).1 hv
    refine ⟨List.cons_ne_nil _ _, [i], config, .cons hd .nil, hcfg, ⟨fun _ => Nat.le_refl _, fun _ => ⟨rfl, rfl⟩,
      fun _ _ => .inl (by simp), fun _ => ⟨rfl, rfl⟩⟩, hm, ht, policy, _, hp, hcs, ?_⟩
    intro i' hi'
    rw [List.mem_singleton] at hi'
    subst hi'
    unfold Library.bundleFromJson at hb
    split at hb
    · cases hb
    · rename_i msg hmsg
      refine ⟨_, d, b, .explicitBundle rfl hf, hdig, .bundled hr hmsg hb, ?_⟩
      have : (⟨config.root, v.fulcioCerts⟩ : Verifier) = v := by rw [← hroot]
      rw [this]
      exact hacc

/-- **C127** For a file and a bundle without an envelope, `sigstore [--staging] verify … [--offline] --bundle bundle file` exits with
status 0 exactly if the same program written with the library succeeds. -/
theorem C127_artifact (hfile : fs.isFile (Path.ofStr arg) = true) (hbundle : fs.isFile bundle = true)
    (hsig : ∀ raw b, fs.read bundle = .ok raw → Library.bundleFromJson venv raw = .ok b → b.inner.dsseEnvelope = none) :
    exitStatus (verifyMain venv fs now cmd verbose [arg] none none (some bundle) ⟨none, none, useStaging, offline, none⟩ w).1 = 0 ↔
    ∃ policy, cmd.policy = .ok policy ∧
      Library.verifyFile venv fs now useStaging offline (Path.ofStr arg) bundle policy.verify w.tuf = .ok () := by
  rw [cli_bundle_iff venv fs hl]
  constructor
  · rintro ⟨i, d, raw, b, v, policy, hd, hdig, _, hr, hb, hv, hp, hacc⟩
    refine ⟨policy, hp, ?_⟩
    cases hd with
    | digest hf => rw [hfile] at hf; cases hf
    | file _ =>
      cases hdig with
      | file hc =>
        unfold Library.verifyFile
        rw [hc]
        dsimp only
        rw [hr]
        dsimp only
        rw [hb]
        dsimp only
        rw [hv]
        dsimp only
        rcases hacc with ⟨_, h⟩ | ⟨h, _⟩
        · exact h
        · exact absurd (hsig raw b hr hb) h
  · rintro ⟨policy, hp, h⟩
    unfold Library.verifyFile at h
    split at h
    · cases h
    · rename_i input hinput
      split at h
      · cases h
      · rename_i raw hr
        split at h
        · cases h
        · rename_i b hb
          split at h
          · cases h
          · rename_i v hv
            exact ⟨_, _, raw, b, v, policy, .file hfile, .file hinput, hbundle, hr, hb, hv, hp, .inl ⟨hsig raw b hr hb, h⟩⟩

/-- **C127** For a bundle with an envelope: exactly if the library returns the statement, which has the input as a subject (and is
text, if the command prints it). -/
theorem C127_attestation (i : VerifyInput) (hi : ArgDenotes fs arg i) (hbundle : fs.isFile bundle = true)
    (hsig : ∀ raw b, fs.read bundle = .ok raw → Library.bundleFromJson venv raw = .ok b → b.inner.dsseEnvelope ≠ none) :
    exitStatus (verifyMain venv fs now cmd verbose [arg] none none (some bundle) ⟨none, none, useStaging, offline, none⟩ w).1 = 0 ↔
    ∃ policy d payload statement, cmd.policy = .ok policy ∧ DigestOf venv.env.crypto fs i d ∧
      Library.verifyAttestation venv fs now useStaging offline bundle policy.verify w.tuf =
        .ok ("application/vnd.in-toto+json".toList, payload) ∧
      venv.codec.parse payload = some statement ∧ d.algorithm = .sha2_256 ∧ HasSubject statement d ∧
      (PrintsText cmd = true → ∃ text, payload = utf8 text) := by
  rw [cli_bundle_iff venv fs hl]
  constructor
  · rintro ⟨i', d, raw, b, v, policy, hd, hdig, _, hr, hb, hv, hp, hacc⟩
    have : i' = i := by
      cases hd with
      | file hf =>
        cases hi with
        | file _ => rfl
        | digest hf' => rw [hf] at hf'; cases hf'
      | digest hf hx =>
        cases hi with
        | file hf' => rw [hf] at hf'; cases hf'
        | digest _ hx' =>
          obtain ⟨c, s, e, ht, _⟩ := hx
          obtain ⟨c', s', e', ht', _⟩ := hx'
          rw [e] at e'
          have := List.append_cancel_left e'
          cases this
          have := ((hexDecode_iff _ _).2 ht).symm.trans ((hexDecode_iff _ _).2 ht')
          cases this
          rfl
    subst this
    rcases hacc with ⟨h, _⟩ | ⟨_, payload, statement, h1, h2, h3, h4, h5⟩
    · exact absurd h (hsig raw b hr hb)
    · refine ⟨policy, d, payload, statement, hp, hdig, ?_, h2, h3, h4, h5⟩
      unfold Library.verifyAttestation
      rw [hr]
      dsimp only
      rw [hb]
      dsimp only
      rw [hv]
      exact h1
  · rintro ⟨policy, d, payload, statement, hp, hdig, h, h2, h3, h4, h5⟩
    unfold Library.verifyAttestation at h
    split at h
    · cases h
    · rename_i raw hr
      split at h
      · cases h
      · rename_i b hb
        split at h
        · cases h
        · rename_i v hv
          exact ⟨i, d, raw, b, v, policy, hi, hdig, hbundle, hr, hb, hv, hp,
            .inr ⟨hsig raw b hr hb, payload, statement, h, h2, h3, h4, h5⟩⟩

end Agree

/-! ## A concrete run -/

/-- the external functions of the other examples, with a trusted root and a signing config that are in the cache of the TUF client -/
def exLibraryEnv : VerifyEnv :=
  { exVerifyEnv with
    parsers :=
      { exVerifyEnv.parsers with
        root := fun b => if b = [1, 2] then .ok (exRootMediaType, exRoot) else .error .pydantic
        signingConfig := fun _ => .ok ⟨[], [], [], [], none, [], none⟩ } }

theorem exLibraryDoesNotExit : LibrariesDoNotExit exLibraryEnv exVerifyFs :=
  { exLibraries with
    root := fun b h => by
      simp only [exLibraryEnv] at h
      split at h <;> simp at h
    signingConfig := fun b h => by simp [exLibraryEnv] at h }

/-- the library accepts the bundle of the other examples, so the command line does -/
example : exitStatus (verifyMain exLibraryEnv exVerifyFs 3000000000 (.identity "me".toList "https://i".toList) false ["a".toList]
      none none (some (Path.ofStr "a.sigstore.json".toList)) ⟨none, none, false, true, none⟩ ⟨exTufWorld, []⟩).1 = 0 := by
  rw [C127_artifact _ _ exLibraryDoesNotExit _ _ _ _ _ _ _ _ (by decide) (by decide)]
  · refine ⟨_, rfl, ?_⟩
    decide +kernel
  · intro raw b hr hb
    have : raw = [1] := by
      have h : exVerifyFs.read (Path.ofStr "a.sigstore.json".toList) = .ok [1] := by decide
      rw [h] at hr
      cases hr
      rfl
    subst this
    have h : Library.bundleFromJson exLibraryEnv [1] = .ok exBundle := by decide
    rw [h] at hb
    cases hb
    rfl

end Sigstore.Props
