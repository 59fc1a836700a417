import Verif.Props.ExitStatuses

/-!
# C124: verifying several inputs at once is verifying each of them
-/

namespace Sigstore.Props

open Sigstore.Trust Sigstore.LogEntry Sigstore.Dsse Sigstore.Signing Sigstore.Cli Sigstore.Spec Sigstore.Args Sigstore.Tuf

/-- without options that name materials, the materials of an input do not depend on the other inputs -/
theorem materialsFor_alone {fs : Fs} {inputs inputs' : List VerifyInput} {trust : TrustArgs} {i : VerifyInput} {m : Materials}
    (h : MaterialsFor fs ⟨inputs, none, none, none, trust⟩ i m) : MaterialsFor fs ⟨inputs', none, none, none, trust⟩ i m := by
  cases h with
  | explicitBundle h _ => cases h
  | foundBundle h1 h2 h3 h4 h5 => exact .foundBundle h1 h2 h3 h4 h5
  | foundLegacy h1 h2 h3 h4 h5 => exact .foundLegacy h1 h2 h3 h4 h5
  | detachedFile _ h => rcases h with h | h <;> exact absurd rfl h
  | detachedDigest _ h => cases h

theorem inputVerified_alone {venv : VerifyEnv} {fs : Fs} {now : Time} {inputs inputs' : List VerifyInput} {trust : TrustArgs}
    {v : Verifier} {policy : Cert → Py Unit} {decode : Bool} {i : VerifyInput}
    (h : InputVerified venv fs now ⟨inputs, none, none, none, trust⟩ v policy decode i) :
    InputVerified venv fs now ⟨inputs', none, none, none, trust⟩ v policy decode i := by
  obtain ⟨m, d, b, h1, h2⟩ := h
  exact ⟨m, d, b, materialsFor_alone h1, h2⟩

theorem consistent_alone_iff {inputs : List VerifyInput} {trust : TrustArgs} :
    Consistent ⟨inputs, none, none, none, trust⟩ ↔ ∀ h, .digest h ∉ inputs := by
  constructor
  · intro hc d hd
    rcases hc.digests d hd with h | ⟨h, _⟩ <;> exact absurd rfl h
  · intro h
    refine ⟨?_, fun _ => ⟨rfl, rfl⟩, fun d hd => absurd hd (h d), fun _ => ⟨rfl, rfl⟩⟩
    rintro (h | h | h) <;> exact absurd rfl h

/-- **C124** `sigstore verify` of several inputs, with the bundles found next to them, exits with status 0 if and only if it does so
for each of them alone, if all those runs get the same trust configuration. -/
theorem C124_together_iff_each (venv : VerifyEnv) (fs : Fs) (hl : LibrariesDoNotExit venv fs) (now : Time) (cmd : VerifyCommand)
    (verbose : Bool) (positional : List Str) (hne : positional ≠ []) (trust : TrustArgs) (w : VerifyWorld) (ws : Str → VerifyWorld)
    (hw : ∀ arg ∈ positional, (getTrustConfig fs venv.tuf venv.parsers trust (ws arg).tuf).1 =
      (getTrustConfig fs venv.tuf venv.parsers trust w.tuf).1) :
    exitStatus (verifyMain venv fs now cmd verbose positional none none none trust w).1 = 0 ↔
      ∀ arg ∈ positional, exitStatus (verifyMain venv fs now cmd verbose [arg] none none none trust (ws arg)).1 = 0 := by
  rw [C44_exit_zero_iff venv fs hl]
  constructor
  · rintro ⟨_, inputs, config, hf, hcfg, hs⟩ arg harg
    rw [C44_exit_zero_iff venv fs hl]
    obtain ⟨i, hi, hd⟩ := forall₂_mem_left hf arg harg
    obtain ⟨policy, certs, h1, h2, h3⟩ := hs.inputs
    refine ⟨by simp, [i], config, .cons hd .nil, (hw arg harg).trans hcfg, ?_, hs.rootType, hs.logs, policy, certs, h1, h2, ?_⟩
    · rw [consistent_alone_iff]
      intro d hd'
      have hc := hs.consistent
      rw [consistent_alone_iff] at hc
      exact hc d (by rw [List.mem_singleton.1 hd']; exact hi)
    · intro j hj
      rw [List.mem_singleton.1 hj]
      exact inputVerified_alone (h3 i hi)
  · intro h
    have h' : ∀ arg ∈ positional, ∃ i config, ArgDenotes fs arg i ∧
        (getTrustConfig fs venv.tuf venv.parsers trust w.tuf).1 = .ok config ∧
        VerifySucceeds venv fs now cmd ⟨[i], none, none, none, trust⟩ config := by
      intro arg harg
      obtain ⟨_, inputs, config, hf, hcfg, hs⟩ := (C44_exit_zero_iff venv fs hl ..).1 (h arg harg)
      cases hf with
      | cons hd hn =>
        cases hn
        exact ⟨_, config, hd, (hw arg harg).symm.trans hcfg, hs⟩
    obtain ⟨inputs, hf⟩ := forall₂_exists (R := ArgDenotes fs) (l := positional) fun arg harg => by
      obtain ⟨i, _, hd, _⟩ := h' arg harg
      exact ⟨i, hd⟩
    obtain ⟨a, ha⟩ := List.exists_mem_of_ne_nil _ hne
    obtain ⟨_, config, _, hcfg, hs⟩ := h' a ha
    obtain ⟨policy, certs, h1, h2, _⟩ := hs.inputs
    have hall : ∀ i ∈ inputs, VerifySucceeds venv fs now cmd ⟨[i], none, none, none, trust⟩ config := by
      intro i hi
      obtain ⟨arg, harg, hd⟩ := forall₂_mem_right hf i hi
      obtain ⟨j, config', hd', hcfg', hs'⟩ := h' arg harg
      rw [hcfg] at hcfg'
      rw [Except.ok.inj hcfg']
      obtain rfl : j = i := argDenotes_unique hd' hd
      exact hs'
    refine ⟨hne, inputs, config, hf, hcfg, ?_, hs.rootType, hs.logs, policy, certs, h1, h2, ?_⟩
    · rw [consistent_alone_iff]
      intro d hd
      have := (hall _ hd).consistent
      rw [consistent_alone_iff] at this
      exact this d (by simp)
    · intro i hi
      obtain ⟨policy', certs', g1, g2, g3⟩ := (hall i hi).inputs
      rw [h1] at g1
      rw [h2] at g2
      rw [Except.ok.inj g1, Except.ok.inj g2]
      exact inputVerified_alone (g3 i (by simp))

/-- **C124** In particular, neither the order of the inputs nor naming one of them twice makes a difference. -/
theorem C124_order (venv : VerifyEnv) (fs : Fs) (hl : LibrariesDoNotExit venv fs) (now : Time) (cmd : VerifyCommand)
    (verbose : Bool) (positional positional' : List Str) (hp : ∀ arg, arg ∈ positional ↔ arg ∈ positional') (trust : TrustArgs)
    (w : VerifyWorld) :
    exitStatus (verifyMain venv fs now cmd verbose positional none none none trust w).1 = 0 ↔
      exitStatus (verifyMain venv fs now cmd verbose positional' none none none trust w).1 = 0 := by
  by_cases hne : positional = []
  · have hne' : positional' = [] := by
      rw [List.eq_nil_iff_forall_not_mem]
      intro a ha
      rw [hne] at hp
      exact absurd ((hp a).2 ha) (by simp)
    rw [hne, hne']
  · have hne' : positional' ≠ [] := by
      rintro rfl
      apply hne
      rw [List.eq_nil_iff_forall_not_mem]
      intro a ha
      exact absurd ((hp a).1 ha) (by simp)
    rw [C124_together_iff_each venv fs hl now cmd verbose positional hne trust w (fun _ => w) fun _ _ => rfl,
      C124_together_iff_each venv fs hl now cmd verbose positional' hne' trust w (fun _ => w) fun _ _ => rfl]
    exact forall_congr' fun arg => by rw [hp arg]

/-! ## The whole program -/

/-- a trust configuration from a file does not depend on the state of the TUF client -/
theorem getTrustConfig_file {fs : Fs} {env : Tuf.Env} {parsers : TrustParsers} {trust : TrustArgs} {p : Path}
    (h : trust.trustConfig = some p) (t t' : Tuf.World) :
    (getTrustConfig fs env parsers trust t).1 = (getTrustConfig fs env parsers trust t').1 := by
  unfold getTrustConfig trustSource
  rw [h]
  dsimp only
  split
  · rfl
  · split <;> rfl

section Main

variable {libs : MainLibs} {o : SignOracle} {s : MainState} {environ : Environ} {line : CommandLine}
  (hlib : LibrariesDoNotExit libs.verify (libs.sign.disk.fs s.sign.disk)) (he : EnvironOk environ) (hl : LineOk line)
  {trust : TrustArgs} {config : Path} (ht : TrustOptions environ line.top line.sub true trust) (hv : trust.rekorVersion = none)
  (hconfig : trust.trustConfig = some config) (hm : VerifyOptions environ line.sub none none none)
  {r : Py Unit} (h : (Cli.main libs o environ line s).1 = some r)
  {runs : Str → MainState} (hruns : ∀ arg ∈ line.positional, (runs arg).sign.disk = s.sign.disk)
  {results : Str → Py Unit}
  (hr : ∀ arg ∈ line.positional, (Cli.main libs o environ { line with positional := [arg] } (runs arg)).1 = some (results arg))

include hlib he hl ht hv hconfig hm h hruns hr

/-- **C124** `sigstore --trust-config c verify identity` with several files exits with status 0 if and only if the same command
does so for each of the files alone, whatever else happened between these runs, as long as the files are the same. -/
theorem C124_main_verify_identity (hc : line.command = .verifyIdentity) {identity issuer : Str}
    (hi : LastGiven ["--cert-identity"] line.sub identity) (hs : LastGiven ["--cert-oidc-issuer"] line.sub issuer) :
    exitStatus r = 0 ↔ ∀ arg ∈ line.positional, exitStatus (results arg) = 0 := by
  have hne : line.positional ≠ [] := by
    have := hl.positional
    rw [hc] at this
    exact this
  rw [C89_verify_identity libs o s he hl hc ht hv hm hi hs] at h
  rw [← Option.some.inj h, verifyRun, C124_together_iff_each _ _ hlib _ _ _ _ hne _ _ (fun arg => ⟨(runs arg).sign.tuf, (runs arg).queries⟩)
    fun _ _ => getTrustConfig_file hconfig _ _]
  refine forall₂_congr fun arg harg => ?_
  have hl' : LineOk { line with positional := [arg] } :=
    { hl with positional := by rw [hc]; exact List.cons_ne_nil _ _ }
  have hx := hr arg harg
  rw [C89_verify_identity libs o (runs arg) he hl' hc ht hv hm hi hs] at hx
  rw [← Option.some.inj hx, verifyRun, hruns arg harg]
  rfl

/-- **C124** The same for `verify github`. -/
theorem C124_main_verify_github (hc : line.command = .verifyGithub) {args : GithubArgs} (ha : GithubOptions environ line.sub args) :
    exitStatus r = 0 ↔ ∀ arg ∈ line.positional, exitStatus (results arg) = 0 := by
  have hne : line.positional ≠ [] := by
    have := hl.positional
    rw [hc] at this
    exact this
  rw [C89_verify_github libs o s he hl hc ht hv hm ha] at h
  rw [← Option.some.inj h, verifyRun, C124_together_iff_each _ _ hlib _ _ _ _ hne _ _ (fun arg => ⟨(runs arg).sign.tuf, (runs arg).queries⟩)
    fun _ _ => getTrustConfig_file hconfig _ _]
  refine forall₂_congr fun arg harg => ?_
  have hl' : LineOk { line with positional := [arg] } :=
    { hl with positional := by rw [hc]; exact List.cons_ne_nil _ _ }
  have hx := hr arg harg
  rw [C89_verify_github libs o (runs arg) he hl' hc ht hv hm ha] at hx
  rw [← Option.some.inj hx, verifyRun, hruns arg harg]
  rfl

end Main

/-! ## A concrete run -/

/-- `verify identity … a a`: the file `a` is verified; the file `t` has no bundle, so that `a t` is refused -/
example : exitStatus (verifyMain exVerifyEnv exVerifyFs 3000000000 (.identity "me".toList "https://i".toList) false
      ["a".toList, "a".toList] none none none ⟨some (Path.ofStr "t".toList), none, false, false, none⟩ ⟨exTufWorld, []⟩).1 = 0 ∧
    exitStatus (verifyMain exVerifyEnv exVerifyFs 3000000000 (.identity "me".toList "https://i".toList) false
      ["a".toList, "t".toList] none none none ⟨some (Path.ofStr "t".toList), none, false, false, none⟩ ⟨exTufWorld, []⟩).1 ≠ 0 := by
  constructor
  · rw [C124_together_iff_each _ _ exLibraries _ _ _ _ (by simp) _ _ (fun _ => ⟨exTufWorld, []⟩) fun _ _ => rfl]
    intro arg harg
    obtain rfl : arg = "a".toList := by simpa using harg
    exact exVerified false
  · rw [ne_eq, C124_together_iff_each _ _ exLibraries _ _ _ _ (by simp) _ _ (fun _ => ⟨exTufWorld, []⟩) fun _ _ => rfl]
    intro h
    have := h "t".toList (by simp)
    rw [C100_verify] at this
    · cases this
    · refine .inl ?_
      rintro ⟨_, inputs, hf, hc, hm⟩
      cases hf with
      | cons hd hn =>
        cases hn
        cases hd with
        | digest h => revert h; decide
        | file h =>
          obtain ⟨m, hm⟩ := hm (VerifyInput.file (Path.ofStr "t".toList)) List.mem_cons_self
          cases hm with
          | explicitBundle h => cases h
          | foundBundle _ _ _ h => revert h; decide
          | foundLegacy _ _ _ _ h => revert h; decide
          | detachedFile _ h => rcases h with h | h <;> exact absurd rfl h

end Sigstore.Props
