import Verif.Props.CliSignCommands

/-!
# Concrete runs of `sign` and `attest`: the hypotheses can be met, and what goes wrong
-/

namespace Sigstore.Props

open Sigstore.Trust Sigstore.Dsse Sigstore.Signing Sigstore.Cli Sigstore.Spec

/-- the toy suite with a digest of 32 bytes for very short inputs -/
def exSignCrypto : Crypto := { toyCrypto with sha256 := fun b => if b.length ≤ 3 then List.replicate 32 b.sum else b }

/-- a path of one component -/
def exPath (s : String) : Path := ⟨false, [s.toList]⟩

/-- a signing configuration with one service of each kind -/
def exSigningConfig : Config.SigningConfigMsg :=
  ⟨Config.signingConfigMediaType, [⟨"f".toList, 1, some ⟨0, none⟩, "o".toList⟩], [⟨"i".toList, 1, some ⟨0, none⟩, "o".toList⟩],
   [⟨"r".toList, 1, some ⟨0, none⟩, "o".toList⟩], some ⟨.any, none⟩, [], none⟩

/-- a token -/
def exToken : Oidc.IdentityToken := ⟨[], .null, .null, .null, [], none⟩

/-- a small SLSA v1 predicate -/
def exPredicate : Json :=
  .obj [("buildDefinition".toList, .obj [("buildType".toList, .str "t".toList), ("externalParameters".toList, .obj [])]),
    ("runDetails".toList, .obj [("builder".toList, .obj [("id".toList, .str "i".toList)])])]

/-- libraries: JSON keeps only the first byte of the signed digest -/
def exSignLibs : SignLibs where
  env := { exSEnv with crypto := exSignCrypto }
  kp := exKeys
  tuf := exTufEnv exTufLibrary
  parsers :=
    { config := fun b => if b = [3] then .ok ⟨[], exRootMediaType, exRoot, exSigningConfig⟩ else .error .pydantic
      root := fun _ => .error .pydantic
      signingConfig := fun _ => .error .pydantic }
  codec := ⟨fun _ => none, fun st => match st.subjects with | [⟨_, [(_, hex)]⟩] => utf8 (hex.take 2) | _ => []⟩
  disk := ⟨id, fun _ => true, fun _ => true, fun _ => true, fun _ _ => true⟩
  toJson b :=
    match b.inner.messageSignature with
    | some m => ((m.digest.getD []).take 1).map fun x => Char.ofNat x.toNat
    | none => (b.inner.dsseEnvelope.elim [] EnvelopeMsg.payload).map fun x => Char.ofNat x.toNat
  loads := fun _ => some exPredicate
  identity := ⟨fun _ => .ok none, fun _ => .error .network, fun _ _ _ _ => .error .identity, fun _ _ => .ok exToken⟩

/-- a run with a given schedule -/
def exOracle (schedule : List Nat) : SignOracle where
  now := 1500000000
  first _ := exAnswers 1500000000
  shown := exAnswers 1500000000
  perFile _ := (exAnswers 1500000000, exAnswers 1500000000)
  schedule := schedule
  order := []

/-- files with one byte each, the directory they are in, and the trust configuration `t` -/
def exDisk (files : List (Path × UInt8)) : Disk := fun p =>
  if p = ⟨false, []⟩ then some .dir
  else if p = exPath "t" then some (.file [3])
  else (files.find? fun x => x.1 = p).map fun x => .file [x.2]

/-- the state before the command -/
def exSignState (files : List (Path × UInt8)) : SignState := ⟨exTufWorld, ⟨0, []⟩, exDisk files⟩

/-- `--trust-config t` -/
def exTrust : TrustArgs := ⟨some (exPath "t"), none, false, false, none⟩

/-- `--identity-token x` -/
def exIdent : IdentityArgs := ⟨some "x".toList, "sigstore".toList, none, false, none, false⟩

/-- `sigstore sign a b` -/
def exSignArgs : SignArgs := ⟨[exPath "a", exPath "b"], none, none, none, none, false, false⟩

/-- the two threads take turns -/
def exTurns : List Nat := (List.replicate 10 [0, 1]).flatten

theorem exSigned : (signMain exSignLibs (exOracle exTurns) exTrust exIdent exSignArgs
    (exSignState [(exPath "a", 1), (exPath "b", 2)])).1 = some (.ok ()) := by decide

/-- it is the case of C43 and C71 -/
example : ∃ token cert, IssuedFor exSignLibs.kp ((exOracle exTurns).first token) 0 cert ∧
      ∀ f ∈ exSignArgs.files, ∃ content b,
        exDisk [(exPath "a", 1), (exPath "b", 2)] f = some (.file content) ∧
        BundleOf exSignCrypto exKeys exSignLibs.codec 0 cert none f.name content b ∧
        HoldsBundle exSignLibs.disk exSignLibs.toJson (signMain exSignLibs (exOracle exTurns) exTrust exIdent exSignArgs
          (exSignState [(exPath "a", 1), (exPath "b", 2)])).2.disk b (f.parent.join (f.name ++ ".sigstore.json".toList)) :=
  C71_bundle_for_each_partial exSignLibs (exOracle exTurns) exTrust exIdent exSignArgs
    (exSignState [(exPath "a", 1), (exPath "b", 2)])
    (by intro f hf
        have hf : f = exPath "a" ∨ f = exPath "b" := by simpa [exSignArgs] using hf
        rcases hf with rfl | rfl <;> exact ⟨by decide, by decide⟩)
    (fun _ _ _ _ h => h) rfl rfl rfl rfl rfl rfl exSigned

/-- `sigstore sign a b` where `b.sigstore.json` exists fails early -/
example : ∃ e, (signMain exSignLibs (exOracle exTurns) exTrust exIdent exSignArgs
    (exSignState [(exPath "a", 1), (exPath "b", 2), (exPath "b.sigstore.json", 9)])).1 = some (.error e) :=
  (C42_fails_early _ _ _ _ _ _ (.inr (.inr (.inr ⟨rfl, exPath "b", by simp [exSignArgs], exPath "b.sigstore.json",
    .beside rfl rfl rfl, by decide⟩)))).1

/-- with explicit outputs the checks can pass -/
example : ∃ map d', signOutputs exSignLibs.disk
    ⟨[exPath "a"], some (exPath "s"), some (exPath "c"), none, none, true, false⟩ (exDisk [(exPath "a", 1)]) = (.ok map, d') := by
  refine (C42_checks_iff exSignLibs.disk ⟨[exPath "a"], some (exPath "s"), some (exPath "c"), none, none, true, false⟩
    (exDisk [(exPath "a", 1)]) ?_).2 ⟨⟨by simp, by simp, by simp, by simp⟩, ?_, ?_⟩
  · intro f hf
    rw [List.mem_singleton] at hf
    subst hf
    decide
  · intro f hf
    rw [List.mem_singleton] at hf
    subst hf
    exact ⟨[1], by decide⟩
  · intro _ f hf p hp
    cases hp with
    | signature h => cases h; decide
    | certificate h => cases h; decide
    | bundle h => cases h
    | inDirectory _ h => cases h
    | beside _ h => cases h

/-! ## C43 with `--overwrite` -/

/-- `sigstore sign --overwrite a a.sigstore.json` -/
def exClobberArgs : SignArgs := ⟨[exPath "a", exPath "a.sigstore.json"], none, none, none, none, false, true⟩

/-- the state before -/
def exClobberState : SignState := exSignState [(exPath "a", 1), (exPath "a.sigstore.json", 7)]

/-- the first thread runs before the second -/
def exSequential : List Nat := List.replicate 10 0 ++ List.replicate 10 1

theorem exClobbered :
    (signMain exSignLibs (exOracle exSequential) exTrust exIdent exClobberArgs exClobberState).1 = some (.ok ()) ∧
    (signMain exSignLibs (exOracle exSequential) exTrust exIdent exClobberArgs exClobberState).2.disk
      (exPath "a.sigstore.json.sigstore.json") = some (.file [11, 10]) := by decide

theorem exToJson_artifact {k : Nat} {cert : Cert} {name : Str} {x : UInt8} {b : Bundle}
    (h : BundleOf exSignCrypto exKeys exSignLibs.codec k cert none name [x] b) :
    exSignLibs.toJson b = [Char.ofNat x.toNat] := by
  obtain ⟨_, nonce, _, h⟩ := h
  have hs : exSignCrypto.sha256 [x] = List.replicate 32 (x + 0) := rfl
  rw [hs, UInt8.add_zero] at h
  simp only [exSignLibs, h]
  rfl

/-- **C43** With `--overwrite` an output may be an input: `sign --overwrite a a.sigstore.json` can succeed, with outputs that
lead to different places, although the output of the second input is not a bundle for what the user wanted to sign (it is
one for the bundle of `a`, which replaced it). -/
theorem C43_output_is_input : ∃ (libs : SignLibs) (o : SignOracle) (trust : TrustArgs) (ident : IdentityArgs) (args : SignArgs)
    (s : SignState), SignOutputsApart libs.disk args ∧ (signMain libs o trust ident args s).1 = some (.ok ()) ∧
      ∃ f ∈ args.files, ∃ content p, s.disk (libs.disk.resolve f) = some (.file content) ∧ SignBundlePath args f p ∧
        ∀ k cert b, BundleOf libs.env.crypto libs.kp libs.codec k cert none f.name content b →
          ¬HoldsBundle libs.disk libs.toJson (signMain libs o trust ident args s).2.disk b p := by
  refine ⟨exSignLibs, exOracle exSequential, exTrust, exIdent, exClobberArgs, exClobberState, ?_, exClobbered.1,
    exPath "a.sigstore.json", by simp [exClobberArgs], [7], exPath "a.sigstore.json.sigstore.json", by decide,
    .beside rfl rfl rfl, ?_⟩
  · have hout : ∀ f p, SignOutput exClobberArgs f p → p = f.parent.join (f.name ++ ".sigstore.json".toList) := by
      intro f p hp
      cases hp with
      | signature h => cases h
      | certificate h => cases h
      | bundle h => cases h
      | inDirectory _ _ h => cases h
      | beside => rfl
    refine ⟨?_, (by intro p q h; cases h), (by rintro f _ p q (h | h) <;> cases h)⟩
    intro f hf g hg hfg p q hp hq
    rw [hout f p hp, hout g q hq]
    have hf : f = exPath "a" ∨ f = exPath "a.sigstore.json" := by simpa [exClobberArgs] using hf
    have hg : g = exPath "a" ∨ g = exPath "a.sigstore.json" := by simpa [exClobberArgs] using hg
    rcases hf with rfl | rfl <;> rcases hg with rfl | rfl
    · exact absurd rfl hfg
    · decide
    · decide
    · exact absurd rfl hfg
  · intro k cert b hb hh
    have h1 := exClobbered.2
    have h2 : (signMain exSignLibs (exOracle exSequential) exTrust exIdent exClobberArgs exClobberState).2.disk
      (exPath "a.sigstore.json.sigstore.json") = _ := hh
    rw [exToJson_artifact hb] at h2
    rw [h1] at h2
    revert h2
    decide

/-! ## C71 with `--output-directory` -/

/-- `sigstore sign --output-directory out d/a e/a` -/
def exSameArgs : SignArgs :=
  ⟨[⟨false, ["d".toList, "a".toList]⟩, ⟨false, ["e".toList, "a".toList]⟩], none, none, none, some (exPath "out"), false, false⟩

/-- the state before -/
def exSameState : SignState :=
  exSignState [(⟨false, ["d".toList, "a".toList]⟩, 1), (⟨false, ["e".toList, "a".toList]⟩, 2)]

theorem exSame :
    (signMain exSignLibs (exOracle exSequential) exTrust exIdent exSameArgs exSameState).1 = some (.ok ()) ∧
    (signMain exSignLibs (exOracle exSequential) exTrust exIdent exSameArgs exSameState).2.disk
      ⟨false, ["out".toList, "a.sigstore.json".toList]⟩ = some (.file [2, 10]) := by decide

/-- **C71** With `--output-directory`, inputs of the same name share one output: `sign --output-directory out d/a e/a` can
succeed although no output holds a bundle for the first input. -/
theorem C71_same_names_collide : ∃ (libs : SignLibs) (o : SignOracle) (trust : TrustArgs) (ident : IdentityArgs) (args : SignArgs)
    (s : SignState), args.overwrite = false ∧ args.noDefaultFiles = false ∧
      (signMain libs o trust ident args s).1 = some (.ok ()) ∧
      ∃ f ∈ args.files, ∃ content, s.disk (libs.disk.resolve f) = some (.file content) ∧
        ∀ k cert b p, BundleOf libs.env.crypto libs.kp libs.codec k cert none f.name content b → SignBundlePath args f p →
          ¬HoldsBundle libs.disk libs.toJson (signMain libs o trust ident args s).2.disk b p := by
  refine ⟨exSignLibs, exOracle exSequential, exTrust, exIdent, exSameArgs, exSameState, rfl, rfl, exSame.1,
    ⟨false, ["d".toList, "a".toList]⟩, by simp [exSameArgs], [1], by decide, ?_⟩
  intro k cert b p hb hp hh
  cases hp with
  | explicit h => cases h
  | beside _ _ h => cases h
  | inDirectory _ _ h =>
    cases h
    have h1 := exSame.2
    have h2 : (signMain exSignLibs (exOracle exSequential) exTrust exIdent exSameArgs exSameState).2.disk
      ⟨false, ["out".toList, "a.sigstore.json".toList]⟩ = _ := hh
    rw [exToJson_artifact hb] at h2
    rw [h1] at h2
    revert h2
    decide

/-! ## C46 with `--bundle` -/

/-- `sigstore attest --predicate p --predicate-type ... --bundle x a b` -/
def exSharedArgs : AttestArgs := ⟨[exPath "a", exPath "b"], exPath "p", slsaV10, some (exPath "x"), false⟩

/-- the same without `--bundle` -/
def exAttestArgs : AttestArgs := ⟨[exPath "a", exPath "b"], exPath "p", slsaV10, none, false⟩

/-- the state before -/
def exAttestState : SignState := exSignState [(exPath "a", 1), (exPath "b", 2), (exPath "p", 5)]

theorem exShared :
    (attestMain exSignLibs (exOracle exSequential) exTrust exIdent exSharedArgs exAttestState).1 = some (.ok ()) ∧
    (attestMain exSignLibs (exOracle exSequential) exTrust exIdent exSharedArgs exAttestState).2.disk (exPath "x") =
      some (.file (utf8 "02\n".toList)) := by decide

/-- **C46** `attest --bundle x a b` can succeed although the only output holds no attestation about the first input: both
are written to `x`. -/
theorem C46_shared_bundle : ∃ (libs : SignLibs) (o : SignOracle) (trust : TrustArgs) (ident : IdentityArgs) (args : AttestArgs)
    (s : SignState), args.overwrite = false ∧ (attestMain libs o trust ident args s).1 = some (.ok ()) ∧
      ∃ f ∈ args.files, ∃ content, s.disk (libs.disk.resolve f) = some (.file content) ∧
        ∀ k cert pred b p, BundleOf libs.env.crypto libs.kp libs.codec k cert (some (args.predicateType, pred)) f.name content b →
          AttestBundlePath args f p → ¬HoldsBundle libs.disk libs.toJson (attestMain libs o trust ident args s).2.disk b p := by
  refine ⟨exSignLibs, exOracle exSequential, exTrust, exIdent, exSharedArgs, exAttestState, rfl, exShared.1, exPath "a",
    by simp [exSharedArgs], [1], by decide, ?_⟩
  intro k cert pred b p hb hp hh
  cases hp with
  | beside h => cases h
  | explicit h =>
    cases h
    obtain ⟨_, nonce, hm, payload, hp, hd⟩ := hb
    have hj : exSignLibs.toJson b = "01".toList := by
      simp only [exSignLibs, hm, hd, Option.elim_some]
      rw [hp]
      show List.map (fun x => Char.ofNat x.toNat) (utf8 ((hexEncode (exSignCrypto.sha256 [1])).take 2)) = _
      decide
    have h1 := exShared.2
    have h2 : (attestMain exSignLibs (exOracle exSequential) exTrust exIdent exSharedArgs exAttestState).2.disk
      (exPath "x") = _ := hh
    rw [hj] at h2
    rw [h1] at h2
    revert h2
    decide

/-- without `--bundle` each input has its own attestation -/
example : ∃ token cert pred predicate, (∃ cfg, signIdentity exSignLibs.identity 1500000000 exIdent cfg = .ok token) ∧
      IssuedFor exSignLibs.kp ((exOracle exTurns).first token) exAttestState.world.keys cert ∧
      exAttestState.disk (exSignLibs.disk.resolve exAttestArgs.predicate) = some (.file predicate) ∧
      (∃ text, utf8Decode predicate = some text ∧ exSignLibs.loads text = some (.obj pred)) ∧
      ∀ f ∈ exAttestArgs.files, ∃ content b p, exAttestState.disk (exSignLibs.disk.resolve f) = some (.file content) ∧
        BundleOf exSignLibs.env.crypto exSignLibs.kp exSignLibs.codec exAttestState.world.keys cert
          (some (exAttestArgs.predicateType, pred)) f.name content b ∧
        AttestBundlePath exAttestArgs f p ∧
        HoldsBundle exSignLibs.disk exSignLibs.toJson
          (attestMain exSignLibs (exOracle exTurns) exTrust exIdent exAttestArgs exAttestState).2.disk b p := by
  refine C46_own_attestation_partial exSignLibs (exOracle exTurns) exTrust exIdent exAttestArgs exAttestState ?_ (.inl rfl) (by decide)
  intro f hf g hg hfg p q hp hq
  rw [← (attestBundlePath_iff _ _ _).2 hp, ← (attestBundlePath_iff _ _ _).2 hq]
  have hf : f = exPath "a" ∨ f = exPath "b" := by simpa [exAttestArgs] using hf
  have hg : g = exPath "a" ∨ g = exPath "b" := by simpa [exAttestArgs] using hg
  rcases hf with rfl | rfl <;> rcases hg with rfl | rfl
  · exact absurd rfl hfg
  · decide
  · decide
  · exact absurd rfl hfg

/-! ## C72 -/

/-- each of the three sources is used in some configuration -/
example (cfg : LoadedConfig) : IdentityFrom exSignLibs.identity 0 exIdent cfg exToken :=
  .explicit (tok := "x".toList) rfl (by decide) rfl

example (cfg : LoadedConfig) : signIdentity { exSignLibs.identity with detect := fun _ => .ok (some "y".toList) } 0
    { exIdent with identityToken := none } cfg = .ok exToken :=
  (C72_identity_iff _ _ _ _ _).2 (.ambient (tok := "y".toList) (by intro tok h; cases h) rfl rfl (by decide) rfl)

example (cfg : LoadedConfig) : signIdentity { exSignLibs.identity with issuer := fun _ => .ok (), interactive := fun _ _ _ _ => .ok exToken } 0
    { exIdent with identityToken := some [], issuer := some "u".toList } cfg = .ok exToken :=
  (C72_identity_iff _ _ _ _ _).2 (.interactive (url := "u".toList) (by intro tok h; cases h; rfl) (.inr (.inl rfl)) (.option rfl)
    rfl rfl)

end Sigstore.Props
