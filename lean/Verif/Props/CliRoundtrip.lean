import Verif.Spec.Roundtrip
import Verif.Props.EndToEnd
import Verif.Props.CliMainStatus

/-!
# C102: what was signed verifies
-/

namespace Sigstore.Props

open Sigstore.Trust Sigstore.LogEntry Sigstore.Dsse Sigstore.Signing Sigstore.Cli Sigstore.Spec

section Core

variable {env : Env} {kp : KeyPairs} {toJson : Bundle → Str} {parseBundle : Bytes → Py BundleMsg}

/-- a bundle that a signer returned can be constructed from its message -/
theorem init_of_signed {ctx : Context} {a : Answers} {s : Signer} {w w' : Signing.World} {call : Call} {b : Bundle}
    (h : s.sign env ctx kp a w call = (.ok b, w')) : Bundle.init env b.inner = .ok b := by
  obtain ⟨_, _, _, _, _, _, _, _, _, _, _, _, h⟩ := (sign_ok_iff _ _ _ _ _ _ _ _ _).1 h
  exact (C31_bundle_iff _ _ _).2 ⟨rfl, ((fromParts_ok_iff _ _ _ _ _ _).1 h).2.2.2.2.2.2.2⟩

/-- a bundle that was signed with honest services is accepted for its input exactly if the policy accepts the certificate -/
theorem accepted_iff_policy {je : JobEnv} {venv : VerifyEnv} {now : Time} {v : Verifier} {ct log : ServiceKey} {cert : Cert}
    {first a : Answers} {k : Nat} {w₀ w₁ w w' : Signing.World} {f : Path} {content : Bytes} {call : Call} {b : Bundle}
    (hf : FaithfulLibs je.env je.kp toJson parseBundle) (henv : venv.env = je.env) (hcodec : venv.codec = je.codec)
    (hback : ReadsBack je.codec je.predicate)
    (hs : HonestServices je.env now v ct log cert first (· = a))
    (hinit : Signer.init je.env je.ctx je.kp first true w₀ = (.ok ⟨some k, some cert⟩, w₁))
    (hb : BundleOf je.env.crypto je.kp je.codec k cert je.predicate f.name content b)
    (hcall : callFor je f ⟨.sha2_256, je.env.crypto.sha256 content⟩ = .ok call)
    (hsign : (⟨some k, some cert⟩ : Signer).sign je.env je.ctx je.kp a w call = (.ok b, w'))
    (policy : Cert → Py Unit) (decode : Bool) :
    Accepted venv now v policy decode ⟨.sha2_256, je.env.crypto.sha256 content⟩ b ↔ policy cert = .ok () := by
  obtain ⟨hc, hv⟩ := C38_signed_bundle_verifies_partial je.env je.ctx je.kp first a w₀ w₁ w w' _ cert call b now v ct log hinit
    rfl hsign hf.keys hf.sha256 hf.numbers hs.ctTrusted hs.logTrusted hs.properTsas hs.fulcio (hs.rekor a rfl) (hs.tsas a rfl)
  have hv := hv policy
  unfold Accepted
  rw [henv, hcodec]
  unfold callFor at hcall
  obtain ⟨_, nonce, hb⟩ := hb
  cases hp : je.predicate with
  | none =>
    rw [hp] at hcall hb
    dsimp only at hcall hb
    cases hcall
    rw [VerifiesUpToPolicy, hc] at hv
    rw [hv]
    constructor
    · rintro (⟨_, h⟩ | ⟨h, _⟩)
      · exact h
      · exact absurd hb.1 h
    · intro h
      exact .inl ⟨hb.1, h⟩
  | some p =>
    obtain ⟨pt, pred⟩ := p
    rw [hp] at hcall hb
    dsimp only at hcall hb
    cases hcall
    rw [VerifiesUpToPolicy, hc] at hv
    rw [hv]
    obtain ⟨_, payload, rfl, he⟩ := hb
    obtain ⟨h1, h2⟩ := hback pt pred hp f.name (hexEncode (je.env.crypto.sha256 content))
    constructor
    · rintro (⟨h, _⟩ | ⟨_, _, _, h, _⟩)
      · rw [he] at h; cases h
      · cases hpol : policy cert with
        | error e => rw [hpol] at h; cases h
        | ok u => rfl
    · intro h
      refine .inr ⟨by rw [he]; simp, _, _, ?_, h1, rfl, ⟨_, List.mem_singleton.2 rfl, rfl⟩, fun _ => h2⟩
      rw [h]
      rfl

/-- verifying one file whose bundle is where `verify` looks for it -/
theorem inputVerified_iff_policy {je : JobEnv} {venv : VerifyEnv} {now : Time} {v : Verifier} {ct log : ServiceKey} {cert : Cert}
    {first a : Answers} {k : Nat} {w₀ w₁ w w' : Signing.World} {f p : Path} {content : Bytes} {call : Call} {b : Bundle} {d : Disk}
    {args : VerifyArgs}
    (hf : FaithfulLibs je.env je.kp je.toJson venv.parseBundle) (henv : venv.env = je.env) (hcodec : venv.codec = je.codec)
    (hback : ReadsBack je.codec je.predicate)
    (hs : HonestServices je.env now v ct log cert first (· = a))
    (hinit : Signer.init je.env je.ctx je.kp first true w₀ = (.ok ⟨some k, some cert⟩, w₁))
    (hb : BundleOf je.env.crypto je.kp je.codec k cert je.predicate f.name content b)
    (hcall : callFor je f ⟨.sha2_256, je.env.crypto.sha256 content⟩ = .ok call)
    (hsign : (⟨some k, some cert⟩ : Signer).sign je.env je.ctx je.kp a w call = (.ok b, w'))
    (hfile : d (je.disk.resolve f) = some (.file content)) (hcr : je.disk.canRead f = true)
    (hholds : HoldsBundle je.disk je.toJson d b p) (hcp : je.disk.canRead p = true)
    (hlooks : LooksAt je.disk d args.bundle f p) (hcert : args.certificate = none) (hsig : args.signature = none)
    (policy : Cert → Py Unit) (decode : Bool) :
    InputVerified venv (je.disk.fs d) now args v policy decode (.file f) ↔ policy cert = .ok () := by
  rw [← accepted_iff_policy (venv := venv) hf henv hcodec hback hs hinit hb hcall hsign policy decode]
  have hpf : (je.disk.fs d).isFile p = true := (isFile_iff _ _ _).2 ⟨_, hholds⟩
  have hread : (je.disk.fs d).read f = .ok content := by
    show je.disk.read d f = _
    unfold DiskEnv.read
    rw [hfile]
    exact if_pos hcr
  have hreadp : (je.disk.fs d).read p = .ok (utf8 (je.toJson b ++ "\n".toList)) := by
    show je.disk.read d p = _
    unfold DiskEnv.read
    rw [hholds]
    exact if_pos hcp
  have hinitb := init_of_signed hsign
  have hparse := hf.json b hinitb
  constructor
  · rintro ⟨m, h, b', hm, hd, hl, hacc⟩
    have hmp : m = .bundled p := by
      cases hlooks with
      | explicit hx =>
        cases hm with
        | explicitBundle h1 _ => rw [hx] at h1; cases h1; rfl
        | foundBundle h1 => rw [hx] at h1; cases h1
        | foundLegacy h1 => rw [hx] at h1; cases h1
        | detachedFile h1 => rw [hx] at h1; cases h1
      | beside hx hno =>
        cases hm with
        | explicitBundle h1 _ => rw [hx] at h1; cases h1
        | foundBundle => rfl
        | foundLegacy _ _ _ _ h5 =>
          obtain ⟨c, hc⟩ := (isFile_iff _ _ _).1 h5
          exact absurd hc (hno c)
        | detachedFile _ h2 =>
          rcases h2 with h2 | h2
          · exact absurd hcert h2
          · exact absurd hsig h2
    subst hmp
    cases hd with
    | file hr =>
      rw [hread] at hr
      cases hr
      cases hl with
      | bundled g1 g2 g3 =>
        rw [hreadp] at g1
        cases g1
        rw [hparse] at g2
        cases g2
        rw [henv, hinitb] at g3
        cases g3
        rw [henv] at hacc
        exact hacc
  · intro hacc
    refine ⟨.bundled p, _, b, ?_, .file hread, .bundled hreadp hparse (by rw [henv]; exact hinitb), by rw [henv]; exact hacc⟩
    cases hlooks with
    | explicit hx => exact .explicitBundle hx hpf
    | beside hx hno =>
      refine .foundBundle hx hcert hsig hpf ?_
      cases hl : (je.disk.fs d).isFile (Beside f ".sigstore".toList) with
      | false => rfl
      | true =>
        obtain ⟨c, hc⟩ := (isFile_iff _ _ _).1 hl
        exact absurd hc (hno c)

end Core

/-! ## The commands -/

theorem honestServices_mono {env : Env} {now : Time} {v : Verifier} {ct log : ServiceKey} {cert : Cert} {first : Answers}
    {P Q : Answers → Prop} (h : HonestServices env now v ct log cert first P) (hq : ∀ a, Q a → P a) :
    HonestServices env now v ct log cert first Q :=
  ⟨h.ctTrusted, h.logTrusted, h.properTsas, h.fulcio, fun a ha => h.rekor a (hq a ha), fun a ha => h.tsas a (hq a ha)⟩

theorem ne_nil_of_started {now : Time} {ms : List PublicKeyMsg} (h : startedKeys now ms ≠ []) : ms ≠ [] := by
  rintro rfl
  exact h rfl

/-- verifying what the threads left behind, in a state in which nothing that was there has changed -/
theorem verify_after_signCommon (libs : MainLibs)
    (hf : FaithfulLibs libs.sign.env libs.sign.kp libs.sign.toJson libs.parseBundle) (o : SignOracle) (trust : TrustArgs)
    (ident : IdentityArgs) (map : Dict Path SigningOutputs) (predicate : Option (Str × Dict Str Json))
    (hback : ReadsBack libs.sign.codec predicate) (s : SignState) (hm : MapApart libs.sign.disk map)
    (h : (signCommon libs.sign o trust ident map predicate s).1 = some (.ok ())) :
    ∃ token cert, (∃ cfg, signIdentity libs.sign.identity o.now ident cfg = .ok token) ∧
      IssuedFor libs.sign.kp (o.first token) s.world.keys cert ∧
      ∀ d, Kept (signCommon libs.sign o trust ident map predicate s).2.disk d →
      ∀ now cmd verbose positional bundle trust₂ w config certs policy ct log,
        HonestServices libs.sign.env now ⟨config.root, certs⟩ ct log cert (o.first token)
          (fun a => ∃ f ∈ map.keys, a = (o.perFile f).1) →
        VerifyRequest libs d now positional bundle trust₂ w config certs
          (fun f p => ∃ outs, (f, outs) ∈ map ∧ Output.bundle p ∈ outs.list) →
        cmd.policy = .ok policy →
        ((verifyMain libs.verify (libs.sign.disk.fs d) now cmd verbose positional none none bundle trust₂ w).1 = .ok () ↔
          policy.verify cert = .ok ()) := by
  obtain ⟨token, cert, ctx, w₁, h1, h2, h3, h4⟩ := signCommon_calls libs.sign o trust ident map predicate s hm h
  refine ⟨token, cert, h1, h2, ?_⟩
  intro d hd now cmd verbose positional bundle trust₂ w config certs policy ct log hs hreq hpol
  have key : ∀ arg ∈ positional, (libs.sign.disk.fs d).isFile (Path.ofStr arg) = true ∧ ∀ args : VerifyArgs,
      args.bundle = bundle → args.certificate = none → args.signature = none → ∀ decode,
      (InputVerified libs.verify (libs.sign.disk.fs d) now args ⟨config.root, certs⟩ policy.verify decode (.file (Path.ofStr arg)) ↔
        policy.verify cert = .ok ()) := by
    intro arg harg
    obtain ⟨p, ⟨outs, hmem, hout⟩, hcp, hlooks⟩ := hreq.signed arg harg
    obtain ⟨content, b, g1, g2, g3, g4, w₂, w₃, call, g5, g6⟩ := h4 _ _ hmem
    have hfile : (signCommon libs.sign o trust ident map predicate s).2.disk (libs.sign.disk.resolve (Path.ofStr arg)) =
        some (.file content) := by
      rw [signCommon_frame _ _ _ _ _ _ _ _ fun f outs' hf x hx => hm.inputs _ _ _ _ hf hmem x hx]
      exact g1
    have hholds : HoldsBundle libs.sign.disk libs.sign.toJson d b p := hd _ _ (g3 _ hout)
    refine ⟨(isFile_iff _ _ _).2 ⟨content, hd _ _ hfile⟩, ?_⟩
    intro args ha1 ha2 ha3 decode
    exact inputVerified_iff_policy (je := jobEnv libs.sign ctx ⟨some s.world.keys, some cert⟩ predicate) (venv := libs.verify)
      hf rfl rfl hback (honestServices_mono hs fun a ha => ⟨_, List.mem_map.2 ⟨_, hmem, rfl⟩, ha⟩) h3 g2 g5 g6
      (hd _ _ hfile) g4 hholds hcp (by rw [ha1]; exact hlooks) ha2 ha3 policy.verify decode
  rw [C44_returns_iff]
  constructor
  · rintro ⟨hne, inputs, config', hden, hcfg, hver⟩
    obtain rfl := Except.ok.inj (hcfg.symm.trans hreq.loads)
    obtain ⟨policy', certs', hp', hc', hall⟩ := hver.inputs
    obtain rfl := Except.ok.inj (hp'.symm.trans hpol)
    obtain rfl := Except.ok.inj (hc'.symm.trans hreq.fulcio)
    obtain ⟨arg, harg⟩ := List.exists_mem_of_ne_nil _ hne
    obtain ⟨i, hi, hdi⟩ := forall₂_mem_left hden _ harg
    obtain ⟨k1, k2⟩ := key arg harg
    cases hdi with
    | file _ => exact (k2 _ rfl rfl rfl _).1 (hall _ hi)
    | digest hno _ => rw [k1] at hno; cases hno
  · intro hok
    have hden : List.Forall₂ (ArgDenotes (libs.sign.disk.fs d)) positional (positional.map fun a => .file (Path.ofStr a)) := by
      rw [List.forall₂_map_right_iff]
      exact List.forall₂_same.2 fun a ha => .file (key a ha).1
    refine ⟨hreq.nonempty, _, config, hden, hreq.loads, ⟨?_, ?_, ?_, ?_⟩, hreq.rootType, ?_, policy, certs, hpol, hreq.fulcio, ?_⟩
    · rintro (h | h | h)
      · exact absurd rfl h
      · exact absurd rfl h
      · rw [List.length_map]; exact hreq.single h
    · intro _; exact ⟨rfl, rfl⟩
    · intro x hx
      obtain ⟨a, _, ha⟩ := List.mem_map.1 hx
      cases ha
    · intro _; exact ⟨rfl, rfl⟩
    · exact ne_nil_of_started (ne_nil_of_trusted hs.logTrusted)
    · intro i hi
      obtain ⟨a, ha, rfl⟩ := List.mem_map.1 hi
      exact ((key a ha).2 _ rfl rfl rfl _).2 hok

theorem mapFor_keys {files : List Path} {outs : Path → SigningOutputs} {map : Dict Path SigningOutputs}
    (h : MapFor files outs map) {f : Path} : f ∈ map.keys ↔ f ∈ files := h.2.1 f

theorem verifyRequest_mono {libs : MainLibs} {d : Disk} {now : Time} {positional : List Str} {bundle : Option Path}
    {trust : TrustArgs} {w : VerifyWorld} {config : LoadedConfig} {certs : List Cert} {P Q : Path → Path → Prop}
    (h : VerifyRequest libs d now positional bundle trust w config certs P) (hq : ∀ f p, P f p → Q f p) :
    VerifyRequest libs d now positional bundle trust w config certs Q :=
  ⟨h.nonempty, h.single, fun arg harg => by
    obtain ⟨p, h1, h2⟩ := h.signed arg harg
    exact ⟨p, hq _ _ h1, h2⟩, h.loads, h.rootType, h.fulcio⟩

/-- **C102** If `sign` succeeded, its outputs are at different places which are no inputs, and nothing that it left behind has
changed since, then `verify` of any of its files, which finds their bundles where they were put, returns normally if the policy
accepts the certificate of the signer, and only then; provided that the services were honest and the verifier trusts them. -/
theorem C102_sign (libs : MainLibs) (hf : FaithfulLibs libs.sign.env libs.sign.kp libs.sign.toJson libs.parseBundle)
    (o : SignOracle) (trust : TrustArgs) (ident : IdentityArgs) (args : SignArgs) (s : SignState)
    (ha : SignOutputsApart libs.sign.disk args) (hi : args.overwrite = false ∨ SignInputsApart libs.sign.disk args)
    (h : (signMain libs.sign o trust ident args s).1 = some (.ok ())) :
    ∃ token cert, (∃ cfg, signIdentity libs.sign.identity o.now ident cfg = .ok token) ∧
      IssuedFor libs.sign.kp (o.first token) s.world.keys cert ∧
      ∀ d, Kept (signMain libs.sign o trust ident args s).2.disk d →
      ∀ now cmd verbose positional bundle trust₂ w config certs policy ct log,
        HonestServices libs.sign.env now ⟨config.root, certs⟩ ct log cert (o.first token)
          (fun a => ∃ f ∈ args.files, a = (o.perFile f).1) →
        VerifyRequest libs d now positional bundle trust₂ w config certs (fun f p => f ∈ args.files ∧ SignBundlePath args f p) →
        cmd.policy = .ok policy →
        ((verifyMain libs.verify (libs.sign.disk.fs d) now cmd verbose positional none none bundle trust₂ w).1 = .ok () ↔
          policy.verify cert = .ok ()) := by
  unfold signMain at h ⊢
  cases hm : signOutputs libs.sign.disk args s.disk with
  | mk r d =>
    rw [hm] at h
    cases r with
    | error e => cases h
    | ok map =>
      dsimp only at h ⊢
      have hmap := signOutputs_map _ _ _ _ _ hm
      have hi' : SignInputsApart libs.sign.disk args := by
        rcases hi with how | hi
        · intro f hf g hg p hp he
          obtain ⟨_, h2, h3, _⟩ := C42_checks_sound _ _ _ _ _ hm
          obtain ⟨c, hc⟩ := h2 g hg
          have := h3 how f hf p hp
          rw [he, hc] at this
          cases this
        · exact hi
      obtain ⟨token, cert, h1, h2, h3⟩ := verify_after_signCommon libs hf o trust ident map none (fun _ _ h => by cases h)
        { s with disk := d } (signMap_apart hmap ha hi') h
      refine ⟨token, cert, h1, h2, ?_⟩
      intro d' hd' now cmd verbose positional bundle trust₂ w config certs policy ct log hs hreq hpol
      refine h3 d' hd' now cmd verbose positional bundle trust₂ w config certs policy ct log
        (honestServices_mono hs fun a ⟨f, hf, ha⟩ => ⟨f, (mapFor_keys hmap).1 hf, ha⟩) (verifyRequest_mono hreq ?_) hpol
      rintro f p ⟨hf, hp⟩
      exact ⟨_, (mapFor_mem hmap).1 hf, (mem_outputs _ _).2 (.inr (.inr ⟨p, (signBundlePath_iff args f p).2 hp, rfl⟩))⟩

/-- the predicates that `attest` reads come back from the bytes of the statements about them, which are text -/
def StatementsReadBack (libs : SignLibs) : Prop :=
  ∀ text pred, libs.loads text = some (.obj pred) → ∀ pt, ReadsBack libs.codec (some (pt, pred))

/-- **C102** The same for `attest`. -/
theorem C102_attest (libs : MainLibs) (hf : FaithfulLibs libs.sign.env libs.sign.kp libs.sign.toJson libs.parseBundle)
    (hback : StatementsReadBack libs.sign)
    (o : SignOracle) (trust : TrustArgs) (ident : IdentityArgs) (args : AttestArgs) (s : SignState)
    (ha : ∀ f ∈ args.files, ∀ g ∈ args.files, f ≠ g → ∀ p q, AttestBundlePath args f p → AttestBundlePath args g q →
      libs.sign.disk.resolve p ≠ libs.sign.disk.resolve q)
    (hi : args.overwrite = false ∨
      ∀ f ∈ args.files, ∀ g ∈ args.files, ∀ p, AttestBundlePath args f p → libs.sign.disk.resolve p ≠ libs.sign.disk.resolve g)
    (h : (attestMain libs.sign o trust ident args s).1 = some (.ok ())) :
    ∃ token cert, (∃ cfg, signIdentity libs.sign.identity o.now ident cfg = .ok token) ∧
      IssuedFor libs.sign.kp (o.first token) s.world.keys cert ∧
      ∀ d, Kept (attestMain libs.sign o trust ident args s).2.disk d →
      ∀ now cmd verbose positional bundle trust₂ w config certs policy ct log,
        HonestServices libs.sign.env now ⟨config.root, certs⟩ ct log cert (o.first token)
          (fun a => ∃ f ∈ args.files, a = (o.perFile f).1) →
        VerifyRequest libs d now positional bundle trust₂ w config certs (fun f p => f ∈ args.files ∧ AttestBundlePath args f p) →
        cmd.policy = .ok policy →
        ((verifyMain libs.verify (libs.sign.disk.fs d) now cmd verbose positional none none bundle trust₂ w).1 = .ok () ↔
          policy.verify cert = .ok ()) := by
  unfold attestMain at h ⊢
  cases hr : readPredicate libs.sign.disk libs.sign.loads args s.disk with
  | error e => rw [hr] at h; cases h
  | ok pred =>
    rw [hr] at h
    dsimp only at h ⊢
    cases hl : attestOutputsLoop libs.sign.disk args s.disk [] args.files with
    | error e => rw [hl] at h; cases h
    | ok map =>
      rw [hl] at h
      dsimp only at h ⊢
      obtain ⟨hmap, hfile, habs⟩ := attestOutputsLoop_ok _ _ _ _ [] _ _ hl (mapFor_nil _)
      rw [List.nil_append] at hmap
      have hi' : ∀ f ∈ args.files, ∀ g ∈ args.files, ∀ p, AttestBundlePath args f p →
          libs.sign.disk.resolve p ≠ libs.sign.disk.resolve g := by
        rcases hi with ho | hi
        · intro f hf g hg p hp he
          obtain ⟨c, hc⟩ := (isFile_iff _ _ _).1 (hfile g hg)
          have := habs ho f hf
          rw [(attestBundlePath_iff args f p).2 hp, he, hc] at this
          cases this
        · exact hi
      obtain ⟨predicate, text, _, _, _, p3, _⟩ := (readPredicate_ok_iff _ _ _ _ _).1 hr
      obtain ⟨token, cert, h1, h2, h3⟩ := verify_after_signCommon libs hf o trust ident map (some (args.predicateType, pred))
        (hback text pred p3 args.predicateType) s (attestMap_apart hmap ha hi') h
      refine ⟨token, cert, h1, h2, ?_⟩
      intro d' hd' now cmd verbose positional bundle trust₂ w config certs policy ct log hs hreq hpol
      refine h3 d' hd' now cmd verbose positional bundle trust₂ w config certs policy ct log
        (honestServices_mono hs fun a ⟨f, hf, ha⟩ => ⟨f, (mapFor_keys hmap).1 hf, ha⟩) (verifyRequest_mono hreq ?_) hpol
      rintro f p ⟨hf, hp⟩
      obtain rfl := (attestBundlePath_iff args f p).2 hp
      exact ⟨_, (mapFor_mem hmap).1 hf, (mem_outputs _ _).2 (.inr (.inr ⟨_, rfl, rfl⟩))⟩

/-! ## The program -/

theorem mainHandler_ok_iff (verbose : Bool) (r : Py Unit) : mainHandler verbose r = .ok () ↔ r = .ok () := by
  cases r with
  | ok u => exact Iff.rfl
  | error e =>
    rw [mainHandler]
    split <;> simp

theorem map_mainHandler_ok {verbose : Bool} {r : Option (Py Unit)} (h : r.map (mainHandler verbose) = some (.ok ())) :
    r = some (.ok ()) := by
  obtain ⟨x, hx, hx'⟩ := Option.map_eq_some_iff.1 h
  rw [hx, (mainHandler_ok_iff _ _).1 hx']

section Program

variable (libs : MainLibs) (hf : FaithfulLibs libs.sign.env libs.sign.kp libs.sign.toJson libs.parseBundle) (o o₂ : SignOracle)
  {environ environ₂ : Environ} {line line₂ : CommandLine} (s s₂ : MainState)
  (he : EnvironOk environ) (hl : LineOk line) {trust : TrustArgs} {ident : IdentityArgs}
  (ht : TrustOptions environ line.top line.sub false trust) (hv : RekorVersion libs.int line.sub trust.rekorVersion)
  (hi : IdentityOptions environ line.sub true ident)
  (he₂ : EnvironOk environ₂) (hl₂ : LineOk line₂) (hc₂ : line₂.command = .verifyIdentity)
  {trust₂ : TrustArgs} (ht₂ : TrustOptions environ₂ line₂.top line₂.sub true trust₂) (hv₂ : trust₂.rekorVersion = none)
  {bundle : Option Path} (hm₂ : VerifyOptions environ₂ line₂.sub none none bundle) {identity issuer : Str}
  (hid : LastGiven ["--cert-identity"] line₂.sub identity) (hiss : LastGiven ["--cert-oidc-issuer"] line₂.sub issuer)
  (hkept : Kept (Cli.main libs o environ line s).2.sign.disk s₂.sign.disk)

include hf he hl ht hv hi he₂ hl₂ hc₂ ht₂ hv₂ hm₂ hid hiss hkept

/-- **C102** `sigstore sign` and later `sigstore verify identity`, two runs of the program: if the first completed, its outputs
are at different places which are no inputs, and nothing it left behind has changed, then the second, for files that were signed
and with bundles where they were put, completes exactly if the certificate of the signer was issued to the identity and claims
the issuer that are given; provided that the services were honest and the verifier trusts them. -/
theorem C102_main_sign (hc : line.command = .sign) {args : SignArgs} (hargs : SignOptions environ line.sub line.positional args)
    (h : (Cli.main libs o environ line s).1 = some (.ok ()))
    (ha : SignOutputsApart libs.sign.disk args) (how : args.overwrite = false ∨ SignInputsApart libs.sign.disk args) :
    ∃ token cert, (∃ cfg, signIdentity libs.sign.identity o.now ident cfg = .ok token) ∧
      IssuedFor libs.sign.kp (o.first token) s.sign.world.keys cert ∧
      ∀ config certs ct log,
        HonestServices libs.sign.env o₂.now ⟨config.root, certs⟩ ct log cert (o.first token)
          (fun a => ∃ f ∈ args.files, a = (o.perFile f).1) →
        VerifyRequest libs s₂.sign.disk o₂.now line₂.positional bundle trust₂ ⟨s₂.sign.tuf, s₂.queries⟩ config certs
          (fun f p => f ∈ args.files ∧ SignBundlePath args f p) →
        UniqueExts cert → (utf8 issuer).length < 4294967296 →
        ((Cli.main libs o₂ environ₂ line₂ s₂).1 = some (.ok ()) ↔
          (issuer ≠ [] → Claims cert .oidcIssuer issuer) ∧ IssuedTo cert identity ∧
          (∀ names, cert.san = some names → OtherNamesDecodable names)) := by
  rw [C89_sign libs o s he hl hc ht hv hi hargs] at h hkept
  obtain ⟨token, cert, h1, h2, h3⟩ := C102_sign libs hf o trust ident args s.sign ha how (map_mainHandler_ok h)
  refine ⟨token, cert, h1, h2, ?_⟩
  intro config certs ct log hs hreq hu hsz
  rw [C89_verify_identity libs o₂ s₂ he₂ hl₂ hc₂ ht₂ hv₂ hm₂ hid hiss]
  have := h3 s₂.sign.disk hkept o₂.now (.identity identity issuer) (verboseOf line₂) line₂.positional bundle trust₂
    ⟨s₂.sign.tuf, s₂.queries⟩ config certs _ ct log hs hreq rfl
  rw [Option.some.injEq]
  refine this.trans ((C22_identity_iff identity (some issuer) cert hu (by
    intro x hx; rw [← Option.some.inj hx]; exact hsz)).trans ?_)
  constructor
  · rintro ⟨g1, g2⟩; exact ⟨g1 issuer rfl, g2⟩
  · rintro ⟨g1, g2⟩
    refine ⟨?_, g2⟩
    intro i hi; cases hi; exact g1

/-- **C102** The same for `sigstore attest`. -/
theorem C102_main_attest (hback : StatementsReadBack libs.sign) (hc : line.command = .attest) {args : AttestArgs}
    (hargs : AttestOptions environ line.sub line.positional args)
    (h : (Cli.main libs o environ line s).1 = some (.ok ()))
    (ha : ∀ f ∈ args.files, ∀ g ∈ args.files, f ≠ g → ∀ p q, AttestBundlePath args f p → AttestBundlePath args g q →
      libs.sign.disk.resolve p ≠ libs.sign.disk.resolve q)
    (how : args.overwrite = false ∨
      ∀ f ∈ args.files, ∀ g ∈ args.files, ∀ p, AttestBundlePath args f p → libs.sign.disk.resolve p ≠ libs.sign.disk.resolve g) :
    ∃ token cert, (∃ cfg, signIdentity libs.sign.identity o.now ident cfg = .ok token) ∧
      IssuedFor libs.sign.kp (o.first token) s.sign.world.keys cert ∧
      ∀ config certs ct log,
        HonestServices libs.sign.env o₂.now ⟨config.root, certs⟩ ct log cert (o.first token)
          (fun a => ∃ f ∈ args.files, a = (o.perFile f).1) →
        VerifyRequest libs s₂.sign.disk o₂.now line₂.positional bundle trust₂ ⟨s₂.sign.tuf, s₂.queries⟩ config certs
          (fun f p => f ∈ args.files ∧ AttestBundlePath args f p) →
        UniqueExts cert → (utf8 issuer).length < 4294967296 →
        ((Cli.main libs o₂ environ₂ line₂ s₂).1 = some (.ok ()) ↔
          (issuer ≠ [] → Claims cert .oidcIssuer issuer) ∧ IssuedTo cert identity ∧
          (∀ names, cert.san = some names → OtherNamesDecodable names)) := by
  rw [C89_attest libs o s he hl hc ht hv hi hargs] at h hkept
  obtain ⟨token, cert, h1, h2, h3⟩ := C102_attest libs hf hback o trust ident args s.sign ha how (map_mainHandler_ok h)
  refine ⟨token, cert, h1, h2, ?_⟩
  intro config certs ct log hs hreq hu hsz
  rw [C89_verify_identity libs o₂ s₂ he₂ hl₂ hc₂ ht₂ hv₂ hm₂ hid hiss]
  have := h3 s₂.sign.disk hkept o₂.now (.identity identity issuer) (verboseOf line₂) line₂.positional bundle trust₂
    ⟨s₂.sign.tuf, s₂.queries⟩ config certs _ ct log hs hreq rfl
  rw [Option.some.injEq]
  refine this.trans ((C22_identity_iff identity (some issuer) cert hu (by
    intro x hx; rw [← Option.some.inj hx]; exact hsz)).trans ?_)
  constructor
  · rintro ⟨g1, g2⟩; exact ⟨g1 issuer rfl, g2⟩
  · rintro ⟨g1, g2⟩
    refine ⟨?_, g2⟩
    intro i hi; cases hi; exact g1

end Program

end Sigstore.Props
