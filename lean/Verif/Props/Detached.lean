import Verif.Spec.Detached
import Verif.Props.CliRoundtrip

/-!
# C105: what was signed verifies with detached materials
-/

namespace Sigstore.Props

open Sigstore.Trust Sigstore.LogEntry Sigstore.Dsse Sigstore.Signing Sigstore.Cli Sigstore.Spec Sigstore.Rekor

/-! ## Base64 with a newline -/

theorem a2bBase64_b64Encode_newline (bs : Bytes) : a2bBase64 0 0 0 (b64Encode bs ++ ['\n']) = some bs := by
  match bs with
  | [] => rfl
  | [a] =>
    have ha : a.toNat < 256 := a.toNat_lt
    rw [b64Encode, List.cons_append, List.cons_append, a2bBase64_char0 (by omega), a2bBase64_char1 (by omega),
      show a.toNat / 4 * 4 + a.toNat % 4 * 16 / 16 = a.toNat by omega]
    simp [a2bBase64]
  | [a, b] =>
    have ha : a.toNat < 256 := a.toNat_lt
    have hb : b.toNat < 256 := b.toNat_lt
    rw [b64Encode, List.cons_append, List.cons_append, List.cons_append, a2bBase64_char0 (by omega), a2bBase64_char1 (by omega),
      a2bBase64_char2 (by omega),
      show a.toNat / 4 * 4 + (a.toNat % 4 * 16 + b.toNat / 16) / 16 = a.toNat by omega,
      show (a.toNat % 4 * 16 + b.toNat / 16) % 16 * 16 + b.toNat % 16 * 4 / 4 = b.toNat by omega]
    simp [a2bBase64]
  | a :: b :: c :: rest =>
    have ha : a.toNat < 256 := a.toNat_lt
    have hb : b.toNat < 256 := b.toNat_lt
    have hc : c.toNat < 256 := c.toNat_lt
    rw [b64Encode, List.cons_append, List.cons_append, List.cons_append, List.cons_append, a2bBase64_char0 (by omega),
      a2bBase64_char1 (by omega), a2bBase64_char2 (by omega),
      a2bBase64_char3 (by omega), a2bBase64_b64Encode_newline rest,
      show a.toNat / 4 * 4 + (a.toNat % 4 * 16 + b.toNat / 16) / 16 = a.toNat by omega,
      show (a.toNat % 4 * 16 + b.toNat / 16) % 16 * 16 + (b.toNat % 16 * 4 + c.toNat / 64) / 4 = b.toNat by omega,
      show (b.toNat % 16 * 4 + c.toNat / 64) % 4 * 64 + c.toNat % 64 = c.toNat by omega]
    simp

theorem b64Decode_b64Encode_newline (bs : Bytes) : b64Decode (b64Encode bs ++ "\n".toList) = .ok bs := by
  rw [b64Decode, if_neg]
  · rw [show "\n".toList = ['\n'] from rfl, a2bBase64_b64Encode_newline]
  · rw [List.any_eq_true]
    rintro ⟨c, hc, h⟩
    rcases List.mem_append.1 hc with hc | hc
    · have := b64Encode_ascii bs c hc
      simp at h; omega
    · rw [show "\n".toList = ['\n'] from rfl, List.mem_singleton] at hc
      subst hc
      revert h; decide

/-! ## Bundles made of detached materials -/

/-- an entry that the log keeps for a query makes a bundle, which verifies up to the policy -/
theorem detached_verifies {env : Env} {now : Time} {v : Verifier} {ct log : ServiceKey} {cert : Cert} {chain : List Cert}
    {csr : Csr} {sig digest : Bytes} {entry : LogEntry} (hsha : ∀ x, (env.crypto.sha256 x).length = 32)
    (hint : ∀ n : Nat, n < 2 ^ 64 → env.pyInt (decimal n) = some (n : Int))
    (hct : ct.TrustedIn env.crypto (startedKeys now v.root.ctlogs))
    (hlog : log.TrustedIn env.crypto (startedKeys now v.root.tlogs)) (hroot : ProperTsas v.root)
    (hissued : Issued env v.fulcioCerts ct csr cert chain) (hp256 : cert.pubKey.kind = .ec .p256)
    (hlen : digest.length = 32) (hacc : env.crypto.ecdsa cert.pubKey digest sig = true)
    (hlogged : Logged env log (startedKeys now v.root.tlogs) cert (.hashedrekord (detachedQuery cert sig digest)) entry) :
    ∃ b, Bundle.fromSignature env cert sig entry = .ok b ∧ b.inner.dsseEnvelope = none ∧
      ∀ policy, verifyArtifact env now v (.hashed ⟨.sha2_256, digest⟩) b policy = policy cert := by
  obtain ⟨r, hrec, hholds⟩ := hlogged.body
  cases hrec
  have hreq : hashedRekordRequest .v1 ⟨.sha2_256, digest⟩ sig cert = .ok (.hashedrekord (detachedQuery cert sig digest)) := rfl
  obtain ⟨e1, e2⟩ := (C55_artifact_entry_iff env .v1 ⟨.sha2_256, digest⟩ sig cert _ hreq rfl _ (.hashedrekord _)
    (fun h => by cases h) entry).1 hholds
  have hver : entry.version = "0.0.1".toList := hholds.2.1
  obtain ⟨set, t, q1, q2, _⟩ := hlogged.promised hver
  let m : BundleMsg := ⟨"application/vnd.dev.sigstore.bundle.v0.3+json".toList, some cert.der, none, [entry], [],
    some ⟨none, sig⟩, none⟩
  have hb : Bundle.init env m = .ok ⟨m, cert, entry⟩ := by
    rw [C31_bundle_iff]
    refine ⟨rfl, ⟨.inl ⟨?_, _, rfl, hissued.loads⟩, rfl, .inl hver, ?_, ?_, ?_⟩⟩
    · show "application/vnd.dev.sigstore.bundle.v0.3+json".toList ∈ newMediaTypes
      decide
    · obtain ⟨D, i, ck, pre, post, s, p⟩ := hlogged.proof
      exact ⟨_, _, p.2.2.2.2.2.2.2.2.2, rfl⟩
    · intro h
      have : "application/vnd.dev.sigstore.bundle.v0.3+json".toList ≠
        "application/vnd.dev.sigstore.bundle+json;version=0.1".toList := by decide
      exact absurd h this
    · intro hp
      rw [q1] at hp; cases hp
  refine ⟨⟨m, cert, entry⟩, hb, rfl, ?_⟩
  have htsas : HonestTsas env now v.root cert [] := ⟨by simp, fun _ => by simp [answered], by simp⟩
  obtain ⟨times, t1, t2, t3⟩ := times_of_honest (b := ⟨m, cert, entry⟩) hlogged htsas hroot
    (.inr ⟨rfl, _, rfl, rfl⟩ : SignatureOf m sig) rfl (fun _ => .inr hholds.1) (.inl (by rw [q1]; simp))
  have common : ∃ times, CommonOk env now v ⟨m, cert, entry⟩ (fun _ => .ok ()) times := by
    obtain ⟨issuer, ha, hi, hs, hch⟩ := hissued.issuer
    obtain ⟨tl, htl⟩ : ∃ tl, times.getLast? = some tl := by
      cases h : times.getLast? with
      | none => exact absurd (List.getLast?_eq_none_iff.1 h) t2
      | some tl => exact ⟨tl, rfl⟩
    have hm := List.mem_of_getLast? htl
    obtain ⟨chain', hc1, hc2⟩ := hch tl (t3 tl hm).1 (t3 tl hm).2
    refine ⟨times, ⟨t1, t2, ?_, ⟨tl, chain', htl, hc1, sctOk_of_honest hsha ha hc2 hs hct⟩, hissued.digitalSignature,
      hissued.codeSigning, rfl, entryOk_of_logged hint hlog hlogged (.inl hver), t3⟩⟩
    intro t ht
    obtain ⟨ch, h, _⟩ := hch t (t3 t ht).1 (t3 t ht).2
    exact ⟨ch, h⟩
  have hw : ∀ ca ∈ v.root.timestampAuthorities, ca.validFor ≠ none := fun ca h => (hroot ca h).1
  intro policy
  refine verifyArtifact_policy (b := ⟨m, cert, entry⟩) ?_ policy
  rw [C13_verify_artifact_iff env now v _ _ _ hw]
  refine ⟨common, ⟨_, rfl, ?_, rfl, hlen, ⟨_, hp256⟩, hacc, e1⟩⟩
  intro d hd
  cases hd

/-! ## The command -/

theorem inputMap_named {e : DiskEnv} {d : Disk} {arg : Str} {certificate signature : Option Path} {f cp sp : Path} {digest : Bytes}
    {trust : TrustArgs} (hn : NamesDetached e d arg certificate signature f cp sp digest) (hon : trust.offline = false)
    {content pem text : Bytes} {c : Crypto} (hdig : digest = c.sha256 content) (hcr : e.canRead f = true)
    (hfile : d (e.resolve f) = some (.file content)) (hc : d (e.resolve cp) = some (.file pem))
    (hs : d (e.resolve sp) = some (.file text)) :
    ∃ i, parseInputs (e.fs d) [arg] = .ok [i] ∧
      inputMap (e.fs d) ⟨[i], certificate, signature, none, trust⟩ = .ok [(i, .unbundled cp sp)] ∧
      inputDigest c (e.fs d) i = .ok ⟨.sha2_256, digest⟩ := by
  have hfc : (e.fs d).isFile cp = true := (isFile_iff _ _ _).2 ⟨_, hc⟩
  have hfs : (e.fs d).isFile sp = true := (isFile_iff _ _ _).2 ⟨_, hs⟩
  have not_file : ∀ p, (∀ c, d (e.resolve p) ≠ some (.file c)) → (e.fs d).isFile p = false := by
    intro p h
    cases hl : (e.fs d).isFile p with
    | false => rfl
    | true =>
      obtain ⟨c, hc⟩ := (isFile_iff _ _ _).1 hl
      exact absurd hc (h c)
  cases hn with
  | file h1 h2 h3 h4 h5 =>
    subst h1
    have hff : (e.fs d).isFile (Path.ofStr arg) = true := (isFile_iff _ _ _).2 ⟨_, hfile⟩
    refine ⟨.file (Path.ofStr arg), (parseInputs_iff _ _ _).2 (.cons (.file hff) .nil), ?_, ?_⟩
    · have hm : fileMaterials (e.fs d) ⟨[.file (Path.ofStr arg)], certificate, signature, none, trust⟩ (Path.ofStr arg) =
          .ok (.unbundled cp sp) := by
        rw [fileMaterials_iff]
        · refine ⟨hff, ?_⟩
          rw [← h3, ← h4]
          refine .detachedFile rfl h2 ?_ ?_ ?_
          · rintro ⟨g1, g2⟩
            rcases h5 with h5 | h5
            · have := not_file _ h5
              exact absurd (g1.symm.trans this) (by simp)
            · have := not_file _ h5
              exact absurd (g2.symm.trans this) (by simp)
          · exact (congrArg _ h3).trans hfc
          · exact (congrArg _ h4).trans hfs
        · intro h; exact absurd rfl h
      unfold inputMap
      dsimp only
      rw [hon]
      simp only [fileLoop, hm]
      simp [VerifyInput.isDigest, Dict.set]
    · show (match e.read d (Path.ofStr arg) with | .error e => _ | .ok b => _) = _
      unfold DiskEnv.read
      rw [hfile]
      dsimp only
      rw [if_pos hcr, hdig]
      rfl
  | digest h1 h2 h3 h4 =>
    subst h3 h4
    refine ⟨.digest ⟨.sha2_256, digest⟩, (parseInputs_iff _ _ _).2 (.cons (.digest (not_file _ h1) h2) .nil), ?_, rfl⟩
    unfold inputMap
    dsimp only
    rw [hon]
    simp only [fileLoop, digestMaterials, hfc, hfs]
    simp

/-- a run of `sigstore verify` with detached materials, up to the answer of the log -/
theorem verifyMain_detached (venv : VerifyEnv) (fs : Fs) (now : Time) (cmd : VerifyCommand) (verbose : Bool) {arg : Str}
    {certificate signature : Option Path} {trust : TrustArgs} {w : VerifyWorld} {i : VerifyInput} {cp sp : Path} {h : Hashed}
    {config : LoadedConfig} {certs : List Cert} {policy : Policy.Policy} {pem : Bytes} {cert : Cert} {text : Str} {sig : Bytes}
    {body : HashedrekordBody} (hparse : parseInputs fs [arg] = .ok [i])
    (hmap : inputMap fs ⟨[i], certificate, signature, none, trust⟩ = .ok [(i, .unbundled cp sp)])
    (hdigest : inputDigest venv.env.crypto fs i = .ok h)
    (hpol : cmd.policy = .ok policy) (hload : (getTrustConfig fs venv.tuf venv.parsers trust w.tuf).1 = .ok config)
    (htype : config.rootMediaType = "application/vnd.dev.sigstore.trustedroot+json;version=0.1".toList)
    (hcerts : getFulcioCerts now config.root = .ok certs) (htlogs : config.root.tlogs ≠ [])
    (hpem : fs.read cp = .ok pem) (hcert : venv.loadPem pem = some cert) (htext : readText fs sp = .ok text)
    (hsig : b64Decode text = .ok sig) (hbody : hashedrekordFromParts cert sig h = .ok body) :
    verifyMain venv fs now cmd verbose [arg] certificate signature none trust w =
      (mainHandler verbose
        (match venv.retrieve body with
        | .error e => .error e
        | .ok none => .error (.systemExit 2)
        | .ok (some entry) =>
          match Bundle.fromSignature venv.env cert sig entry with
          | .error e => .error e
          | .ok b => verifyLoop venv now ⟨config.root, certs⟩ policy.verify cmd.decodes verbose [(i, h, b)]),
       ⟨(getTrustConfig fs venv.tuf venv.parsers trust w.tuf).2, w.queries ++ [body]⟩) := by
  cases hg : getTrustConfig fs venv.tuf venv.parsers trust w.tuf with
  | mk r t =>
    rw [hg] at hload
    dsimp only at hload
    subst hload
    have hroot : config.trustedRoot = .ok config.root := by
      exact if_pos htype
    have hinit : Verifier.init now config.root = .ok ⟨config.root, certs⟩ := by
      unfold Verifier.init
      rw [hcerts]
      dsimp only
      cases hc : config.root.tlogs with
      | nil => exact absurd hc htlogs
      | cons a as => rfl
    unfold verifyMain
    dsimp only
    rw [hparse]
    dsimp only
    unfold verifyCommand
    rw [hpol]
    dsimp only
    unfold collectState
    dsimp only
    rw [hmap]
    dsimp only
    rw [hg]
    dsimp only
    rw [hroot]
    dsimp only
    rw [hinit]
    dsimp only
    rw [loadAll, hdigest]
    dsimp only
    rw [loadMaterials, hpem]
    dsimp only
    rw [hcert]
    dsimp only
    rw [htext]
    dsimp only
    rw [hsig]
    dsimp only
    rw [hbody]
    dsimp only
    cases venv.retrieve body with
    | error e => rfl
    | ok o =>
      cases o with
      | none => rfl
      | some entry =>
        dsimp only
        cases Bundle.fromSignature venv.env cert sig entry with
        | error e => rfl
        | ok b => rfl

theorem read_of_disk {e : DiskEnv} {d : Disk} {p : Path} {c : Bytes} (h : d (e.resolve p) = some (.file c))
    (hc : e.canRead p = true) : (e.fs d).read p = .ok c := by
  show e.read d p = _
  unfold DiskEnv.read
  rw [h]
  exact if_pos hc

/-- **C105** If `sign --signature S --certificate C` succeeded, with outputs at different places which are no inputs, then `S`
and `C` hold the signature and the certificate, and as long as nothing that it left behind changes, `verify` of the file or of
its digest with `S` and `C` asks the log for exactly the entry with this signature, certificate and digest.  Without an entry the
program exits with status 2; with an entry as the log keeps it, the command returns normally if the policy accepts the
certificate of the signer, and only then; provided that Fulcio and the logs are honest and the verifier trusts them. -/
theorem C105_sign (libs : MainLibs) (hf : FaithfulLibs libs.sign.env libs.sign.kp libs.sign.toJson libs.parseBundle)
    (hpem : FaithfulPem libs.sign.env libs.loadPem)
    (o : SignOracle) (trust : TrustArgs) (ident : IdentityArgs) (args : SignArgs) (s : SignState) {f sp cp : Path}
    (hfile : f ∈ args.files) (hsp : args.signature = some sp) (hcp : args.certificate = some cp)
    (ha : SignOutputsApart libs.sign.disk args) (hi : args.overwrite = false ∨ SignInputsApart libs.sign.disk args)
    (h : (signMain libs.sign o trust ident args s).1 = some (.ok ())) :
    ∃ token cert content sig, (∃ cfg, signIdentity libs.sign.identity o.now ident cfg = .ok token) ∧
      IssuedFor libs.sign.kp (o.first token) s.world.keys cert ∧
      s.disk (libs.sign.disk.resolve f) = some (.file content) ∧
      (signMain libs.sign o trust ident args s).2.disk (libs.sign.disk.resolve sp) =
        some (.file (utf8 (b64Encode sig ++ "\n".toList))) ∧
      (signMain libs.sign o trust ident args s).2.disk (libs.sign.disk.resolve cp) =
        some (.file (utf8 (pemText cert.der ++ "\n".toList))) ∧
      ∀ d, Kept (signMain libs.sign o trust ident args s).2.disk d →
      ∀ now cmd verbose arg certificate signature trust₂ w config certs policy ct log,
        HonestServices libs.sign.env now ⟨config.root, certs⟩ ct log cert (o.first token) (fun _ => False) →
        DetachedRequest libs d now arg certificate signature trust₂ w config certs f cp sp (libs.sign.env.crypto.sha256 content) →
        cmd.policy = .ok policy →
        (verifyMain libs.verify (libs.sign.disk.fs d) now cmd verbose [arg] certificate signature none trust₂ w).2.queries =
          w.queries ++ [detachedQuery cert sig (libs.sign.env.crypto.sha256 content)] ∧
        (libs.retrieve (detachedQuery cert sig (libs.sign.env.crypto.sha256 content)) = .ok none →
          (verifyMain libs.verify (libs.sign.disk.fs d) now cmd verbose [arg] certificate signature none trust₂ w).1 =
            .error (.systemExit 2)) ∧
        ∀ entry, libs.retrieve (detachedQuery cert sig (libs.sign.env.crypto.sha256 content)) = .ok (some entry) →
          Logged libs.sign.env log (startedKeys now config.root.tlogs) cert
            (.hashedrekord (detachedQuery cert sig (libs.sign.env.crypto.sha256 content))) entry →
          ((verifyMain libs.verify (libs.sign.disk.fs d) now cmd verbose [arg] certificate signature none trust₂ w).1 = .ok () ↔
            policy.verify cert = .ok ()) := by
  unfold signMain at h ⊢
  cases hm : signOutputs libs.sign.disk args s.disk with
  | mk r d₀ =>
    rw [hm] at h
    cases r with
    | error e => cases h
    | ok map =>
      dsimp only at h ⊢
      have hmap := signOutputs_map _ _ _ _ _ hm
      have hi' : SignInputsApart libs.sign.disk args := by
        rcases hi with how | hi
        · intro f hf g hg p hp he
          obtain ⟨_, h2, h3, _⟩ := C42_checks_sound _ _ _ _ _ hm
          obtain ⟨c, hc⟩ := h2 g hg
          have := h3 how f hf p hp
          rw [he, hc] at this
          cases this
        · exact hi
      have hapart := signMap_apart hmap ha hi'
      obtain ⟨token, cert, ctx, w₁, h1, h2, h3, h4⟩ := signCommon_calls libs.sign o trust ident map none
        { s with disk := d₀ } hapart h
      have hmem := (mapFor_mem hmap).1 hfile
      obtain ⟨content, b, g1, g2, g3, g4, _⟩ := h4 _ _ hmem
      obtain ⟨_, nonce, k1, k2⟩ := g2
      have hs := g3 (.signature sp) ((mem_outputs _ _).2 (.inl ⟨sp, hsp, rfl⟩))
      have hc := g3 (.certificate cp) ((mem_outputs _ _).2 (.inr (.inl ⟨cp, hcp, rfl⟩)))
      obtain ⟨sig, hsig, hs⟩ := hs
      have hsig' : libs.sign.kp.sign s.world.keys nonce (libs.sign.env.crypto.sha256 content) = sig := by
        unfold Bundle.signature at hsig
        rw [k1, k2] at hsig
        exact Except.ok.inj hsig
      have hold : s.disk (libs.sign.disk.resolve f) = some (.file content) := by
        have hod := signOutputs_disk libs.sign.disk args s.disk
        rw [hm] at hod
        exact hod.file.1 g1
      refine ⟨token, cert, content, sig, h1, h2, hold, hs, hc, ?_⟩
      intro d hd now cmd verbose arg certificate signature trust₂ w config certs policy ct log hhon hreq hpol
      obtain ⟨cert', chain, _, i2, _, i4, _⟩ := (init_cached_iff _ _ _ _ _ _ _).1 h3
      have hcc : cert' = cert := by
        have := congrArg Signer.cachedCert i4
        exact (Option.some.inj this).symm
      subst hcc
      have hissued := hhon.fulcio _ (hf.keys.p256 _) _ _ i2
      have hp256 : cert'.pubKey.kind = .ec .p256 := by rw [hissued.key]; exact hf.keys.p256 _
      have hfile' : (signCommon libs.sign o trust ident map none { s with disk := d₀ }).2.disk (libs.sign.disk.resolve f) =
          some (.file content) := by
        rw [signCommon_frame _ _ _ _ _ _ _ _ fun f' outs' hf' x hx => hapart.inputs _ _ _ _ hf' hmem x hx]
        exact g1
      obtain ⟨i, n1, n2, n3⟩ := inputMap_named (c := libs.sign.env.crypto) (content := content) hreq.named hreq.online rfl g4
        (hd _ _ hfile') (hd _ _ hc) (hd _ _ hs)
      have hrun := verifyMain_detached libs.verify (libs.sign.disk.fs d) now cmd verbose n1 n2 n3 hpol hreq.loads hreq.rootType
        hreq.fulcio (ne_nil_of_started (ne_nil_of_trusted hhon.logTrusted)) (read_of_disk (hd _ _ hc) hreq.readable.1)
        (hpem _ hissued.loads) ((readText_iff _ _ _).2 (read_of_disk (hd _ _ hs) hreq.readable.2))
        (b64Decode_b64Encode_newline sig)
        (show hashedrekordFromParts cert' sig ⟨.sha2_256, libs.sign.env.crypto.sha256 content⟩ =
          .ok (detachedQuery cert' sig (libs.sign.env.crypto.sha256 content)) from rfl)
      rw [hrun]
      refine ⟨rfl, ?_, ?_⟩
      · intro hr
        change libs.verify.retrieve _ = _ at hr
        rw [hr]
        rfl
      · intro entry hr hlogged
        change libs.verify.retrieve _ = _ at hr
        rw [hr]
        dsimp only
        have hacc : libs.sign.env.crypto.ecdsa cert'.pubKey (libs.sign.env.crypto.sha256 content) sig = true := by
          rw [hissued.key, ← hsig']
          exact hf.keys.accepted _ _ _ (hf.sha256 _)
        obtain ⟨b', b1, b2, b3⟩ := detached_verifies (v := ⟨config.root, certs⟩) hf.sha256 hf.numbers hhon.ctTrusted
          hhon.logTrusted hhon.properTsas hissued hp256 (hf.sha256 _) hacc hlogged
        rw [show Bundle.fromSignature libs.verify.env cert' sig entry = .ok b' from b1]
        dsimp only
        rw [mainHandler_ok_iff, verifyLoop_iff]
        have hv := b3 policy.verify
        constructor
        · intro hall
          rcases hall _ (List.mem_singleton.2 rfl) with ⟨_, hacc⟩ | ⟨hne, _⟩
          · exact hv.symm.trans hacc
          · exact absurd b2 hne
        · intro hok x hx
          rw [List.mem_singleton] at hx
          subst hx
          exact .inl ⟨b2, hv.trans hok⟩

end Sigstore.Props
