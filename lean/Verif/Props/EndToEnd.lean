import Verif.Spec.Honest
import Verif.Props.RekorRequest
import Verif.Props.Signer

/-!
# C38: bundles made with honest services verify
-/

namespace Sigstore.Props

open Sigstore.Trust Sigstore.LogEntry Sigstore.Dsse Sigstore.Sct Sigstore.Spec Sigstore.Signing Sigstore.Rekor
open Sigstore.Rfc6962

/-! ## Keys -/

theorem keysAccept_of_signs {c : Crypto} {ms : List PublicKeyMsg} {k : ServiceKey} {id data sig : Bytes}
    (ht : k.TrustedIn c ms) (hg : k.GoesBy c ms id) (hs : k.Signs c data sig) : KeysAccept c ms id data sig := by
  rcases hg with rfl | hg
  · exact .inl ⟨_, _, ht, hs⟩
  · exact .inr ⟨hg, _, _, _, ht, hs⟩

theorem ne_nil_of_trusted {c : Crypto} {ms : List PublicKeyMsg} {k : ServiceKey} (ht : k.TrustedIn c ms) : ms ≠ [] := by
  obtain ⟨pre, m, post, rfl, _⟩ := ht
  simp

/-! ## The certificate -/

theorem sct_parts {env : Env} {ct : ServiceKey} {cert issuer : Cert} {chain : List Cert} {ms : List PublicKeyMsg}
    (hsha : ∀ x, (env.crypto.sha256 x).length = 32) (ha : IssuerAcceptable issuer) (hi : IssuerIn chain issuer)
    (hs : HonestSct env.crypto ct cert issuer) (ht : ct.TrustedIn env.crypto ms) :
    ∃ sct ik entry, cert.scts = some [sct] ∧ sct.hashAlgorithm = some .sha256 ∧ BoundTo env.crypto sct chain ik ∧
      EntryFor sct cert ik entry ∧ entry.Valid ∧ sct.timestamp ≤ lastMillisecond ∧
      sct.extensionBytes.length < 2 ^ 16 ∧
      KeysAccept env.crypto ms sct.logId
        (DigitallySigned.encode ⟨sct.version, sctMillis sct.timestamp, entry, sct.extensionBytes⟩) sct.signature := by
  obtain ⟨sct, h1, h2, h3, h4, h5, h6, h7, h8, h9⟩ := hs
  refine ⟨sct, _, _, h1, h2, .precert h3 issuer hi ha, .precert h3 _ rfl, ⟨hsha _, h8⟩, ?_, h7, ?_⟩
  · unfold lastMillisecond daysThrough; omega
  · rw [C29_exact_partial 40 _ (by decide) (by decide) h5 h6, h4]
    exact keysAccept_of_signs ht (.inl rfl) h9

theorem sctOk_of_honest {env : Env} {now : Time} {root : TrustedRoot Cert} {ct : ServiceKey} {cert issuer : Cert}
    {chain : List Cert} (hsha : ∀ x, (env.crypto.sha256 x).length = 32) (ha : IssuerAcceptable issuer)
    (hi : IssuerIn chain issuer) (hs : HonestSct env.crypto ct cert issuer)
    (ht : ct.TrustedIn env.crypto (startedKeys now root.ctlogs)) : SctOk env now root cert chain :=
  ⟨ne_nil_of_trusted ht, sct_parts hsha ha hi hs ht⟩

theorem checkNewCert_of_honest {env : Env} {ctx : Context} {now : Time} {ct : ServiceKey} {cert issuer : Cert}
    {chain : List Cert} (hsha : ∀ x, (env.crypto.sha256 x).length = 32) (ha : IssuerAcceptable issuer)
    (hi : IssuerIn chain issuer) (hs : HonestSct env.crypto ct cert issuer)
    (ht : ct.TrustedIn env.crypto (getTlogKeys now ctx.root.ctlogs .sign)) :
    checkNewCert env ctx now cert chain = .ok () := by
  unfold checkNewCert ctKeyring
  dsimp only
  rw [if_neg (by rw [List.isEmpty_iff]; exact ne_nil_of_trusted ht)]
  obtain ⟨kr, hkr⟩ := C10_keyring_total env.crypto (getTlogKeys now ctx.root.ctlogs .sign)
  rw [hkr]
  dsimp only
  rw [C27_verify_sct_iff]
  obtain ⟨sct, ik, entry, h1, h2, h3, h4, h5, h6, h7, h8⟩ := sct_parts hsha ha hi hs ht
  exact ⟨sct, ik, entry, h1, h2, h3, h4, h5, h6, h7, (C10_keyring_iff _ _ kr hkr _ _ _).2 h8⟩

/-! ## The log entry -/

theorem entryOk_of_logged {env : Env} {now : Time} {root : TrustedRoot Cert} {log : ServiceKey} {cert : Cert}
    {request : EntryRequest} {entry : LogEntry} (hint : ∀ n : Nat, n < 2 ^ 64 → env.pyInt (decimal n) = some (n : Int))
    (ht : log.TrustedIn env.crypto (startedKeys now root.tlogs))
    (h : Logged env log (startedKeys now root.tlogs) cert request entry)
    (hver : entry.version = "0.0.1".toList ∨ entry.version = "0.0.2".toList) : EntryOk env now root entry := by
  obtain ⟨D, i, ck, pre, post, s, p1, p2, p3, p4, p5, p6, p7, p8, p9, p10⟩ := h.proof
  obtain ⟨kr, hkr⟩ := C10_keyring_total env.crypto (startedKeys now root.tlogs)
  refine ⟨ne_nil_of_trusted ht, _, kr, p10, C01_honest_proof_accepted _ D i _ p1 _, hkr, ?_, ?_⟩
  · rw [C07_honest_checkpoint_iff env.pyInt env.crypto kr entry.logId _ ck pre post s p3 p6 (hint _ (by omega)) rfl p7 p8]
    exact ⟨(C10_keyring_iff _ _ kr hkr _ _ _).2 (keysAccept_of_signs ht h.logId p9), p5⟩
  · intro set t hs htm _
    rcases hver with hv | hv
    · obtain ⟨set', t', q1, q2, q3, q4, _, q5, q6, q7⟩ := h.promised hv
      rw [q1, Option.some.injEq] at hs
      rw [q2, Option.some.injEq] at htm
      subst hs htm
      refine ⟨?_, ?_, keysAccept_of_signs ht h.logId q7⟩ <;> unfold JsonSafe <;> omega
    · rw [h.unpromised (by rw [hv]; exact v1_ne_v2.symm)] at hs
      cases hs

/-! ## Times -/

theorem tsrs_of_answered {env : Env} {now : Time} {root : TrustedRoot Cert} {cert : Cert}
    {tsas : List (Bytes → Py Tsr)} (h : HonestTsas env now root cert tsas) (sig : Bytes) :
    ∀ t ∈ answered sig tsas, Timestamped env now root cert sig t := by
  intro t ht
  obtain ⟨tsa, hm, he⟩ := List.mem_filterMap.1 ht
  rcases h.answers tsa hm sig with hr | ⟨t', hr, hd⟩
  · rw [hr] at he; cases he
  · rw [hr] at he; cases he; exact hd

/-- the times of a bundle made with honest services: there is one, and the certificate was valid at each of them -/
theorem times_of_honest {env : Env} {now : Time} {root : TrustedRoot Cert} {log : ServiceKey} {ms : List PublicKeyMsg}
    {cert : Cert} {request : EntryRequest} {b : Bundle} {sig : Bytes} {tsas : List (Bytes → Py Tsr)}
    (hlog : Logged env log ms cert request b.entry) (htsas : HonestTsas env now root cert tsas) (hroot : ProperTsas root)
    (hsig : SignatureOf b.inner sig) (hts : b.inner.timestamps = (answered sig tsas).map Tsr.raw)
    (hkind : b.entry.version = "0.0.1".toList → b.entry.kind = "dsse".toList ∨ b.entry.kind = "hashedrekord".toList)
    (hsource : b.entry.promise ≠ none ∨ b.inner.timestamps ≠ []) :
    ∃ times, TimesOf env now root b times ∧ times ≠ [] ∧ ∀ t ∈ times, cert.ValidAt t := by
  have hall := tsrs_of_answered htsas sig
  have hfilter : ∀ p : Tsr → Bool, (∀ t, p t = true ↔ TrustedTsr env now root sig t) →
      (answered sig tsas).filter p = answered sig tsas := by
    intro p hp
    rw [List.filter_eq_self]
    exact fun t ht => (hp t).2 (hall t ht).trusted
  have hlt : ∃ l, LogTimeOf b.entry l ∧ (∀ t ∈ l, cert.ValidAt t) ∧ (l = [] → b.entry.promise = none) := by
    by_cases hv : b.entry.version = "0.0.1".toList
    · obtain ⟨set, t, q1, q2, q3, q4, q5, _, _, _⟩ := hlog.promised hv
      refine ⟨[t * 1000000], .inl ⟨t, q2, by omega, by rw [q1]; simp, hkind hv, hv, by omega, q4, rfl⟩, ?_, by simp⟩
      intro x hx
      rw [List.mem_singleton] at hx
      subst hx; exact q5
    · exact ⟨[], .inr ⟨.inl (hlog.unpromised hv), rfl⟩, by simp, fun _ => hlog.unpromised hv⟩
  obtain ⟨l, hl, hlv, hln⟩ := hlt
  refine ⟨(answered sig tsas).map Tsr.genTime ++ l, ⟨answered sig tsas, sig, l, ?_, ?_, hl, ?_⟩, ?_, ?_⟩
  · rw [hts, List.map_map]
    exact List.map_congr_left fun t ht => (hall t ht).decodes
  · intro hne
    obtain ⟨t, ht⟩ := List.exists_mem_of_ne_nil _ hne
    obtain ⟨ca, hca, _⟩ := (hall t ht).trusted
    refine ⟨List.ne_nil_of_mem hca, fun ca h => (hroot ca h).2, ?_, htsas.different sig, hsig⟩
    exact (List.length_filterMap_le _ _).trans htsas.few
  · congr 1
    rw [hfilter]
    intro t
    simp only [decide_eq_true_eq]
  · intro h
    rw [List.append_eq_nil_iff, List.map_eq_nil_iff] at h
    rcases hsource with hp | hp
    · exact hp (hln h.2)
    · rw [hts, h.1] at hp; exact hp rfl
  · intro t ht
    rcases List.mem_append.1 ht with ht | ht
    · obtain ⟨x, hx, rfl⟩ := List.mem_map.1 ht
      exact (hall x hx).valid
    · exact hlv t ht

/-! ## Policies -/

/-- if everything but the policy accepts, the policy decides -/
theorem verifyCommon_policy {env : Env} {now : Time} {v : Verifier} {b : Bundle}
    (h : verifyCommon env now v b (fun _ => .ok ()) = .ok ()) (policy : Cert → Py Unit) :
    verifyCommon env now v b policy = policy b.cert := by
  unfold verifyCommon at h ⊢
  cases h1 : establishTime env now v b with
  | error e => rw [h1] at h; simp at h
  | ok times =>
    rw [h1] at h
    dsimp only at h ⊢
    by_cases h2 : times.length < verifiedTimeThreshold
    · rw [if_pos h2] at h; simp at h
    · rw [if_neg h2] at h ⊢
      cases h3 : verifyChains env v.fulcioCerts b.cert [] times with
      | error e => rw [h3] at h; simp at h
      | ok chain =>
        rw [h3] at h
        dsimp only at h ⊢
        cases h4 : checkSct env now v b.cert chain with
        | error e => rw [h4] at h; simp at h
        | ok u =>
          rw [h4] at h
          dsimp only at h ⊢
          cases h5 : checkUsage b.cert with
          | error e => rw [h5] at h; simp at h
          | ok u =>
            rw [h5] at h
            dsimp only at h ⊢
            cases h6 : checkEntry env now v b.entry with
            | error e => rw [h6] at h; simp at h
            | ok u =>
              rw [h6] at h
              dsimp only at h
              cases h7 : policy b.cert with
              | error e => rfl
              | ok u => dsimp only; rw [h]

theorem verifyArtifact_policy {env : Env} {now : Time} {v : Verifier} {b : Bundle} {input : HashInput}
    (h : verifyArtifact env now v input b (fun _ => .ok ()) = .ok ()) (policy : Cert → Py Unit) :
    verifyArtifact env now v input b policy = policy b.cert := by
  unfold verifyArtifact at h ⊢
  cases h1 : verifyCommon env now v b (fun _ => .ok ()) with
  | error e => rw [h1] at h; simp at h
  | ok u =>
    rw [h1] at h
    rw [verifyCommon_policy h1 policy]
    cases policy b.cert with
    | error e => rfl
    | ok u => exact h

theorem verifyDsse_policy {env : Env} {now : Time} {v : Verifier} {b : Bundle} {r : Str × Bytes}
    (h : verifyDsse env now v b (fun _ => .ok ()) = .ok r) (policy : Cert → Py Unit) :
    verifyDsse env now v b policy = (policy b.cert).map fun _ => r := by
  unfold verifyDsse at h ⊢
  cases h1 : verifyCommon env now v b (fun _ => .ok ()) with
  | error e => rw [h1] at h; simp at h
  | ok u =>
    rw [h1] at h
    rw [verifyCommon_policy h1 policy]
    cases policy b.cert with
    | error e => rfl
    | ok u => exact h

/-! ## The property -/

theorem registered_p256 {c : Cert} (h : c.pubKey.kind = .ec .p256) :
    ∃ kd hf, Registered c.pubKey.kind kd (some (.sha2_256, hf)) := by
  rw [h]; exact ⟨_, _, .p256⟩

theorem recordable_p256 {c : Crypto} {kp : KeyPairs} {v : ApiVersion} {k n : Nat} {cert : Cert} {call : Call}
    {request : EntryRequest} (h : requestFor c kp v k n cert call = .ok request) (hp : cert.pubKey.kind = .ec .p256) :
    ∃ r, Records c request r := by
  obtain ⟨h1, h2⟩ := C55_recordable c v request cert
  cases call with
  | artifact input =>
    obtain ⟨kd, hf, hk⟩ := registered_p256 hp
    exact h2 _ _ h fun _ => ⟨kd, _, hk⟩
  | dsse stmt => exact h1 _ h

/-- **C38** Every bundle returned by a caching signer whose certificate Fulcio issued honestly, with an honest log and
honest timestamp authorities, verifies for what was signed at any time and with any trusted root that trusts these
services: the only thing left to decide is the policy.
Missing: signers without a cache, whose bundles never verify (C36), and SCTs made after January 2038 (C29). -/
theorem C38_signed_bundle_verifies_partial (env : Env) (ctx : Context) (kp : KeyPairs) (a₀ a : Answers) (w₀ w₁ w w' : World)
    (s : Signer) (cert : Cert) (call : Call) (b : Bundle) (now : Time) (v : Verifier) (ct log : ServiceKey)
    (hinit : Signer.init env ctx kp a₀ true w₀ = (.ok s, w₁)) (hcert : s.cachedCert = some cert)
    (hsign : s.sign env ctx kp a w call = (.ok b, w'))
    (hkeys : CorrectKeys env.crypto kp) (hsha : ∀ x, (env.crypto.sha256 x).length = 32)
    (hint : ∀ n : Nat, n < 2 ^ 64 → env.pyInt (decimal n) = some (n : Int))
    (hct : ct.TrustedIn env.crypto (startedKeys now v.root.ctlogs))
    (hlog : log.TrustedIn env.crypto (startedKeys now v.root.tlogs)) (hroot : ProperTsas v.root)
    (hfulcio : HonestFulcio env v.fulcioCerts ct a₀.fulcio)
    (hrekor : HonestLog env log (startedKeys now v.root.tlogs) cert a.rekor) (htsas : HonestTsas env now v.root cert a.tsas) :
    b.cert = cert ∧ ∀ policy, VerifiesUpToPolicy env now v b policy call := by
  obtain ⟨cert', chain, i1, i2, i3, rfl, rfl⟩ := (init_cached_iff _ _ _ _ _ _ _).1 hinit
  rw [Option.some.injEq] at hcert
  subst hcert
  have hissued := hfulcio _ (hkeys.p256 _) _ _ i2
  obtain ⟨cert, w₂, k, request, ts, entry, g1, g2, g3, g4, g5, g6, g7⟩ := (sign_ok_iff _ _ _ _ _ _ _ _ _).1 hsign
  rw [signingCert_cached] at g1
  by_cases hn : a.now > cert'.notAfter
  · rw [if_pos hn] at g1; simp at g1
  rw [if_neg hn, Prod.mk.injEq, Except.ok.injEq] at g1
  obtain ⟨rfl, rfl⟩ := g1
  have hk : k = w₀.keys := by
    unfold Signer.privateKey at g2
    dsimp only at g2
    exact (Prod.mk.inj g2).1.symm
  subst hk
  have hbc := cert_of_loads hissued.loads g7
  obtain ⟨f1, f2, f3, rfl, f5, f6⟩ := fromParts_content g7
  have hp256 : cert'.pubKey.kind = .ec .p256 := by rw [hissued.key]; exact hkeys.p256 _
  have hlogged := hrekor _ (recordable_p256 g4 hp256) _ g6
  obtain ⟨c1, rfl⟩ := (collectTimestamps_ok_iff _ _ _).1 g5
  refine ⟨hbc, ?_⟩
  have hsource : b.entry.promise ≠ none ∨ b.inner.timestamps ≠ [] := by
    cases hp : b.entry.promise with
    | some _ => exact .inl (by simp)
    | none => exact .inr (f6.time hp).1
  have hsig : SignatureOf b.inner (signatureFor env.crypto kp w₀.keys a.nonce call) := by
    cases call with
    | artifact input => exact .inr ⟨f1.1, _, f1.2, rfl⟩
    | dsse stmt => exact .inl ⟨_, f1.2, rfl, g3⟩
  obtain ⟨r, hrec, hholds⟩ := hlogged.body
  -- the common part, given the kind of the entry
  have common : (b.entry.version = "0.0.1".toList → b.entry.kind = "dsse".toList ∨ b.entry.kind = "hashedrekord".toList) →
      ∃ times, CommonOk env now v b (fun _ => .ok ()) times := by
    intro hkind
    obtain ⟨times, t1, t2, t3⟩ := times_of_honest hlogged htsas hroot hsig f5 hkind hsource
    obtain ⟨issuer, ha, hi, hs, hch⟩ := hissued.issuer
    obtain ⟨tl, htl⟩ : ∃ tl, times.getLast? = some tl := by
      cases h : times.getLast? with
      | none => exact absurd (List.getLast?_eq_none_iff.1 h) t2
      | some tl => exact ⟨tl, rfl⟩
    have hm := List.mem_of_getLast? htl
    obtain ⟨chain', hc1, hc2⟩ := hch tl (t3 tl hm).1 (t3 tl hm).2
    refine ⟨times, ⟨t1, t2, ?_, ⟨tl, chain', htl, ?_, ?_⟩, ?_, ?_, rfl, ?_, ?_⟩⟩
    · intro t ht
      obtain ⟨ch, h, _⟩ := hch t (t3 t ht).1 (t3 t ht).2
      exact ⟨ch, by rw [hbc]; exact h⟩
    · rw [hbc]; exact hc1
    · rw [hbc]; exact sctOk_of_honest hsha ha hc2 hs hct
    · rw [hbc]; exact hissued.digitalSignature
    · rw [hbc]; exact hissued.codeSigning
    · exact entryOk_of_logged hint hlog hlogged f6.version
    · rw [hbc]; exact t3
  have hw : ∀ ca ∈ v.root.timestampAuthorities, ca.validFor ≠ none := fun ca h => (hroot ca h).1
  intro policy
  cases call with
  | artifact input =>
    obtain ⟨e1, e2⟩ := (C55_artifact_entry_iff env ctx.rekor _ _ _ _ g4 g3.1 r hrec (fun _ => registered_p256 hp256)
      b.entry).1 hholds
    apply verifyArtifact_policy
    rw [C13_verify_artifact_iff env now v input b _ hw]
    refine ⟨common fun _ => .inr e1.1, ⟨_, f1.2, ?_, g3.1, g3.2, ?_, ?_, ?_⟩⟩
    · intro d hd
      exact (Option.some.inj hd).symm
    · rw [hbc]; exact ⟨_, hp256⟩
    · rw [hbc, hissued.key]; exact hkeys.accepted _ _ _ g3.2
    · rw [hbc]; exact e1
  | dsse stmt =>
    obtain ⟨e1, e2⟩ := (C55_dsse_entry_iff env ctx.rekor _ _ _ rfl _ g4 r hrec b.entry).1 hholds
    apply verifyDsse_policy
    rw [C14_verify_dsse_iff env now v b _ hw]
    refine ⟨common fun _ => ?_, ⟨_, _, f1.2, rfl, rfl, rfl, g3, ?_, ?_, ?_⟩⟩
    · rcases e1 with e1 | e1
      · exact .inl e1.1
      · exact .inr e1.1
    · rw [hbc]; exact ⟨_, hp256⟩
    · rw [hbc, hissued.key]; exact hkeys.accepted _ _ _ (hsha _)
    · rw [hbc]; exact e1

/-! ## Signing succeeds -/

theorem getKeyDetails_p256 {cert : Cert} (h : cert.pubKey.kind = .ec .p256) :
    getKeyDetails cert = .ok .pkixEcdsaP256Sha256 := by
  rw [C52_selection_iff]
  refine ⟨fun bits hb => ?_, _, by rw [h]; exact .p256⟩
  rw [h] at hb; cases hb

theorem requestFor_p256 (c : Crypto) (kp : KeyPairs) (v : ApiVersion) (k n : Nat) (cert : Cert) (call : Call)
    (hs : Signable c kp k n call) (hp : cert.pubKey.kind = .ec .p256) :
    ∃ request, requestFor c kp v k n cert call = .ok request ∧
      ∀ r, Records c request r → ∀ env entry, Holds env entry r → entry.version = versionOf v := by
  have hkd := getKeyDetails_p256 hp
  have hpre : getPrehash .pkixEcdsaP256Sha256 = .ok (.sha2_256, .sha256) := rfl
  cases call with
  | artifact input =>
    cases v with
    | v1 =>
      refine ⟨_, by rw [requestFor, hashedRekordRequest, hashedRekordRequestV1, if_pos hs.1], ?_⟩
      intro r hr env entry hh
      cases hr
      exact hh.2.1
    | v2 =>
      refine ⟨_, by rw [requestFor, hashedRekordRequest, hashedRekordRequestV2, hkd], ?_⟩
      intro r hr env entry hh
      cases hr
      exact hh.2.1
  | dsse stmt =>
    cases v with
    | v1 =>
      refine ⟨_, by rw [requestFor, dsseRequest, dsseRequestV1], ?_⟩
      intro r hr env entry hh
      cases hr
      exact hh.2.1
    | v2 =>
      have hi : envelopeInit ⟨stmt.contents, inTotoType, [kp.sign k n (c.sha256 (pae inTotoType stmt.contents))]⟩ =
          .ok (kp.sign k n (c.sha256 (pae inTotoType stmt.contents))) := by
        unfold envelopeInit; dsimp only; rw [if_neg hs]
      refine ⟨_, by rw [requestFor, dsseRequest, dsseRequestV2, hkd]; dsimp only; rw [hpre]; dsimp only; rw [hi], ?_⟩
      intro r hr env entry hh
      cases hr
      exact hh.2.1

/-- signing succeeds if it starts before the certificate's end, whatever the times are that the services give -/
theorem signing_succeeds (env : Env) (ctx : Context) (kp : KeyPairs) (a₀ : Answers) (w₀ : World) (store : List Cert)
    (ct log : ServiceKey) (ms : List PublicKeyMsg)
    (hkeys : CorrectKeys env.crypto kp) (hsha : ∀ x, (env.crypto.sha256 x).length = 32)
    (htoken : a₀.tokenValid = true)
    (hct : ct.TrustedIn env.crypto (getTlogKeys a₀.now ctx.root.ctlogs .sign))
    (hfulcio : HonestFulcio env store ct a₀.fulcio)
    (hanswer : ∃ cert chain, a₀.fulcio ⟨kp.pub w₀.keys⟩ = .ok (cert, chain)) :
    ∃ s w₁ cert, Signer.init env ctx kp a₀ true w₀ = (.ok s, w₁) ∧ s.cachedCert = some cert ∧
      ∀ (a : Answers) (w : World) (call : Call), a.now ≤ cert.notAfter → CanSign call →
        (∀ request, (∃ r, Records env.crypto request r) → ∀ entry, a.rekor request = .ok entry →
          ∃ c, Logged env log ms c request entry) →
        (∀ request, (∃ r, Records env.crypto request r) → ∃ entry, a.rekor request = .ok entry) →
        (∀ tsa ∈ a.tsas, ∀ sig, tsa sig = .error .timestamp ∨ ∃ t, tsa sig = .ok t ∧ env.decodeTsr t.raw = some t) →
        (ctx.rekor = .v1 ∨ ∃ tsa ∈ a.tsas, ∀ sig, ∃ t, tsa sig = .ok t) →
        ∃ b w', s.sign env ctx kp a w call = (.ok b, w') := by
  obtain ⟨cert, chain, hf⟩ := hanswer
  have hissued := hfulcio _ (hkeys.p256 _) _ _ hf
  obtain ⟨issuer, ha, hi, hs, _⟩ := hissued.issuer
  refine ⟨⟨some w₀.keys, some cert⟩, _, cert, (init_cached_iff _ _ _ _ _ _ _).2
    ⟨cert, chain, htoken, hf, checkNewCert_of_honest hsha ha hi hs hct, rfl, rfl⟩, rfl, ?_⟩
  intro a w call hnow hcan hrekor hreply htsas htime
  have hp256 : cert.pubKey.kind = .ec .p256 := by rw [hissued.key]; exact hkeys.p256 _
  have hsignable : Signable env.crypto kp w₀.keys a.nonce call := by
    cases call with
    | artifact input =>
      cases input with
      | bytes x => exact ⟨rfl, hsha _⟩
      | stream io => exact ⟨rfl, hsha _⟩
      | hashed h => exact hcan
    | dsse stmt => exact hkeys.nonempty _ _ _
  obtain ⟨request, hreq, hversion⟩ := requestFor_p256 env.crypto kp ctx.rekor w₀.keys a.nonce cert call hsignable hp256
  have hrecordable := recordable_p256 hreq hp256
  obtain ⟨entry, hentry⟩ := hreply request hrecordable
  obtain ⟨_, hlogged⟩ := hrekor request hrecordable entry hentry
  obtain ⟨r, hrec, hholds⟩ := hlogged.body
  have hv := hversion r hrec env entry hholds
  let sig := signatureFor env.crypto kp w₀.keys a.nonce call
  let ts := (answered sig a.tsas).map Tsr.raw
  have hparts : ∃ b, Bundle.fromParts env cert (some (contentFor env.crypto kp w₀.keys a.nonce call)) entry
      (some (answered sig a.tsas)) = .ok b := by
    have hver : entry.version = "0.0.1".toList ∨ entry.version = "0.0.2".toList := by
      rw [hv]; cases ctx.rekor
      · exact .inl rfl
      · exact .inr rfl
    refine ⟨⟨⟨"application/vnd.dev.sigstore.bundle.v0.3+json".toList, some cert.der, none, [entry], ts,
      match contentFor env.crypto kp w₀.keys a.nonce call with | .message m => some m | .envelope _ => none,
      match contentFor env.crypto kp w₀.keys a.nonce call with | .message _ => none | .envelope e => some e⟩,
      cert, entry⟩, ?_⟩
    rw [fromParts_ok_iff]
    refine ⟨rfl, rfl, rfl, rfl, rfl, rfl, rfl, ⟨.inl ⟨?_, _, rfl, hissued.loads⟩, rfl, hver, ?_, ?_, ?_⟩⟩
    · show "application/vnd.dev.sigstore.bundle.v0.3+json".toList ∈ newMediaTypes
      decide
    · obtain ⟨D, i, ck, pre, post, s, p⟩ := hlogged.proof
      exact ⟨_, _, p.2.2.2.2.2.2.2.2.2, rfl⟩
    · intro h
      have : "application/vnd.dev.sigstore.bundle.v0.3+json".toList ≠
        "application/vnd.dev.sigstore.bundle+json;version=0.1".toList := by decide
      exact absurd h this
    · intro hp
      rcases htime with h1 | ⟨tsa, hm, h2⟩
      · rw [h1] at hv
        obtain ⟨set, t, q, _⟩ := hlogged.promised hv
        rw [q] at hp; cases hp
      · constructor
        · obtain ⟨t, ht⟩ := h2 sig
          have : t ∈ answered sig a.tsas := List.mem_filterMap.2 ⟨tsa, hm, by rw [ht]; rfl⟩
          intro hnil
          rw [List.map_eq_nil_iff] at hnil
          rw [hnil] at this
          cases this
        · intro x hx
          obtain ⟨t, ht, rfl⟩ := List.mem_map.1 hx
          obtain ⟨tsa, hm, he⟩ := List.mem_filterMap.1 ht
          rcases htsas tsa hm sig with hr | ⟨t', hr, hd⟩
          · rw [hr] at he; cases he
          · rw [hr] at he; cases he; exact ⟨_, hd⟩
  obtain ⟨b, hb⟩ := hparts
  refine ⟨b, w, (sign_ok_iff _ _ _ _ _ _ _ _ _).2 ⟨cert, w, w₀.keys, request, _, entry, ?_, rfl, hsignable, hreq,
    (collectTimestamps_ok_iff _ _ _).2 ⟨?_, rfl⟩, hentry, hb⟩⟩
  · rw [signingCert_cached, if_neg (by omega)]
  · intro tsa hm e he
    rcases htsas tsa hm sig with h | ⟨t, h, _⟩
    · rw [show signatureFor env.crypto kp w₀.keys a.nonce call = sig from rfl, h] at he
      exact (Except.error.inj he).symm
    · rw [show signatureFor env.crypto kp w₀.keys a.nonce call = sig from rfl, h] at he
      cases he

/-- **C38** Signing against honest services that answer returns a bundle: constructing the signer succeeds, and so does
every call before the certificate's end, if the log promises inclusion (v1) or some timestamp authority answers. -/
theorem C38_signing_succeeds (env : Env) (ctx : Context) (kp : KeyPairs) (a₀ : Answers) (w₀ : World) (store : List Cert)
    (ct log : ServiceKey) (ms : List PublicKeyMsg)
    (hkeys : CorrectKeys env.crypto kp) (hsha : ∀ x, (env.crypto.sha256 x).length = 32)
    (htoken : a₀.tokenValid = true)
    (hct : ct.TrustedIn env.crypto (getTlogKeys a₀.now ctx.root.ctlogs .sign))
    (hfulcio : HonestFulcio env store ct a₀.fulcio)
    (hanswer : ∃ cert chain, a₀.fulcio ⟨kp.pub w₀.keys⟩ = .ok (cert, chain)) :
    ∃ s w₁ cert, Signer.init env ctx kp a₀ true w₀ = (.ok s, w₁) ∧ s.cachedCert = some cert ∧
      ∀ (a : Answers) (w : World) (call : Call) (now : Time) (root : TrustedRoot Cert), a.now ≤ cert.notAfter →
        CanSign call → HonestLog env log ms cert a.rekor →
        (∀ request, (∃ r, Records env.crypto request r) → ∃ entry, a.rekor request = .ok entry) →
        HonestTsas env now root cert a.tsas →
        (ctx.rekor = .v1 ∨ ∃ tsa ∈ a.tsas, ∀ sig, ∃ t, tsa sig = .ok t) →
        ∃ b w', s.sign env ctx kp a w call = (.ok b, w') := by
  obtain ⟨s, w₁, cert, h1, h2, h3⟩ := signing_succeeds env ctx kp a₀ w₀ store ct log ms hkeys hsha htoken hct hfulcio hanswer
  refine ⟨s, w₁, cert, h1, h2, fun a w call now root hnow hcan hrekor hreply htsas htime => ?_⟩
  refine h3 a w call hnow hcan (fun request hr entry he => ⟨cert, hrekor request hr entry he⟩) hreply ?_ htime
  intro tsa hm sig
  rcases htsas.answers tsa hm sig with h | ⟨t, h, ht⟩
  · exact .inl h
  · exact .inr ⟨t, h, ht.decodes⟩

/-- **C38** End to end: with honest services that answer, signing returns a bundle, and it verifies for what was signed
at any time and with any trusted root that trusts these services, up to the policy.
Missing: as above. -/
theorem C38_end_to_end_partial (env : Env) (ctx : Context) (kp : KeyPairs) (a₀ : Answers) (w₀ : World) (v : Verifier) (now : Time)
    (ct log : ServiceKey)
    (hkeys : CorrectKeys env.crypto kp) (hsha : ∀ x, (env.crypto.sha256 x).length = 32)
    (hint : ∀ n : Nat, n < 2 ^ 64 → env.pyInt (decimal n) = some (n : Int))
    (htoken : a₀.tokenValid = true)
    (hct₀ : ct.TrustedIn env.crypto (getTlogKeys a₀.now ctx.root.ctlogs .sign))
    (hct : ct.TrustedIn env.crypto (startedKeys now v.root.ctlogs))
    (hlog : log.TrustedIn env.crypto (startedKeys now v.root.tlogs)) (hroot : ProperTsas v.root)
    (hfulcio : HonestFulcio env v.fulcioCerts ct a₀.fulcio)
    (hanswer : ∃ cert chain, a₀.fulcio ⟨kp.pub w₀.keys⟩ = .ok (cert, chain)) :
    ∃ s w₁ cert, Signer.init env ctx kp a₀ true w₀ = (.ok s, w₁) ∧ s.cachedCert = some cert ∧
      ∀ (a : Answers) (w : World) (call : Call), a.now ≤ cert.notAfter → CanSign call →
        HonestLog env log (startedKeys now v.root.tlogs) cert a.rekor →
        (∀ request, (∃ r, Records env.crypto request r) → ∃ entry, a.rekor request = .ok entry) →
        HonestTsas env now v.root cert a.tsas →
        (ctx.rekor = .v1 ∨ ∃ tsa ∈ a.tsas, ∀ sig, ∃ t, tsa sig = .ok t) →
        ∃ b w', s.sign env ctx kp a w call = (.ok b, w') ∧ b.cert = cert ∧
          ∀ policy, VerifiesUpToPolicy env now v b policy call := by
  obtain ⟨s, w₁, cert, h1, h2, h3⟩ := C38_signing_succeeds env ctx kp a₀ w₀ v.fulcioCerts ct log
    (startedKeys now v.root.tlogs) hkeys hsha htoken hct₀ hfulcio hanswer
  refine ⟨s, w₁, cert, h1, h2, ?_⟩
  intro a w call hnow hcan hrekor hreply htsas htime
  obtain ⟨b, w', hb⟩ := h3 a w call now v.root hnow hcan hrekor hreply htsas htime
  obtain ⟨g1, g2⟩ := C38_signed_bundle_verifies_partial env ctx kp a₀ a w₀ w₁ w w' s cert call b now v ct log h1 h2 hb hkeys hsha
    hint hct hlog hroot hfulcio hrekor htsas
  exact ⟨b, w', hb, g1, g2⟩

end Sigstore.Props
