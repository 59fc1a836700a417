import Verif.Spec.Growth
import Verif.Props.Verification

/-!
# C78, C79: accepted bundles stay accepted
-/

namespace Sigstore.Props

open Sigstore.Trust Sigstore.LogEntry Sigstore.Dsse Sigstore.Sct Sigstore.Spec

theorem effective_of_mem {c : Crypto} {ms : List PublicKeyMsg} (hu : Unambiguous c ms) {m : PublicKeyMsg} (hm : m ∈ ms)
    {key : PubKey} {s : Scheme} (hd : Denotes c m key s) : Effective c ms (c.sha256 key.spki) key s := by
  induction ms generalizing m key s with
  | nil => simp at hm
  | cons x xs ih =>
    have hu' : Unambiguous c xs := fun a ha b hb => hu a (List.mem_cons_of_mem _ ha) b (List.mem_cons_of_mem _ hb)
    by_cases h : ∃ m' ∈ xs, ∃ key' s', Denotes c m' key' s' ∧ c.sha256 key'.spki = c.sha256 key.spki
    · obtain ⟨m', hm', key', s', hd', he⟩ := h
      obtain ⟨rfl, rfl⟩ := hu m' (List.mem_cons_of_mem _ hm') m hm key' s' key s hd' hd he
      obtain ⟨pre, y, post, e, h1, h2, h3⟩ := ih hu' hm' hd'
      exact ⟨x :: pre, y, post, by rw [e]; rfl, h1, h2, h3⟩
    · rcases List.mem_cons.1 hm with rfl | hm
      · exact ⟨[], m, xs, rfl, hd, rfl, fun m' hm' key' s' hd' he => h ⟨m', hm', key', s', hd', he⟩⟩
      · exact absurd ⟨m, hm, key, s, hd, rfl⟩ h

theorem keysAccept_mono {c : Crypto} {ms ms' : List PublicKeyMsg} (hsub : ∀ m ∈ ms, m ∈ ms') (hu : Unambiguous c ms')
    {id data sig : Bytes} (hid : KnownId c ms id) (h : KeysAccept c ms id data sig) : KeysAccept c ms' id data sig := by
  have huse : ∀ key s, Effective c ms id key s → Effective c ms' id key s := by
    rintro key s ⟨pre, m, post, e, hd, rfl, _⟩
    exact effective_of_mem hu (hsub m (by rw [e]; simp)) hd
  rcases h with ⟨key, s, he, ha⟩ | ⟨hn, _⟩
  · exact .inl ⟨key, s, huse key s he, ha⟩
  · obtain ⟨m, hm, key, s, hd, rfl⟩ := hid
    have hu' : Unambiguous c ms := fun a ha b hb => hu a (hsub a ha) b (hsub b hb)
    exact absurd (effective_of_mem hu' hm hd) (hn key s)

theorem verifySigs_mono {c : Crypto} {kr kr' : Keyring} {id note : Bytes}
    (h : ∀ sig, kr.verify c id sig note = .ok () → kr'.verify c id sig note = .ok ()) :
    ∀ sigs, Checkpoint.verifySigs c kr id note sigs = .ok () → Checkpoint.verifySigs c kr' id note sigs = .ok () := by
  intro sigs
  induction sigs with
  | nil => simp [Checkpoint.verifySigs]
  | cons s ss ih =>
    intro hv
    rw [Checkpoint.verifySigs] at hv ⊢
    split at hv
    · rename_i he
      rw [if_pos he]
      cases hb : b64Decode s.signature with
      | error e => rw [hb] at hv; simp at hv
      | ok sig =>
        rw [hb] at hv
        dsimp only at hv ⊢
        have hk : kr.verify c id sig note = .ok () := by
          cases hk : kr.verify c id sig note with
          | ok u => rfl
          | error e => rw [hk] at hv; dsimp only at hv; split at hv <;> simp at hv
        rw [h sig hk]
    · rename_i he
      rw [if_neg he]
      exact ih hv

theorem verifyCheckpoint_mono {pyInt : Str → Option Int} {c : Crypto} {kr kr' : Keyring} {id : Bytes}
    (h : ∀ sig data, kr.verify c id sig data = .ok () → kr'.verify c id sig data = .ok ()) (p : Merkle.InclusionProof)
    (hv : Checkpoint.verifyCheckpoint pyInt c kr id p = .ok ()) : Checkpoint.verifyCheckpoint pyInt c kr' id p = .ok () := by
  unfold Checkpoint.verifyCheckpoint at hv ⊢
  cases hc : p.checkpoint with
  | none => rw [hc] at hv; simp at hv
  | some e =>
    rw [hc] at hv
    dsimp only at hv ⊢
    cases hf : Checkpoint.SignedCheckpoint.fromText pyInt e with
    | error e => rw [hf] at hv; simp at hv
    | ok sc =>
      rw [hf] at hv
      dsimp only at hv ⊢
      have hs : sc.signedNote.verify c kr id = .ok () := by
        cases hs : sc.signedNote.verify c kr id with
        | ok u => rfl
        | error e => rw [hs] at hv; simp at hv
      rw [hs] at hv
      have : sc.signedNote.verify c kr' id = .ok () := verifySigs_mono (fun sig => h sig _) _ hs
      rw [this]
      exact hv

theorem entryOk_mono {env : Env} {now now' : Time} {root root' : TrustedRoot Cert} {e : LogEntry}
    (hsub : ∀ m ∈ startedKeys now root.tlogs, m ∈ startedKeys now' root'.tlogs)
    (hu : Unambiguous env.crypto (startedKeys now' root'.tlogs)) (hid : KnownId env.crypto (startedKeys now root.tlogs) e.logId)
    (h : EntryOk env now root e) : EntryOk env now' root' e := by
  obtain ⟨hne, p, kr, hp, hm, hkr, hck, hset⟩ := h
  obtain ⟨kr', hkr'⟩ := C10_keyring_total env.crypto (startedKeys now' root'.tlogs)
  refine ⟨?_, p, kr', hp, hm, hkr', ?_, ?_⟩
  · intro h0
    obtain ⟨m, hm⟩ := List.exists_mem_of_ne_nil _ hne
    have := hsub m hm
    rw [h0] at this; simp at this
  · refine verifyCheckpoint_mono (fun sig data hv => ?_) p hck
    rw [C10_keyring_iff env.crypto _ kr' hkr']
    exact keysAccept_mono hsub hu hid ((C10_keyring_iff env.crypto _ kr hkr _ _ _).1 hv)
  · intro set t h1 h2 h3
    obtain ⟨j1, j2, hk⟩ := hset set t h1 h2 h3
    exact ⟨j1, j2, keysAccept_mono hsub hu hid hk⟩

theorem sctOk_mono {env : Env} {now now' : Time} {root root' : TrustedRoot Cert} {cert : Cert} {chain : List Cert}
    (hsub : ∀ m ∈ startedKeys now root.ctlogs, m ∈ startedKeys now' root'.ctlogs)
    (hu : Unambiguous env.crypto (startedKeys now' root'.ctlogs))
    (hid : ∀ scts, cert.scts = some scts → ∀ sct ∈ scts, KnownId env.crypto (startedKeys now root.ctlogs) sct.logId)
    (h : SctOk env now root cert chain) : SctOk env now' root' cert chain := by
  obtain ⟨hne, sct, ik, entry, h1, h2, h3, h4, h5, h6, h7, h8⟩ := h
  refine ⟨?_, sct, ik, entry, h1, h2, h3, h4, h5, h6, h7, keysAccept_mono hsub hu (hid _ h1 sct (by simp)) h8⟩
  intro h0
  obtain ⟨m, hm⟩ := List.exists_mem_of_ne_nil _ hne
  have := hsub m hm
  rw [h0] at this; simp at this

theorem vouches_mono {env : Env} {now now' : Time} (h : now ≤ now') {msg : Bytes} {t : Tsr} {ca : CertificateAuthority Cert}
    (hv : Vouches env now msg t ca) : Vouches env now' msg t ca := by
  obtain ⟨leaf, mid, root, period, h1, h2, h3, h4⟩ := hv
  exact ⟨leaf, mid, root, period, h1, h2, h3.trans h, h4⟩

/-- the bundle's timestamps that are trusted in the one situation are those that are trusted in the other -/
theorem timesOf_mono {env : Env} {now now' : Time} {root root' : TrustedRoot Cert} {b : Bundle} {times : List Time}
    (htsa : ∀ ca ∈ root.timestampAuthorities, ca ∈ root'.timestampAuthorities)
    (hcerts : (∀ ca ∈ root.timestampAuthorities, ca.certificates ≠ []) →
      ∀ ca ∈ root'.timestampAuthorities, ca.certificates ≠ [])
    (hsame : ∀ raw ∈ b.inner.timestamps, ∀ t sig, env.decodeTsr raw = some t → SignatureOf b.inner sig →
      (TrustedTsr env now root sig t ↔ TrustedTsr env now' root' sig t))
    (h : TimesOf env now root b times) : TimesOf env now' root' b times := by
  classical
  obtain ⟨tsrs, sig, logTimes, hd, hc, hl, ht⟩ := h
  refine ⟨tsrs, sig, logTimes, hd, fun hne => ?_, hl, ?_⟩
  · obtain ⟨c1, c2, c3, c4, c5⟩ := hc hne
    refine ⟨?_, hcerts c2, c3, c4, c5⟩
    intro h0
    obtain ⟨ca, hca⟩ := List.exists_mem_of_ne_nil _ c1
    have := htsa ca hca
    rw [h0] at this; simp at this
  · rw [ht]
    congr 2
    apply List.filter_congr
    intro t htm
    obtain ⟨c1, c2, c3, c4, c5⟩ := hc (List.ne_nil_of_mem htm)
    have : some t ∈ b.inner.timestamps.map env.decodeTsr := by rw [hd]; exact List.mem_map_of_mem htm
    obtain ⟨raw, hraw, he⟩ := List.mem_map.1 this
    rw [decide_eq_decide]
    exact hsame raw hraw t sig he c5

theorem commonOk_mono {env : Env} {now now' : Time} {v v' : Verifier} {b : Bundle} {policy : Cert → Py Unit} {times : List Time}
    (htl : ∀ m ∈ startedKeys now v.root.tlogs, m ∈ startedKeys now' v'.root.tlogs)
    (hct : ∀ m ∈ startedKeys now v.root.ctlogs, m ∈ startedKeys now' v'.root.ctlogs)
    (hutl : Unambiguous env.crypto (startedKeys now' v'.root.tlogs))
    (huct : Unambiguous env.crypto (startedKeys now' v'.root.ctlogs)) (hid : NamesItsLogs env.crypto now v.root b)
    (htsa : ∀ ca ∈ v.root.timestampAuthorities, ca ∈ v'.root.timestampAuthorities)
    (hcerts : (∀ ca ∈ v.root.timestampAuthorities, ca.certificates ≠ []) →
      ∀ ca ∈ v'.root.timestampAuthorities, ca.certificates ≠ [])
    (hsame : ∀ raw ∈ b.inner.timestamps, ∀ t sig, env.decodeTsr raw = some t → SignatureOf b.inner sig →
      (TrustedTsr env now v.root sig t ↔ TrustedTsr env now' v'.root sig t))
    (hchain : ∀ t chain, env.buildChain v.fulcioCerts t b.cert = some chain → env.buildChain v'.fulcioCerts t b.cert = some chain)
    (h : CommonOk env now v b policy times) : CommonOk env now' v' b policy times where
  timesOf := timesOf_mono htsa hcerts hsame h.timesOf
  enough := h.enough
  chains := fun t ht => (h.chains t ht).imp fun chain hc => hchain t chain hc
  sct := by
    obtain ⟨t, chain, h1, h2, h3⟩ := h.sct
    exact ⟨t, chain, h1, hchain _ _ h2, sctOk_mono hct huct hid.2 h3⟩
  digitalSignature := h.digitalSignature
  codeSigning := h.codeSigning
  policy := h.policy
  entry := entryOk_mono htl hutl hid.1 h.entry
  window := h.window

/-! ## C78: time passes -/

theorem startedKeys_mono {now now' : Time} (h : now ≤ now') (ms : List PublicKeyMsg) :
    ∀ m ∈ startedKeys now ms, m ∈ startedKeys now' ms := by
  intro m hm
  unfold startedKeys at hm ⊢
  rw [List.mem_filter] at hm ⊢
  refine ⟨hm.1, ?_⟩
  have h2 := hm.2
  cases hv : m.validFor with
  | none => rfl
  | some r =>
    rw [hv] at h2
    simp only [decide_eq_true_eq] at h2 ⊢
    exact h2.trans h

theorem unambiguous_started {c : Crypto} {ms : List PublicKeyMsg} (h : Unambiguous c ms) (now : Time) :
    Unambiguous c (startedKeys now ms) := fun a ha b hb => h a (List.mem_filter.1 ha).1 b (List.mem_filter.1 hb).1

theorem collectFulcioCerts_later {now now' : Time} (h : now ≤ now') :
    ∀ (cas : List (CertificateAuthority Cert)) (acc : List Cert), (∀ ca ∈ cas, Started now ca.validFor) →
      collectFulcioCerts now acc cas = collectFulcioCerts now' acc cas := by
  intro cas
  induction cas with
  | nil => intro acc _; rfl
  | cons ca cas ih =>
    intro acc hs
    have hv : ∀ n, now ≤ n → isTimerangeValid n ca.validFor true = true := by
      intro n hn
      unfold isTimerangeValid
      cases hp : ca.validFor with
      | none => rfl
      | some p =>
        have := (hs ca (by simp) p hp).trans hn
        dsimp only
        rw [if_neg (not_lt.2 this)]
        rfl
    unfold collectFulcioCerts
    cases hi : ca.init with
    | error e => rfl
    | ok ca' =>
      have : ca' = ca := by
        unfold CertificateAuthority.init at hi
        split at hi
        · simp at hi
        · exact (Except.ok.inj hi).symm
      subst this
      dsimp only
      unfold CertificateAuthority.certs
      rw [hv now le_rfl, hv now' h]
      exact ih _ fun x hx => hs x (List.mem_cons_of_mem _ hx)

theorem init_later {now now' : Time} (h : now ≤ now') (root : TrustedRoot Cert)
    (hs : ∀ ca ∈ root.certificateAuthorities, Started now ca.validFor) :
    Verifier.init now root = Verifier.init now' root := by
  unfold Verifier.init getFulcioCerts
  rw [collectFulcioCerts_later h _ _ hs]

theorem init_root {now : Time} {root : TrustedRoot Cert} {v : Verifier} (h : Verifier.init now root = .ok v) : v.root = root := by
  unfold Verifier.init at h
  split at h
  · simp at h
  · split at h
    · simp at h
    · rw [Except.ok.injEq] at h; subst h; rfl

theorem trustedTsr_later {env : Env} {now now' : Time} (h : now ≤ now') {root : TrustedRoot Cert} {sig : Bytes} {t : Tsr}
    (past : t.genTime ≤ now) : TrustedTsr env now root sig t ↔ TrustedTsr env now' root sig t := by
  constructor
  · rintro ⟨ca, hca, hv⟩
    exact ⟨ca, hca, vouches_mono h hv⟩
  · rintro ⟨ca, hca, leaf, mid, r, period, h1, h2, _, h4, h5, h6⟩
    exact ⟨ca, hca, leaf, mid, r, period, h1, h2, h5.trans past, h4, h5, h6⟩

theorem commonOk_later {env : Env} {now now' : Time} (h : now ≤ now') {v : Verifier} {b : Bundle} {policy : Cert → Py Unit}
    (hutl : Unambiguous env.crypto v.root.tlogs) (huct : Unambiguous env.crypto v.root.ctlogs)
    (hid : NamesItsLogs env.crypto now v.root b)
    (past : ∀ raw ∈ b.inner.timestamps, ∀ t, env.decodeTsr raw = some t → t.genTime ≤ now) {times : List Time}
    (hok : CommonOk env now v b policy times) : CommonOk env now' v b policy times :=
  commonOk_mono (startedKeys_mono h _) (startedKeys_mono h _) (unambiguous_started hutl _) (unambiguous_started huct _) hid
    (fun _ h => h) id (fun raw hraw t _ hd _ => trustedTsr_later h (past raw hraw t hd)) (fun _ _ h => h) hok

/-- **C78** (partial) An artifact that verified once verifies at any later time with the same trusted root, also with a new
verifier.  What is missing: the authorities' periods have to have started (else the certificate store grows), the bundle's
timestamps must not be from the future (else more of them may count later), and the ids of the logs' keys must be known and
unambiguous; without this it is false (`C78_rejected_later`). -/
theorem C78_artifact_stays_accepted_partial (env : Env) (now now' : Time) (h : now ≤ now') (root : TrustedRoot Cert)
    (hw : ∀ ca ∈ root.timestampAuthorities, ca.validFor ≠ none)
    (hs : ∀ ca ∈ root.certificateAuthorities, Started now ca.validFor)
    (hutl : Unambiguous env.crypto root.tlogs) (huct : Unambiguous env.crypto root.ctlogs)
    (v : Verifier) (hv : Verifier.init now root = .ok v) (input : HashInput) (b : Bundle) (policy : Cert → Py Unit)
    (hid : NamesItsLogs env.crypto now root b)
    (past : ∀ raw ∈ b.inner.timestamps, ∀ t, env.decodeTsr raw = some t → t.genTime ≤ now)
    (hok : verifyArtifact env now v input b policy = .ok ()) :
    ∃ v', Verifier.init now' root = .ok v' ∧ verifyArtifact env now' v' input b policy = .ok () := by
  refine ⟨v, by rw [← init_later h root hs]; exact hv, ?_⟩
  have hr := init_root hv
  subst hr
  obtain ⟨⟨times, hc⟩, ha⟩ := (C13_verify_artifact_iff env now v input b policy hw).1 hok
  exact (C13_verify_artifact_iff env now' v input b policy hw).2 ⟨⟨times, commonOk_later h hutl huct hid past hc⟩, ha⟩

/-- **C78** (partial) The same for attestations. -/
theorem C78_dsse_stays_accepted_partial (env : Env) (now now' : Time) (h : now ≤ now') (root : TrustedRoot Cert)
    (hw : ∀ ca ∈ root.timestampAuthorities, ca.validFor ≠ none)
    (hs : ∀ ca ∈ root.certificateAuthorities, Started now ca.validFor)
    (hutl : Unambiguous env.crypto root.tlogs) (huct : Unambiguous env.crypto root.ctlogs)
    (v : Verifier) (hv : Verifier.init now root = .ok v) (b : Bundle) (policy : Cert → Py Unit)
    (hid : NamesItsLogs env.crypto now root b)
    (past : ∀ raw ∈ b.inner.timestamps, ∀ t, env.decodeTsr raw = some t → t.genTime ≤ now) (r : Str × Bytes)
    (hok : verifyDsse env now v b policy = .ok r) :
    ∃ v', Verifier.init now' root = .ok v' ∧ verifyDsse env now' v' b policy = .ok r := by
  refine ⟨v, by rw [← init_later h root hs]; exact hv, ?_⟩
  have hr := init_root hv
  subst hr
  obtain ⟨⟨times, hc⟩, ha⟩ := (C14_verify_dsse_iff env now v b policy hw r.1 r.2).1 hok
  exact (C14_verify_dsse_iff env now' v b policy hw r.1 r.2).2 ⟨⟨times, commonOk_later h hutl huct hid past hc⟩, ha⟩

/-! ## C79: trust material is added -/

/-- everything trusted by the one is trusted by the other -/
structure Extends (v v' : Verifier) : Prop where
  tlogs : ∀ m ∈ v.root.tlogs, m ∈ v'.root.tlogs
  ctlogs : ∀ m ∈ v.root.ctlogs, m ∈ v'.root.ctlogs
  tsas : ∀ ca ∈ v.root.timestampAuthorities, ca ∈ v'.root.timestampAuthorities

theorem started_sub {now : Time} {ms ms' : List PublicKeyMsg} (h : ∀ m ∈ ms, m ∈ ms') :
    ∀ m ∈ startedKeys now ms, m ∈ startedKeys now ms' := by
  intro m hm
  unfold startedKeys at hm ⊢
  rw [List.mem_filter] at hm ⊢
  exact ⟨h m hm.1, hm.2⟩

theorem commonOk_extend {env : Env} {now : Time} {v v' : Verifier} (he : Extends v v') {b : Bundle} {policy : Cert → Py Unit}
    (hutl : Unambiguous env.crypto v'.root.tlogs) (huct : Unambiguous env.crypto v'.root.ctlogs)
    (hcerts : ∀ ca ∈ v'.root.timestampAuthorities, ca.certificates ≠ []) (hid : NamesItsLogs env.crypto now v.root b)
    (hnew : ∀ ca ∈ v'.root.timestampAuthorities, ca ∉ v.root.timestampAuthorities → ∀ raw ∈ b.inner.timestamps, ∀ t sig,
      env.decodeTsr raw = some t → SignatureOf b.inner sig → ¬ Vouches env now sig t ca)
    (hchain : ∀ t chain, env.buildChain v.fulcioCerts t b.cert = some chain → env.buildChain v'.fulcioCerts t b.cert = some chain)
    {times : List Time} (hok : CommonOk env now v b policy times) : CommonOk env now v' b policy times := by
  refine commonOk_mono (started_sub he.tlogs) (started_sub he.ctlogs) (unambiguous_started hutl _) (unambiguous_started huct _)
    hid he.tsas (fun _ => hcerts) ?_ hchain hok
  intro raw hraw t sig hd hsig
  constructor
  · rintro ⟨ca, hca, hv⟩
    exact ⟨ca, he.tsas ca hca, hv⟩
  · rintro ⟨ca, hca, hv⟩
    by_cases hin : ca ∈ v.root.timestampAuthorities
    · exact ⟨ca, hin, hv⟩
    · exact absurd hv (hnew ca hca hin raw hraw t sig hd hsig)

/-- **C79** (partial) Adding logs, CT logs, timestamp authorities and certificate authorities to the trusted root does not
make an accepted bundle fail.  What is missing: added timestamp authorities must not vouch for other timestamps of the
bundle (false otherwise: `C79_rejected_with_more_trust`), added keys must have other ids, the bundle's log ids are known,
and the chain found for the certificate stays the same. -/
theorem C79_artifact_stays_accepted_partial (env : Env) (now : Time) (v v' : Verifier) (he : Extends v v')
    (hw : ∀ ca ∈ v'.root.timestampAuthorities, ca.validFor ≠ none ∧ ca.certificates ≠ [])
    (hutl : Unambiguous env.crypto v'.root.tlogs) (huct : Unambiguous env.crypto v'.root.ctlogs)
    (input : HashInput) (b : Bundle) (policy : Cert → Py Unit) (hid : NamesItsLogs env.crypto now v.root b)
    (hnew : ∀ ca ∈ v'.root.timestampAuthorities, ca ∉ v.root.timestampAuthorities → ∀ raw ∈ b.inner.timestamps, ∀ t sig,
      env.decodeTsr raw = some t → SignatureOf b.inner sig → ¬ Vouches env now sig t ca)
    (hchain : ∀ t chain, env.buildChain v.fulcioCerts t b.cert = some chain → env.buildChain v'.fulcioCerts t b.cert = some chain)
    (hok : verifyArtifact env now v input b policy = .ok ()) : verifyArtifact env now v' input b policy = .ok () := by
  obtain ⟨⟨times, hc⟩, ha⟩ := (C13_verify_artifact_iff env now v input b policy fun ca hca => (hw ca (he.tsas ca hca)).1).1 hok
  exact (C13_verify_artifact_iff env now v' input b policy fun ca hca => (hw ca hca).1).2
    ⟨⟨times, commonOk_extend he hutl huct (fun ca hca => (hw ca hca).2) hid hnew hchain hc⟩, ha⟩

/-- **C79** (partial) The same for attestations. -/
theorem C79_dsse_stays_accepted_partial (env : Env) (now : Time) (v v' : Verifier) (he : Extends v v')
    (hw : ∀ ca ∈ v'.root.timestampAuthorities, ca.validFor ≠ none ∧ ca.certificates ≠ [])
    (hutl : Unambiguous env.crypto v'.root.tlogs) (huct : Unambiguous env.crypto v'.root.ctlogs)
    (b : Bundle) (policy : Cert → Py Unit) (hid : NamesItsLogs env.crypto now v.root b)
    (hnew : ∀ ca ∈ v'.root.timestampAuthorities, ca ∉ v.root.timestampAuthorities → ∀ raw ∈ b.inner.timestamps, ∀ t sig,
      env.decodeTsr raw = some t → SignatureOf b.inner sig → ¬ Vouches env now sig t ca)
    (hchain : ∀ t chain, env.buildChain v.fulcioCerts t b.cert = some chain → env.buildChain v'.fulcioCerts t b.cert = some chain)
    (r : Str × Bytes) (hok : verifyDsse env now v b policy = .ok r) : verifyDsse env now v' b policy = .ok r := by
  obtain ⟨⟨times, hc⟩, ha⟩ := (C14_verify_dsse_iff env now v b policy (fun ca hca => (hw ca (he.tsas ca hca)).1) r.1 r.2).1 hok
  exact (C14_verify_dsse_iff env now v' b policy (fun ca hca => (hw ca hca).1) r.1 r.2).2
    ⟨⟨times, commonOk_extend he hutl huct (fun ca hca => (hw ca hca).2) hid hnew hchain hc⟩, ha⟩

end Sigstore.Props
