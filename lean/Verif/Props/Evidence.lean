import Verif.Spec.Evidence
import Verif.Props.VerificationExamples

/-!
# C110, C111: what a bundle says without evidence
-/

namespace Sigstore.Props

open Sigstore.Trust Sigstore.LogEntry Sigstore.Dsse Sigstore.Spec

theorem ofValue_some {s : Str} {t : BundleType} (h : BundleType.ofValue s = some t) : t.value = s := by
  unfold BundleType.ofValue at h
  have := List.find?_some h
  exact of_decide_eq_true this

theorem old_format (t : BundleType) (h : ¬(t = .v0_3 ∨ t = .v0_3_alt)) :
    t.value = "application/vnd.dev.sigstore.bundle+json;version=0.1".toList ∨
      t.value = "application/vnd.dev.sigstore.bundle+json;version=0.2".toList := by
  cases t
  · exact .inl rfl
  · exact .inr rfl
  · exact absurd (.inr rfl) h
  · exact absurd (.inl rfl) h

theorem new_format (t : BundleType) (h : t = .v0_3 ∨ t = .v0_3_alt) :
    ¬(t.value = "application/vnd.dev.sigstore.bundle+json;version=0.1".toList ∨
      t.value = "application/vnd.dev.sigstore.bundle+json;version=0.2".toList) := by
  rcases h with rfl | rfl <;> decide

/-- a constructed bundle has the leaf certificate of its message -/
theorem init_leaf {env : Env} {m : BundleMsg} {b : Bundle} (h : Bundle.init env m = .ok b) :
    ∃ raw, leafDer m = some raw ∧ env.loadCert raw = some b.cert := by
  unfold Bundle.init at h
  split at h
  · cases h
  · next t ht =>
    have ht := ofValue_some ht
    split at h
    · cases h
    · next cert hl =>
      split at h
      · cases h
      · cases h
        unfold extractLeaf at hl
        unfold leafDer
        split at hl
        · next h3 =>
          rw [if_neg (ht ▸ new_format t h3)]
          split at hl
          · cases hl
          · next raw hr =>
            split at hl
            · cases hl
            · next c hc => cases hl; exact ⟨raw, hr, hc⟩
        · next h3 =>
          rw [if_pos (ht ▸ old_format t h3)]
          split at hl
          · cases hl
          · cases hl
          · next raw raws hr =>
            rw [hr]
            refine ⟨raw, rfl, ?_⟩
            split at hl
            · cases hl
            · cases hl
            · next leaf rest hc =>
              have : env.loadCert raw = some leaf := by
                unfold loadCerts at hc
                split at hc
                · cases hc
                · next c hc' =>
                  split at hc
                  · cases hc
                  · cases hc; exact hc'
              split at hl
              · cases hl
              · cases hl
              · split at hl
                · cases hl
                · cases hl; exact this

/-- a constructed bundle has the only entry of its message -/
theorem init_entry {env : Env} {m : BundleMsg} {b : Bundle} (h : Bundle.init env m = .ok b) :
    b.inner = m ∧ m.tlogEntries = [b.entry] := by
  unfold Bundle.init at h
  split at h
  · cases h
  · split at h
    · cases h
    · split at h
      · cases h
      · next entry he =>
        cases h
        refine ⟨rfl, ?_⟩
        unfold extractEntry at he
        split at he
        · next e hm =>
          rw [hm]
          split at he
          · cases he
          · split at he
            · cases he
            · split at he
              · split at he
                · cases he
                · cases he; rfl
              · split at he
                · split at he
                  · cases he
                  · cases he
                  · cases he; rfl
                · cases he; rfl
        · cases he

theorem usable_iff (e : LogEntry) : e.hasUsableSet = true ↔ Promised e := by
  unfold LogEntry.hasUsableSet Promised
  cases e.promise <;> cases e.integratedTime <;> simp

theorem sameEntry_verify {e e' : LogEntry} (h : SameEntry e e') (pyInt : Str → Option Int) (c : Crypto) (kr : Keyring) :
    e.verify pyInt c kr = e'.verify pyInt c kr := by
  have hs : (if e.hasUsableSet then e.verifySet c kr else .ok ()) = (if e'.hasUsableSet then e'.verifySet c kr else .ok ()) := by
    by_cases hp : Promised e ∨ Promised e'
    · obtain ⟨h1, h2, h3⟩ := h.promised hp
      have : e = e' := by
        cases e; cases e'
        obtain ⟨a1, a2, a3, a4, a5, -⟩ := h
        dsimp only at *
        subst a1 a2 a3 a4 a5 h1 h2 h3
        rfl
      rw [this]
    · rw [not_or] at hp
      rw [if_neg (fun hu => hp.1 ((usable_iff e).1 hu)), if_neg (fun hu => hp.2 ((usable_iff e').1 hu))]
  unfold LogEntry.verify
  rw [hs, h.proof, h.body, h.logId]

theorem sameEntry_logTime {e e' : LogEntry} (h : SameEntry e e') : logTime e = logTime e' := by
  have none_of : ∀ e : LogEntry, ¬ Promised e → logTime e = .ok [] := by
    intro e hp
    unfold logTime
    split
    · rfl
    · next t ht =>
      rw [if_neg]
      rintro ⟨h1, h2⟩
      obtain ⟨p, hp'⟩ := Option.isSome_iff_exists.1 h2
      exact hp ⟨p, t, hp', ht, h1⟩
  by_cases hp : Promised e ∨ Promised e'
  · obtain ⟨-, h2, h3⟩ := h.promised hp
    unfold logTime
    rw [h2, h3, h.kind, h.version]
  · rw [not_or] at hp
    rw [none_of e hp.1, none_of e' hp.2]

/-- the certificate, the entry's evidence, the timestamps and the contents determine everything -/
theorem sameEvidence_common {b b' : Bundle} (hc : b.cert = b'.cert) (he : SameEntry b.entry b'.entry)
    (ht : b.inner.timestamps = b'.inner.timestamps) (hs : b.inner.messageSignature = b'.inner.messageSignature)
    (hd : b.inner.dsseEnvelope = b'.inner.dsseEnvelope) (env : Env) (now : Time) (v : Verifier) (policy : Cert → Py Unit) :
    verifyCommon env now v b policy = verifyCommon env now v b' policy := by
  have h1 : b.signature = b'.signature := by
    unfold Bundle.signature
    rw [hs, hd]
  have h2 : establishTime env now v b = establishTime env now v b' := by
    unfold establishTime tsaTimes timestampData verifyTimestampAuthority
    rw [ht, h1, sameEntry_logTime he]
  have h3 : checkEntry env now v b.entry = checkEntry env now v b'.entry := by
    unfold checkEntry
    simp only [sameEntry_verify he]
  unfold verifyCommon
  rw [h2, h3, hc]

/-- **C110** What a bundle brings along without evidence does not influence verification: two bundles with the same evidence are
accepted alike, fail alike, and yield the same payload. -/
theorem C110_evidence_only (env : Env) (m m' : BundleMsg) (b b' : Bundle) (h : SameEvidence m m') (hb : Bundle.init env m = .ok b)
    (hb' : Bundle.init env m' = .ok b') (now : Time) (v : Verifier) (input : HashInput) (policy : Cert → Py Unit) :
    verifyArtifact env now v input b policy = verifyArtifact env now v input b' policy ∧
    verifyDsse env now v b policy = verifyDsse env now v b' policy := by
  obtain ⟨raw, h1, h2⟩ := init_leaf hb
  obtain ⟨raw', h1', h2'⟩ := init_leaf hb'
  obtain ⟨rfl, h3⟩ := init_entry hb
  obtain ⟨rfl, h3'⟩ := init_entry hb'
  have hc : b.cert = b'.cert := by
    obtain rfl : raw = raw' := Option.some.inj (h1.symm.trans (h.leaf.trans h1'))
    exact Option.some.inj (h2.symm.trans h2')
  have he := h.entry _ _ h3 h3'
  have hcommon := sameEvidence_common hc he h.timestamps h.signature h.envelope env now v policy
  constructor
  · unfold verifyArtifact checkArtifact validateHashedrekordV001 validateHashedrekordV002
    rw [hcommon, h.signature, hc, he.kind, he.version, he.body]
  · unfold verifyDsse checkDsse validateHashedrekordV002Dsse validateDsseV001
    rw [hcommon, h.envelope, hc, he.kind, he.version, he.body]

/-! ## Restating the position, the time and the promise -/

theorem restate_init {env : Env} {m : BundleMsg} {b : Bundle} (hb : Bundle.init env m = .ok b) (index : Int) (time : Option Int)
    (promise : Option Bytes) (hp : promise.isSome = b.entry.promise.isSome) :
    Bundle.init env { m with tlogEntries := [restate b.entry index time promise] } =
      .ok ⟨{ m with tlogEntries := [restate b.entry index time promise] }, b.cert, restate b.entry index time promise⟩ := by
  obtain ⟨hm, he⟩ := init_entry hb
  unfold Bundle.init at hb ⊢
  dsimp only
  split at hb
  · cases hb
  · next t ht =>
    rw [show extractLeaf env t { m with tlogEntries := [restate b.entry index time promise] } = extractLeaf env t m from rfl]
    split at hb
    · cases hb
    · next cert hl =>
      have hn : (restate b.entry index time promise).promise.isNone = b.entry.promise.isNone := by
        show promise.isNone = _
        rw [← Option.not_isSome, ← Option.not_isSome, hp]
      have : extractEntry env t { m with tlogEntries := [restate b.entry index time promise] } =
          .ok (restate b.entry index time promise) := by
        split at hb
        · cases hb
        · next entry hx =>
          cases hb
          unfold extractEntry at hx ⊢
          rw [he] at hx
          dsimp only at hx ⊢
          rw [hn, show (restate entry index time promise).version = entry.version from rfl,
            show (restate entry index time promise).validate = entry.validate from rfl,
            show timestampData env { m with tlogEntries := [restate entry index time promise] } = timestampData env m from rfl]
          split at hx
          · cases hx
          · next h1 =>
            rw [if_neg h1]
            split at hx
            · cases hx
            · next h2 =>
              dsimp only
              split at hx
              · next h3 =>
                rw [if_pos h3]
                split at hx
                · cases hx
                · next h4 => rw [if_neg h4]
              · next h3 =>
                rw [if_neg h3]
                split at hx
                · next h4 =>
                  rw [if_pos h4]
                  split at hx
                  · cases hx
                  · cases hx
                  · rfl
                · next h4 => rw [if_neg h4]
      rw [this]
      split at hb
      · cases hb
      · cases hb; rfl

/-- **C111** refuted: if the entry of a bundle has no promise, or no time with it, then the bundle may state any position in the log
and (without a promise) any time, and is accepted all the same. -/
theorem C111_unsupported (env : Env) (m : BundleMsg) (b : Bundle) (hb : Bundle.init env m = .ok b) (hp : ¬ Promised b.entry)
    (index : Int) (time : Option Int) (promise : Option Bytes) (hs : promise.isSome = b.entry.promise.isSome)
    (hp' : ¬ ∃ p t, promise = some p ∧ time = some t ∧ t ≠ 0) :
    ∃ b', Bundle.init env { m with tlogEntries := [restate b.entry index time promise] } = .ok b' ∧
      b'.entry.logIndex = index ∧ b'.entry.integratedTime = time ∧ b'.entry.promise = promise ∧
      ∀ now v input policy, verifyArtifact env now v input b' policy = verifyArtifact env now v input b policy ∧
        verifyDsse env now v b' policy = verifyDsse env now v b policy := by
  have hi := restate_init hb index time promise hs
  refine ⟨_, hi, rfl, rfl, rfl, fun now v input policy => ?_⟩
  obtain ⟨-, he⟩ := init_entry hb
  refine C110_evidence_only env { m with tlogEntries := [restate b.entry index time promise] } m _ b (.mk rfl ?_ rfl rfl rfl) hi hb
    now v input policy
  intro e e' h1 h2
  obtain rfl := (List.cons.inj h1).1
  obtain rfl := (List.cons.inj (he.symm.trans h2)).1
  exact ⟨rfl, rfl, rfl, rfl, rfl, fun h => (h.elim hp' hp).elim⟩

/-- **C111** If the entry of an accepted bundle has a promise with a time, then a trusted log signed this time and this position for the
entry.  (Missing: entries without.) -/
theorem C111_promised_partial (env : Env) (now : Time) (v : Verifier) (b : Bundle) (policy : Cert → Py Unit)
    (h : (∃ input, verifyArtifact env now v input b policy = .ok ()) ∨ ∃ r, verifyDsse env now v b policy = .ok r)
    (hp : Promised b.entry) :
    ∃ t set, b.entry.integratedTime = some t ∧ b.entry.promise = some set ∧
      ∃ m ∈ v.root.tlogs, (∀ r, m.validFor = some r → r.start ≤ now) ∧
        ∃ key s, Denotes env.crypto m key s ∧
          Accepts env.crypto key s (utf8 (promiseText b.entry.body t b.entry.logId b.entry.logIndex)) set := by
  have hc : verifyCommon env now v b policy = .ok () := by
    rcases h with ⟨input, h⟩ | ⟨r, h⟩
    · unfold verifyArtifact at h
      split at h
      · cases h
      · assumption
    · unfold verifyDsse at h
      split at h
      · cases h
      · assumption
  obtain ⟨_, _, _, _, _, _, _, hentry, _⟩ := (verifyCommon_steps _ _ _ _ _).1 hc
  obtain ⟨set, t, hset, a1, a2⟩ := hp
  refine ⟨t, set, a1, hset, ?_⟩
  obtain ⟨_, p, kr, _, _, _, _, hset'⟩ := hentry
  obtain ⟨_, _, hk⟩ := hset' set t hset a1 a2
  have : ∃ id key s, Effective env.crypto (startedKeys now v.root.tlogs) id key s ∧
      Accepts env.crypto key s (utf8 (promiseText b.entry.body t b.entry.logId b.entry.logIndex)) set := by
    rcases hk with ⟨key, s, h1, h2⟩ | ⟨_, id, key, s, h1, h2⟩
    · exact ⟨_, key, s, h1, h2⟩
    · exact ⟨id, key, s, h1, h2⟩
  obtain ⟨id, key, s, ⟨pre, m, post, hm, hd, _⟩, ha⟩ := this
  have hmem : m ∈ startedKeys now v.root.tlogs := by rw [hm]; simp
  obtain ⟨hmem, hst⟩ := List.mem_filter.1 hmem
  refine ⟨m, hmem, ?_, key, s, hd, ha⟩
  intro r hr
  rw [hr] at hst
  simpa using hst

/-! ## Examples -/

/-- an entry without promise, in a bundle with a timestamp -/
def exUnpromised : BundleMsg :=
  { exBundle.inner with tlogEntries := [{ exLogged "hashedrekord".toList "0.0.1".toList with integratedTime := none, promise := none }] }

/-- the bundle of `exUnpromised` -/
def exUnpromisedBundle : Bundle :=
  ⟨exUnpromised, exSigner, { exLogged "hashedrekord".toList "0.0.1".toList with integratedTime := none, promise := none }⟩

theorem exUnpromised_init : Bundle.init exVEnv exUnpromised = .ok exUnpromisedBundle := by decide +kernel

theorem exUnpromised_accepted :
    verifyArtifact exVEnv 3000000000 exVerifier (.bytes exArtifact) exUnpromisedBundle (fun _ => .ok ()) = .ok () := by decide +kernel

/-- **C111** refuted, concretely: an accepted bundle whose entry states that it is the entry -5 of the log, from the year 1970 -/
theorem C111_forged : ∃ m b, Bundle.init exVEnv m = .ok b ∧ b.entry.logIndex = -5 ∧ b.entry.integratedTime = some 1 ∧
    verifyArtifact exVEnv 3000000000 exVerifier (.bytes exArtifact) b (fun _ => .ok ()) = .ok () := by
  obtain ⟨b, h1, h2, h3, -, h4⟩ := C111_unsupported exVEnv exUnpromised exUnpromisedBundle exUnpromised_init (by rintro ⟨_, _, h, -⟩; cases h)
    (-5) (some 1) none rfl (by rintro ⟨_, _, h, -⟩; cases h)
  exact ⟨_, b, h1, h2, h3, (h4 _ _ _ _).1.trans exUnpromised_accepted⟩

/-- C111 applies to an accepted bundle with a promise -/
example : Promised exBundle.entry ∧ ∃ input, verifyArtifact exVEnv 3000000000 exVerifier input exBundle (fun _ => .ok ()) = .ok () :=
  ⟨⟨exPromise, 1500, rfl, rfl, by decide⟩, .bytes exArtifact, by decide +kernel⟩

/-- a bundle of the second format that brings along certificates -/
def exChained (rest : List Bytes) : BundleMsg :=
  { exBundle.inner with mediaType := "application/vnd.dev.sigstore.bundle+json;version=0.2".toList, certificate := none, chain := some ([4] :: rest) }

/-- C110 applies to bundles that bring along different certificates -/
example (rest rest' : List Bytes) : SameEvidence (exChained rest) (exChained rest') :=
  .mk rfl (fun e e' h h' => by
    obtain rfl := (List.cons.inj (h.symm.trans h')).1
    exact ⟨rfl, rfl, rfl, rfl, rfl, fun _ => ⟨rfl, rfl, rfl⟩⟩) rfl rfl rfl

example : ∃ b b', Bundle.init exVEnv (exChained []) = .ok b ∧ Bundle.init exVEnv (exChained [[4]]) = .ok b' ∧
    verifyArtifact exVEnv 3000000000 exVerifier (.bytes exArtifact) b (fun _ => .ok ()) = .ok () :=
  ⟨⟨exChained [], exSigner, exBundle.entry⟩, ⟨exChained [[4]], exSigner, exBundle.entry⟩, by decide +kernel, by decide +kernel, by decide +kernel⟩

end Sigstore.Props
