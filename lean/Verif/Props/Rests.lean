import Verif.Spec.Rests
import Verif.Props.Work

/-!
# C126: a verdict rests on the answers to few checks, all of which ask about what is trusted
-/

namespace Sigstore.Props

open Sigstore.Trust Sigstore.LogEntry Sigstore.Dsse Sigstore.Sct Sigstore.Checkpoint Sigstore.Work Sigstore.Spec

section Determined

variable (env : Env) (k : Checks)

/-- the answers to the checks in the trace determine the result and the trace -/
def Determined {α : Type} (f : Env → Traced α) : Prop :=
  (∀ call ∈ (f env).2, AnsweredAlike env k call) → f (withChecks env k) = f env

variable {env : Env} {k : Checks}

theorem det_of_eq {α : Type} {f : Env → Traced α} (h : f (withChecks env k) = f env) : Determined env k f := fun _ => h

theorem det_plain {α : Type} {f : Env → Py α} (h : f (withChecks env k) = f env) : Determined env k (fun e => plain (f e)) :=
  fun _ => by dsimp only; rw [h]

theorem det_andThen {α β : Type} {x : Env → Traced α} {f : Env → α → Traced β} (hx : Determined env k x)
    (hf : ∀ a, (x env).1 = .ok a → Determined env k (fun e => f e a)) : Determined env k (fun e => andThen (x e) (f e)) := by
  intro h
  dsimp only at h ⊢
  cases hxe : x env with
  | mk r l =>
    rw [hxe] at h
    cases r with
    | error e =>
      have := hx (by rw [hxe]; exact h)
      rw [this, hxe]
      rfl
    | ok a =>
      have h1 := hx (by rw [hxe]; exact fun c hc => h c (List.mem_append_left _ hc))
      rw [h1, hxe]
      have h2 := hf a (by rw [hxe]) (fun c hc => h c (List.mem_append_right _ hc))
      dsimp only at h2
      simp only [andThen, h2]

theorem det_rewrap {α : Type} {x : Env → Traced α} (hx : Determined env k x) : Determined env k (fun e => rewrap (x e)) := by
  intro h
  dsimp only at h ⊢
  rw [hx (by rw [rewrap_snd] at h; exact h)]

theorem keyCalls_same (key : Key) (sig data : Bytes) :
    keyCalls (withChecks env k).crypto key sig data = keyCalls env.crypto key sig data := by
  unfold keyCalls
  have : ∀ h, (withChecks env k).crypto.hash h data = env.crypto.hash h data := by intro h; cases h <;> rfl
  simp only [this]

theorem keyVerify_det {key : Key} {sig data : Bytes} (h : ∀ call ∈ keyCalls env.crypto key sig data, AnsweredAlike env k call) :
    key.verify (withChecks env k).crypto sig data = key.verify env.crypto sig data := by
  have hh : ∀ h, (withChecks env k).crypto.hash h data = env.crypto.hash h data := by intro h; cases h <;> rfl
  unfold keyCalls at h
  unfold Key.verify
  dsimp only
  split
  · rename_i h1
    rw [if_pos h1] at h
    cases hh' : key.hashAlgorithm with
    | none => rfl
    | some a =>
      rw [hh'] at h
      have := h _ (List.mem_singleton.2 rfl)
      dsimp only [AnsweredAlike] at this
      dsimp only
      rw [hh a]
      exact congrArg (fun b => if b = true then Except.ok () else Except.error Exc.invalidSignature) this
  · rename_i h1
    rw [if_neg h1] at h
    split
    · rename_i h2
      rw [if_pos h2] at h
      cases hh' : key.hashAlgorithm with
      | none => rfl
      | some a =>
        rw [hh'] at h
        have := h _ (List.mem_singleton.2 rfl)
        dsimp only [AnsweredAlike] at this
        dsimp only
        rw [hh a]
        exact congrArg (fun b => if b = true then Except.ok () else Except.error Exc.invalidSignature) this
    · rename_i h2
      rw [if_neg h2] at h
      split
      · rename_i h3
        rw [if_pos h3] at h
        cases hh' : key.hashAlgorithm with
        | some a => rfl
        | none =>
          rw [hh'] at h
          have := h _ (List.mem_singleton.2 rfl)
          dsimp only [AnsweredAlike] at this
          exact congrArg (fun b => if b = true then Except.ok () else Except.error Exc.invalidSignature) this
      · rfl

theorem tryCandidates_det (sig data : Bytes) (ks : List Key) :
    Determined env k (fun e => Work.tryCandidates e.crypto sig data ks) := by
  induction ks with
  | nil => exact det_of_eq rfl
  | cons key ks ih =>
    intro h
    dsimp only at h ⊢
    have hin : ∀ call ∈ keyCalls env.crypto key sig data, AnsweredAlike env k call := by
      intro call hc
      apply h
      rw [Work.tryCandidates.eq_def]
      dsimp only
      split
      · exact hc
      · exact List.mem_append_left _ hc
      · exact hc
    have hv := keyVerify_det hin
    rw [Work.tryCandidates.eq_def, Work.tryCandidates.eq_def] at *
    dsimp only at h ⊢
    rw [hv, keyCalls_same]
    cases hr : key.verify env.crypto sig data with
    | ok u => rfl
    | error e =>
      rw [hr] at h
      cases e <;> try rfl
      dsimp only at h ⊢
      have := ih (fun call hc => h call (List.mem_append_right _ hc))
      dsimp only at this
      rw [this]

theorem keyringVerify_det (kr : Keyring) (id sig data : Bytes) :
    Determined env k (fun e => keyringVerify e.crypto kr id sig data) := by
  unfold keyringVerify
  dsimp only
  exact det_andThen (tryCandidates_det sig data _) fun b _ => det_of_eq rfl

theorem verifySigs_det (kr : Keyring) (id note : Bytes) (ss : List RekorSignature) :
    Determined env k (fun e => Work.verifySigs e.crypto kr id note ss) := by
  induction ss with
  | nil => exact det_of_eq rfl
  | cons s ss ih =>
    by_cases hs : s.sigHash = id.take 4
    · simp only [Work.verifySigs, if_pos hs]
      exact det_andThen (det_of_eq rfl) fun sig _ => det_rewrap (keyringVerify_det kr id sig note)
    · simp only [Work.verifySigs, if_neg hs]
      exact ih

theorem verifyCheckpoint_det (kr : Keyring) (id : Bytes) (p : Merkle.InclusionProof) :
    Determined env k (fun e => Work.verifyCheckpoint e.pyInt e.crypto kr id p) := by
  unfold Work.verifyCheckpoint
  cases p.checkpoint with
  | none => exact det_of_eq rfl
  | some t =>
    exact det_andThen (det_of_eq rfl) fun sc _ => det_andThen (verifySigs_det kr id _ _) fun _ _ => det_of_eq rfl

theorem verifySet_det (kr : Keyring) (entry : LogEntry) : Determined env k (fun e => Work.verifySet e.crypto kr entry) := by
  unfold Work.verifySet
  cases entry.promise with
  | none => exact det_of_eq rfl
  | some t => exact det_andThen (det_of_eq rfl) fun d _ => det_rewrap (keyringVerify_det kr _ _ _)

theorem verifyEntry_det (kr : Keyring) (entry : LogEntry) :
    Determined env k (fun e => verifyEntry e.pyInt e.crypto kr entry) := by
  unfold verifyEntry
  cases entry.proof with
  | none => exact det_of_eq rfl
  | some p =>
    refine det_andThen (det_of_eq rfl) fun _ _ => det_andThen (verifyCheckpoint_det kr _ p) fun _ _ => ?_
    by_cases hs : entry.hasUsableSet
    · simp only [if_pos hs]; exact verifySet_det kr entry
    · simp only [if_neg hs]; exact det_of_eq rfl

theorem verifySignedTimestamp_det (now : Time) (tsr : Tsr) (msg : Bytes) (cas : List (CertificateAuthority Cert)) :
    Determined env k (fun e => Work.verifySignedTimestamp e now tsr msg cas) := by
  induction cas with
  | nil => exact det_of_eq rfl
  | cons ca cas ih =>
    intro h
    dsimp only at h ih ⊢
    rw [Work.verifySignedTimestamp.eq_def] at h
    rw [Work.verifySignedTimestamp.eq_def (withChecks env k), Work.verifySignedTimestamp.eq_def env]
    dsimp only at h ⊢
    cases hc : CertificateAuthority.certs now ca true with
    | nil => rw [hc] at h; exact ih h
    | cons leaf l =>
      cases l with
      | nil => rw [hc] at h; exact ih h
      | cons c2 cs =>
        rw [hc] at h
        dsimp only at h ⊢
        have ha : (withChecks env k).verifyTsr leaf ((leaf :: c2 :: cs).getLast (by simp)) ((c2 :: cs).dropLast) tsr msg =
            env.verifyTsr leaf ((leaf :: c2 :: cs).getLast (by simp)) ((c2 :: cs).dropLast) tsr msg := by
          refine h (.timestamp ..) ?_
          split
          · cases ca.validFor with
            | none => exact List.mem_singleton.2 rfl
            | some r =>
              dsimp only
              split
              · exact List.mem_singleton.2 rfl
              · exact List.mem_cons_self
          · exact List.mem_cons_self
        rw [ha]
        split
        · rename_i hv
          rw [if_pos hv] at h
          cases hva : ca.validFor with
          | none => rfl
          | some r =>
            rw [hva] at h
            dsimp only at h ⊢
            split
            · rfl
            · rename_i hw
              rw [if_neg hw] at h
              have := ih (fun c hc => h c (List.mem_cons_of_mem _ hc))
              dsimp only at this
              rw [this]
        · rename_i hv
          rw [if_neg hv] at h
          have := ih (fun c hc => h c (List.mem_cons_of_mem _ hc))
          dsimp only at this
          rw [this]

theorem verifyTimestamps_det (now : Time) (cas : List (CertificateAuthority Cert)) (sig : Py Bytes) (ts : List Tsr) :
    Determined env k (fun e => Work.verifyTimestamps e now cas sig ts) := by
  induction ts with
  | nil => exact det_of_eq rfl
  | cons t ts ih =>
    simp only [Work.verifyTimestamps]
    exact det_andThen (det_of_eq rfl) fun s _ => det_andThen (verifySignedTimestamp_det now t s cas) fun r _ =>
      det_andThen ih fun rs _ => det_of_eq rfl

theorem decodeTsrs_same (l : List Bytes) : decodeTsrs (withChecks env k) l = decodeTsrs env l := by
  induction l with
  | nil => rfl
  | cons t ts ih =>
    rw [decodeTsrs.eq_def, decodeTsrs.eq_def env]
    dsimp only
    rw [ih]
    rfl

theorem tsaTimes_det (now : Time) (v : Verifier) (b : Bundle) : Determined env k (fun e => Work.tsaTimes e now v b) := by
  unfold Work.tsaTimes
  refine det_andThen (det_plain (f := fun e => timestampData e b.inner) (decodeTsrs_same _)) fun l _ => ?_
  cases l with
  | nil => exact det_of_eq rfl
  | cons t ts =>
    refine det_andThen (det_of_eq rfl) fun cas _ => ?_
    cases cas with
    | nil => exact det_of_eq rfl
    | cons ca cas =>
      dsimp only
      unfold Work.verifyTimestampAuthority
      by_cases h1 : (t :: ts).length > maxAllowedTimestamp
      · simp only [if_pos h1]; exact det_of_eq rfl
      · simp only [if_neg h1]
        by_cases h2 : (t :: ts).eraseDups.length ≠ (t :: ts).length
        · simp only [if_pos h2]; exact det_of_eq rfl
        · simp only [if_neg h2]; exact verifyTimestamps_det now _ _ _

theorem establishTime_det (now : Time) (v : Verifier) (b : Bundle) :
    Determined env k (fun e => Work.establishTime e now v b) := by
  unfold Work.establishTime
  exact det_andThen (tsaTimes_det now v b) fun _ _ => det_andThen (det_of_eq rfl) fun _ _ => det_of_eq rfl

theorem verifyChains_det (store : List Cert) (cert : Cert) (vs : List VerifiedTime) :
    ∀ chain, Determined env k (fun e => Work.verifyChains e store cert chain vs) := by
  induction vs with
  | nil => exact fun _ => det_of_eq rfl
  | cons v vs ih =>
    intro chain h
    dsimp only at h ⊢
    rw [Work.verifyChains.eq_def] at h
    rw [Work.verifyChains.eq_def (withChecks env k), Work.verifyChains.eq_def env]
    dsimp only at h ⊢
    have ha : (withChecks env k).buildChain store v.time cert = env.buildChain store v.time cert := by
      refine h (.chain ..) ?_
      split
      · exact List.mem_singleton.2 rfl
      · exact List.mem_cons_self
    rw [ha]
    cases hb : env.buildChain store v.time cert with
    | none => rfl
    | some chain' =>
      rw [hb] at h
      dsimp only at h ⊢
      have := ih chain' (fun c hc => h c (List.mem_cons_of_mem _ hc))
      dsimp only at this
      rw [this]

theorem keyInit_same (pk : PublicKeyMsg) : Key.init (withChecks env k).crypto pk = Key.init env.crypto pk := rfl

theorem keyringInit_same (pks : List PublicKeyMsg) :
    ∀ kr, Keyring.initFrom (withChecks env k).crypto kr pks = Keyring.initFrom env.crypto kr pks := by
  induction pks with
  | nil => intro kr; rfl
  | cons pk pks ih =>
    intro kr
    rw [Keyring.initFrom, Keyring.initFrom, keyInit_same]
    cases Key.init env.crypto pk with
    | ok key => exact ih _
    | error e => dsimp only; rw [ih]

theorem ctKeyring_same (now : Time) (root : TrustedRoot Cert) :
    ctKeyring (withChecks env k).crypto now root .verify = ctKeyring env.crypto now root .verify := by
  unfold ctKeyring Keyring.init
  dsimp only
  rw [keyringInit_same]

theorem rekorKeyring_same (now : Time) (root : TrustedRoot Cert) :
    rekorKeyring (withChecks env k).crypto now root .verify = rekorKeyring env.crypto now root .verify := by
  unfold rekorKeyring Keyring.init
  dsimp only
  rw [keyringInit_same]

theorem checkSct_det (now : Time) (v : Verifier) (cert : Cert) (chain : List Cert) :
    Determined env k (fun e => Work.checkSct e now v cert chain) := by
  unfold Work.checkSct Work.verifySct
  refine det_rewrap (det_andThen (det_plain (f := fun e => ctKeyring e.crypto now v.root .verify) (ctKeyring_same now v.root))
    fun kr _ => det_andThen (det_of_eq rfl) fun sct _ => det_andThen (det_of_eq rfl) fun ik _ => det_andThen (det_of_eq rfl) fun d _ => ?_)
  by_cases h : sct.hashAlgorithm ≠ some .sha256
  · simp only [if_pos h]; exact det_of_eq rfl
  · simp only [if_neg h]; exact det_rewrap (keyringVerify_det kr _ _ _)

theorem checkEntry_det (now : Time) (v : Verifier) (entry : LogEntry) :
    Determined env k (fun e => Work.checkEntry e now v entry) := by
  unfold Work.checkEntry
  exact det_rewrap (det_andThen (det_plain (f := fun e => rekorKeyring e.crypto now v.root .verify) (rekorKeyring_same now v.root))
    fun kr _ => verifyEntry_det kr entry)

theorem verifyCommon_det (now : Time) (v : Verifier) (b : Bundle) (policy : Cert → Py Unit) :
    Determined env k (fun e => Work.verifyCommon e now v b policy) := by
  unfold Work.verifyCommon
  refine det_andThen (establishTime_det now v b) fun times _ => ?_
  by_cases h : times.length < verifiedTimeThreshold
  · simp only [if_pos h]; exact det_of_eq rfl
  · simp only [if_neg h]
    exact det_andThen (verifyChains_det _ _ _ _) fun chain _ => det_andThen (checkSct_det now v _ chain) fun _ _ =>
      det_andThen (det_of_eq rfl) fun _ _ => det_andThen (det_of_eq rfl) fun _ _ => det_andThen (checkEntry_det now v _) fun _ _ =>
      det_of_eq rfl

theorem prehashed_det (key : PubKey) (sig : Bytes) (h : Hashed) :
    Determined env k (fun e => (verifyPrehashed e.crypto key sig h, prehashedCalls key sig h)) := by
  intro ha
  dsimp only [prehashedCalls] at ha ⊢
  unfold verifyPrehashed
  cases hk : key.kind with
  | ec c =>
    rw [hk] at ha
    dsimp only at ha ⊢
    by_cases h1 : h.algorithm = .sha2_256
    · by_cases h2 : h.digest.length = 32
      · rw [if_pos ⟨h1, h2⟩] at ha
        have : (withChecks env k).crypto.ecdsa key h.digest sig = env.crypto.ecdsa key h.digest sig := ha _ (List.mem_singleton.2 rfl)
        rw [this]
      · simp only [if_neg h2]
    · simp only [if_neg h1]
  | rsa n => rfl
  | ed25519 => rfl
  | other n => rfl

theorem dsse_det (key : PubKey) (m : EnvelopeMsg) : Determined env k (fun e => Work.dsseVerify e.crypto key m) := by
  intro ha
  dsimp only at ha ⊢
  unfold Work.dsseVerify at ha ⊢
  cases hs : m.signatures with
  | nil => rfl
  | cons s l =>
    cases l with
    | cons s' l => rfl
    | nil =>
      rw [hs] at ha
      dsimp only [ecCalls, ecVerify] at ha ⊢
      cases hk : key.kind with
      | ec c =>
        rw [hk] at ha
        dsimp only at ha ⊢
        have : (withChecks env k).crypto.ecdsa key ((withChecks env k).crypto.sha256 (pae m.payloadType m.payload)) s =
            env.crypto.ecdsa key (env.crypto.sha256 (pae m.payloadType m.payload)) s := ha _ (List.mem_singleton.2 rfl)
        rw [this]
        rfl
      | rsa n => rfl
      | ed25519 => rfl
      | other n => rfl

theorem verifyArtifact_det (now : Time) (v : Verifier) (input : HashInput) (b : Bundle) (policy : Cert → Py Unit) :
    Determined env k (fun e => Work.verifyArtifact e now v input b policy) := by
  unfold Work.verifyArtifact
  refine det_andThen (verifyCommon_det now v b policy) fun _ _ => ?_
  unfold Work.checkArtifact
  dsimp only
  cases b.inner.messageSignature with
  | none => exact det_of_eq rfl
  | some ms =>
    have hd : sha256Digest (withChecks env k).crypto input = sha256Digest env.crypto input := by cases input <;> rfl
    intro ha
    dsimp only at ha ⊢
    rw [hd]
    split
    · rfl
    · rename_i hm
      rw [if_neg hm] at ha
      exact det_andThen (env := env) (k := k)
        (x := fun e => (verifyPrehashed e.crypto b.cert.pubKey ms.signature (sha256Digest env.crypto input),
          prehashedCalls b.cert.pubKey ms.signature (sha256Digest env.crypto input)))
        (f := fun e _ => plain (
          if b.entry.kind ≠ "hashedrekord".toList then .error .verification
          else if b.entry.version = "0.0.2".toList then
            validateHashedrekordV002 e b.cert b.entry ms.signature (sha256Digest env.crypto input)
          else if b.entry.version = "0.0.1".toList then
            validateHashedrekordV001 e b.cert b.entry ms.signature (sha256Digest env.crypto input)
          else .error .verification))
        (prehashed_det b.cert.pubKey ms.signature _) (fun _ _ => det_of_eq rfl) ha

theorem verifyDsse_det (now : Time) (v : Verifier) (b : Bundle) (policy : Cert → Py Unit) :
    Determined env k (fun e => Work.verifyDsse e now v b policy) := by
  unfold Work.verifyDsse
  refine det_andThen (verifyCommon_det now v b policy) fun _ _ => ?_
  unfold Work.checkDsse
  cases b.inner.dsseEnvelope with
  | none => exact det_of_eq rfl
  | some m =>
    exact det_andThen (det_of_eq rfl) fun _ _ => det_andThen (dsse_det b.cert.pubKey m) fun _ _ =>
      det_andThen (det_of_eq rfl) fun _ _ => det_of_eq rfl

end Determined

/-- **C126** The verdict on an artifact rests on the answers to the recorded checks: with libraries that answer those alike, and
anything else differently, the verdict is the same. -/
theorem C126_artifact_rests (env : Env) (k : Checks) (now : Time) (v : Verifier) (input : HashInput) (b : Bundle)
    (policy : Cert → Py Unit)
    (h : ∀ call ∈ (Work.verifyArtifact env now v input b policy).2, AnsweredAlike env k call) :
    Sigstore.verifyArtifact (withChecks env k) now v input b policy = Sigstore.verifyArtifact env now v input b policy := by
  rw [← C122_artifact_result, ← C122_artifact_result]
  have := verifyArtifact_det now v input b policy h
  dsimp only at this
  rw [this]

/-- **C126** The same for an attestation. -/
theorem C126_dsse_rests (env : Env) (k : Checks) (now : Time) (v : Verifier) (b : Bundle) (policy : Cert → Py Unit)
    (h : ∀ call ∈ (Work.verifyDsse env now v b policy).2, AnsweredAlike env k call) :
    Sigstore.verifyDsse (withChecks env k) now v b policy = Sigstore.verifyDsse env now v b policy := by
  rw [← C122_dsse_result, ← C122_dsse_result]
  have := verifyDsse_det now v b policy h
  dsimp only at this
  rw [this]

/-! ## Whom the checks ask about -/

section Asked

/-- all operations of a trace -/
def AllCalls (P : Call → Prop) (l : List Call) : Prop := ∀ call ∈ l, P call

variable {P : Call → Prop}

theorem all_andThen {α β : Type} {x : Traced α} {f : α → Traced β} (hx : AllCalls P x.2)
    (hf : ∀ a, x.1 = .ok a → AllCalls P (f a).2) : AllCalls P (andThen x f).2 := by
  obtain ⟨r, l⟩ := x
  cases r with
  | error e => exact hx
  | ok a => exact fun c hc => (List.mem_append.1 hc).elim (hx c) (hf a rfl c)

theorem all_nil : AllCalls P [] := fun c hc => (List.not_mem_nil hc).elim

theorem all_plain {α β : Type} {r : Py α} {f : α → Traced β} (hf : ∀ a, r = .ok a → AllCalls P (f a).2) :
    AllCalls P (andThen (plain r) f).2 := all_andThen all_nil hf

theorem all_rewrap {α : Type} {x : Traced α} (hx : AllCalls P x.2) : AllCalls P (rewrap x).2 := by rw [rewrap_snd]; exact hx

theorem mem_dict_set {κ ν : Type} [DecidableEq κ] : ∀ (d : Dict κ ν) (k : κ) (v : ν) (x : κ × ν), x ∈ Dict.set d k v →
    x ∈ d ∨ x.2 = v
  | [], _, _, x, h => by
    rw [Dict.set, List.mem_singleton] at h
    exact .inr (by rw [h])
  | (k', v') :: d, k, v, x, h => by
    rw [Dict.set] at h
    split at h
    · rcases List.mem_cons.1 h with rfl | h
      · exact .inr rfl
      · exact .inl (List.mem_cons_of_mem _ h)
    · rcases List.mem_cons.1 h with rfl | h
      · exact .inl List.mem_cons_self
      · exact (mem_dict_set d k v x h).imp (List.mem_cons_of_mem _) id

theorem keyring_keys (c : Crypto) (ms : List PublicKeyMsg) : ∀ kr kr', Keyring.initFrom c kr ms = .ok kr' →
    ∀ x ∈ kr', x ∈ kr ∨ ∃ m ∈ ms, ∃ raw, m.rawBytes = some raw ∧ c.loadDerPublicKey raw = some x.2.key := by
  induction ms with
  | nil => intro kr kr' h x hx; cases h; exact .inl hx
  | cons m ms ih =>
    intro kr kr' h x hx
    rw [Keyring.initFrom] at h
    split at h
    · rename_i key hk
      rcases ih _ _ h x hx with hx | ⟨m', hm', hr⟩
      · rcases mem_dict_set _ _ _ _ hx with hx | hx
        · exact .inl hx
        · obtain ⟨pub, s, hd, rfl⟩ := (keyInit_ok_iff c m key).1 hk
          refine .inr ⟨m, List.mem_cons_self, ?_⟩
          rw [hx]
          obtain ⟨raw, h1, _, h2, _⟩ := hd
          exact ⟨raw, h1, by cases s <;> exact h2⟩
      · exact .inr ⟨m', List.mem_cons_of_mem _ hm', hr⟩
    · split at h
      · exact (ih _ _ h x hx).imp id fun ⟨m', hm', hr⟩ => ⟨m', List.mem_cons_of_mem _ hm', hr⟩
      · cases h

/-- a check of a signature with a key of which `Q` holds -/
def SignatureWith (Q : PubKey → Prop) : Call → Prop
  | .rsa key .. => Q key
  | .ecdsa key .. => Q key
  | .ed25519 key .. => Q key
  | _ => False

theorem keyCalls_with {Q : PubKey → Prop} (c : Crypto) (key : Key) (sig data : Bytes) (h : Q key.key) :
    AllCalls (SignatureWith Q) (keyCalls c key sig data) := by
  unfold keyCalls
  (repeat' split) <;> intro call hc <;> first
    | exact (List.not_mem_nil hc).elim
    | (rw [List.mem_singleton] at hc; subst hc; exact h)

theorem tryCandidates_with {Q : PubKey → Prop} (c : Crypto) (sig data : Bytes) : ∀ ks : List Key, (∀ key ∈ ks, Q key.key) →
    AllCalls (SignatureWith Q) (Work.tryCandidates c sig data ks).2
  | [], _ => all_nil
  | key :: ks, h => by
    have h1 := keyCalls_with c key sig data (h key List.mem_cons_self)
    rw [Work.tryCandidates.eq_def]
    dsimp only
    split
    · exact h1
    · intro call hc
      rcases List.mem_append.1 hc with hc | hc
      · exact h1 call hc
      · exact tryCandidates_with c sig data ks (fun k hk => h k (List.mem_cons_of_mem _ hk)) call hc
    · exact h1

theorem get?_mem_dict {κ ν : Type} [DecidableEq κ] : ∀ (d : Dict κ ν) (k : κ) (v : ν), Dict.get? d k = some v → ∃ x ∈ d, x.2 = v
  | [], _, _, h => by cases h
  | (k', v') :: d, k, v, h => by
    rw [Dict.get?] at h
    split at h
    · cases h; exact ⟨_, List.mem_cons_self, rfl⟩
    · obtain ⟨x, hx, e⟩ := get?_mem_dict d k v h
      exact ⟨x, List.mem_cons_of_mem _ hx, e⟩

theorem keyringVerify_with {Q : PubKey → Prop} (c : Crypto) (kr : Keyring) (h : ∀ x ∈ kr, Q x.2.key) (id sig data : Bytes) :
    AllCalls (SignatureWith Q) (keyringVerify c kr id sig data).2 := by
  unfold keyringVerify
  dsimp only
  refine all_andThen (tryCandidates_with c sig data _ ?_) fun b _ => by cases b <;> exact all_nil
  intro key hk
  split at hk
  · rename_i key' hg
    rw [List.mem_singleton] at hk
    subst hk
    obtain ⟨x, hx, e⟩ := get?_mem_dict _ _ _ hg
    rw [← e]
    exact h x hx
  · unfold Dict.values at hk
    obtain ⟨x, hx, e⟩ := List.mem_map.1 hk
    rw [← e]
    exact h x hx

theorem verifySigs_with {Q : PubKey → Prop} (c : Crypto) (kr : Keyring) (h : ∀ x ∈ kr, Q x.2.key) (id note : Bytes) :
    ∀ ss, AllCalls (SignatureWith Q) (Work.verifySigs c kr id note ss).2
  | [] => all_nil
  | s :: ss => by
    rw [Work.verifySigs.eq_def]
    dsimp only
    split
    · exact all_plain fun sig _ => all_rewrap (keyringVerify_with c kr h _ _ _)
    · exact verifySigs_with c kr h id note ss

/-- a check of a signature with a key of which `Q` holds, or a hash -/
def SignatureOrHash (Q : PubKey → Prop) (call : Call) : Prop := SignatureWith Q call ∨ call = .hash

theorem verifyEntry_with {Q : PubKey → Prop} (pyInt : Str → Option Int) (c : Crypto) (kr : Keyring) (h : ∀ x ∈ kr, Q x.2.key)
    (e : LogEntry) : AllCalls (SignatureOrHash Q) (verifyEntry pyInt c kr e).2 := by
  unfold verifyEntry
  split
  · exact all_nil
  · refine all_andThen ?_ fun _ _ => all_andThen ?_ fun _ _ => ?_
    · unfold Work.verifyMerkleInclusion
      dsimp only
      split
      · exact all_nil
      · rw [chainInnerFrom_trace, chainBorderRight_trace]
        intro call hc
        refine .inr ?_
        rcases List.mem_cons.1 hc with rfl | hc
        · rfl
        · rcases List.mem_append.1 hc with hc | hc <;> exact (List.mem_replicate.1 hc).2
    · unfold Work.verifyCheckpoint
      split
      · exact all_nil
      · exact all_plain fun sc _ => all_andThen (fun call hc => .inl (verifySigs_with c kr h _ _ _ call hc)) fun _ _ => all_nil
    · split
      · unfold Work.verifySet
        split
        · exact all_nil
        · exact all_plain fun d _ => all_rewrap fun call hc => .inl (keyringVerify_with c kr h _ _ _ call hc)
      · exact all_nil

theorem asks_of_signature {env : Env} {v : Verifier} {b : Bundle} {Q : PubKey → Prop} (hq : ∀ key, Q key → TrustedKey env v.root b key) :
    ∀ call, SignatureOrHash Q call → AsksTrusted env v b call := by
  intro call h
  rcases h with h | rfl
  · cases call with
    | rsa => exact hq _ h
    | ecdsa => exact hq _ h
    | ed25519 => exact hq _ h
    | chain => exact h.elim
    | timestamp => exact h.elim
    | hash => exact trivial
  · exact trivial

theorem ctKeyring_trusted {env : Env} {now : Time} {v : Verifier} {b : Bundle} {kr : Keyring}
    (h : ctKeyring env.crypto now v.root .verify = .ok kr) : ∀ x ∈ kr, TrustedKey env v.root b x.2.key := by
  unfold ctKeyring Keyring.init at h
  dsimp only at h
  split at h
  · cases h
  · intro x hx
    rcases keyring_keys _ _ _ _ h x hx with hx | ⟨m, hm, hr⟩
    · exact (List.not_mem_nil hx).elim
    · exact .inr ⟨m, List.mem_append_left _ (List.mem_filter.1 hm).1, hr⟩

theorem rekorKeyring_trusted {env : Env} {now : Time} {v : Verifier} {b : Bundle} {kr : Keyring}
    (h : rekorKeyring env.crypto now v.root .verify = .ok kr) : ∀ x ∈ kr, TrustedKey env v.root b x.2.key := by
  unfold rekorKeyring Keyring.init at h
  dsimp only at h
  split at h
  · cases h
  · intro x hx
    rcases keyring_keys _ _ _ _ h x hx with hx | ⟨m, hm, hr⟩
    · exact (List.not_mem_nil hx).elim
    · exact .inr ⟨m, List.mem_append_right _ (List.mem_filter.1 hm).1, hr⟩

variable (env : Env) (now : Time) (v : Verifier) (b : Bundle)

theorem checkSct_asks (chain : List Cert) : AllCalls (AsksTrusted env v b) (Work.checkSct env now v b.cert chain).2 := by
  unfold Work.checkSct Work.verifySct
  refine all_rewrap (all_plain fun kr hkr => all_plain fun sct _ => all_plain fun ik _ => all_plain fun d _ => ?_)
  split
  · exact all_nil
  · exact all_rewrap fun call hc => asks_of_signature (fun _ h => h) call
      (.inl (keyringVerify_with _ kr (ctKeyring_trusted hkr) _ _ _ call hc))

theorem checkEntry_asks (e : LogEntry) : AllCalls (AsksTrusted env v b) (Work.checkEntry env now v e).2 := by
  unfold Work.checkEntry
  refine all_rewrap (all_plain fun kr hkr => ?_)
  exact fun call hc => asks_of_signature (fun _ h => h) call (verifyEntry_with _ _ kr (rekorKeyring_trusted hkr) e call hc)

theorem verifyChains_asks : ∀ (vs : List VerifiedTime) (chain : List Cert),
    AllCalls (AsksTrusted env v b) (Work.verifyChains env v.fulcioCerts b.cert chain vs).2
  | [], _ => all_nil
  | t :: vs, chain => by
    rw [Work.verifyChains.eq_def]
    dsimp only
    split
    · intro call hc
      rw [List.mem_singleton] at hc
      subst hc
      exact ⟨rfl, rfl⟩
    · rename_i chain' _
      intro call hc
      rcases List.mem_cons.1 hc with rfl | hc
      · exact ⟨rfl, rfl⟩
      · exact verifyChains_asks vs chain' call hc

theorem split_chain {α : Type} (a : α) (c : α) (cs : List α) (h : a :: c :: cs ≠ []) :
    a :: ((c :: cs).dropLast ++ [(a :: c :: cs).getLast h]) = a :: c :: cs := by
  rw [List.getLast_cons (by simp), List.dropLast_append_getLast]

theorem verifySignedTimestamp_asks (tsr : Tsr) (msg : Bytes) (hs : b.signature = .ok msg)
    (ht : ∃ raw ∈ b.inner.timestamps, env.decodeTsr raw = some tsr) : ∀ cas : List (CertificateAuthority Cert),
    (∀ ca ∈ cas, ca ∈ v.root.timestampAuthorities) →
    AllCalls (AsksTrusted env v b) (Work.verifySignedTimestamp env now tsr msg cas).2
  | [], _ => all_nil
  | ca :: cas, hca => by
    have ih := verifySignedTimestamp_asks tsr msg hs ht cas (fun c hc => hca c (List.mem_cons_of_mem _ hc))
    rw [Work.verifySignedTimestamp.eq_def]
    dsimp only
    split
    · exact ih
    · exact ih
    · rename_i leaf c2 cs hcs
      have h1 : AsksTrusted env v b (.timestamp leaf ((leaf :: c2 :: cs).getLast (by simp)) ((c2 :: cs).dropLast) tsr msg) := by
        refine ⟨⟨ca, hca ca List.mem_cons_self, ?_⟩, ht, hs⟩
        rw [split_chain]
        unfold CertificateAuthority.certs at hcs
        split at hcs
        · exact hcs.symm
        · cases hcs
      have one : AllCalls (AsksTrusted env v b)
          [.timestamp leaf ((leaf :: c2 :: cs).getLast (by simp)) ((c2 :: cs).dropLast) tsr msg] := by
        intro call hc
        rw [List.mem_singleton] at hc
        subst hc
        exact h1
      have more : AllCalls (AsksTrusted env v b)
          (.timestamp leaf ((leaf :: c2 :: cs).getLast (by simp)) ((c2 :: cs).dropLast) tsr msg ::
            (Work.verifySignedTimestamp env now tsr msg cas).2) := by
        intro call hc
        rcases List.mem_cons.1 hc with rfl | hc
        · exact h1
        · exact ih call hc
      split
      · split
        · exact one
        · split
          · exact one
          · exact more
      · exact more

theorem decodeTsrs_mem : ∀ (bs : List Bytes) (ts : List Tsr), decodeTsrs env bs = .ok ts →
    ∀ t ∈ ts, ∃ raw ∈ bs, env.decodeTsr raw = some t
  | [], ts, h => by cases h; intro t ht; exact (List.not_mem_nil ht).elim
  | x :: bs, ts, h => by
    rw [decodeTsrs] at h
    split at h
    · cases h
    · rename_i t0 h0
      split at h
      · cases h
      · rename_i ts' h1
        cases h
        intro t ht
        rcases List.mem_cons.1 ht with rfl | ht
        · exact ⟨x, List.mem_cons_self, h0⟩
        · obtain ⟨raw, hr, e⟩ := decodeTsrs_mem bs ts' h1 t ht
          exact ⟨raw, List.mem_cons_of_mem _ hr, e⟩

theorem verifyTimestamps_asks (cas : List (CertificateAuthority Cert)) (hca : ∀ ca ∈ cas, ca ∈ v.root.timestampAuthorities) :
    ∀ ts : List Tsr, (∀ t ∈ ts, ∃ raw ∈ b.inner.timestamps, env.decodeTsr raw = some t) →
    AllCalls (AsksTrusted env v b) (Work.verifyTimestamps env now cas b.signature ts).2
  | [], _ => all_nil
  | t :: ts, ht => by
    rw [Work.verifyTimestamps.eq_def]
    exact all_plain fun s hs => all_andThen (verifySignedTimestamp_asks env now v b t s hs (ht t List.mem_cons_self) cas hca) fun r _ =>
      all_andThen (verifyTimestamps_asks cas hca ts (fun x hx => ht x (List.mem_cons_of_mem _ hx))) fun _ _ => all_nil

theorem mapM_init_mem {χ : Type} : ∀ (l l' : List (CertificateAuthority χ)), l.mapM CertificateAuthority.init = .ok l' →
    ∀ a ∈ l', a ∈ l
  | [], _, h => by cases h; intro a ha; exact (List.not_mem_nil ha).elim
  | x :: l, l', h => by
    rw [List.mapM_cons] at h
    cases ha : CertificateAuthority.init x with
    | error e => rw [ha] at h; cases h
    | ok x' =>
      rw [ha] at h
      cases hl : l.mapM CertificateAuthority.init with
      | error e => rw [hl] at h; cases h
      | ok l'' =>
        rw [hl] at h
        cases h
        unfold CertificateAuthority.init at ha
        split at ha
        · cases ha
        · cases ha
          intro a ha
          rcases List.mem_cons.1 ha with rfl | ha
          · exact List.mem_cons_self
          · exact List.mem_cons_of_mem _ (mapM_init_mem l l'' hl a ha)

theorem establishTime_asks : AllCalls (AsksTrusted env v b) (Work.establishTime env now v b).2 := by
  unfold Work.establishTime Work.tsaTimes
  refine all_andThen (all_plain fun ts hts => ?_) fun _ _ => all_plain fun _ _ => all_nil
  split
  · exact all_nil
  · refine all_plain fun cas hcas => ?_
    split
    · exact all_nil
    · unfold Work.verifyTimestampAuthority
      split
      · exact all_nil
      · split
        · exact all_nil
        · exact verifyTimestamps_asks env now v b _ (mapM_init_mem _ _ hcas) _ (decodeTsrs_mem env _ _ hts)

theorem verifyCommon_asks (policy : Cert → Py Unit) : AllCalls (AsksTrusted env v b) (Work.verifyCommon env now v b policy).2 := by
  unfold Work.verifyCommon
  refine all_andThen (establishTime_asks env now v b) fun times _ => ?_
  split
  · exact all_nil
  · exact all_andThen (verifyChains_asks env v b _ _) fun chain _ => all_andThen (checkSct_asks env now v b chain) fun _ _ =>
      all_plain fun _ _ => all_plain fun _ _ => all_andThen (checkEntry_asks env now v b _) fun _ _ => all_nil

/-- **C126** All checks of `verify_artifact` ask about the bundle's certificate with the trusted authorities, about the bundle's
timestamps with the trusted timestamp authorities, or about a signature with the key of a trusted log or of the certificate. -/
theorem C126_artifact_asks (input : HashInput) (policy : Cert → Py Unit) :
    ∀ call ∈ (Work.verifyArtifact env now v input b policy).2, AsksTrusted env v b call := by
  unfold Work.verifyArtifact
  refine all_andThen (verifyCommon_asks env now v b policy) fun _ _ => ?_
  unfold Work.checkArtifact
  dsimp only
  split
  · exact all_nil
  · split
    · exact all_nil
    · refine all_andThen ?_ fun _ _ => all_nil
      unfold prehashedCalls
      (repeat' split) <;> intro call hc <;> first
        | exact (List.not_mem_nil hc).elim
        | (rw [List.mem_singleton] at hc; subst hc; exact .inl rfl)

/-- **C126** The same for `verify_dsse`. -/
theorem C126_dsse_asks (policy : Cert → Py Unit) :
    ∀ call ∈ (Work.verifyDsse env now v b policy).2, AsksTrusted env v b call := by
  unfold Work.verifyDsse
  refine all_andThen (verifyCommon_asks env now v b policy) fun _ _ => ?_
  unfold Work.checkDsse
  split
  · exact all_nil
  · refine all_plain fun _ _ => all_andThen ?_ fun _ _ => all_plain fun _ _ => all_nil
    unfold Work.dsseVerify
    split
    · dsimp only
      unfold ecCalls
      split <;> intro call hc <;> first
        | exact (List.not_mem_nil hc).elim
        | (rw [List.mem_singleton] at hc; subst hc; exact .inl rfl)
    · exact all_nil

end Asked

/-- **C126** So the verdict depends on no other answers of the libraries: if they agree about the trusted keys, the certificate's
key, the trusted authorities and this bundle's certificate and timestamps, the verdicts agree. -/
theorem C126_trusted_answers (env : Env) (k : Checks) (now : Time) (v : Verifier) (b : Bundle) (policy : Cert → Py Unit)
    (h : ∀ call, AsksTrusted env v b call → AnsweredAlike env k call) :
    (∀ input, Sigstore.verifyArtifact (withChecks env k) now v input b policy = Sigstore.verifyArtifact env now v input b policy) ∧
    Sigstore.verifyDsse (withChecks env k) now v b policy = Sigstore.verifyDsse env now v b policy :=
  ⟨fun input => C126_artifact_rests env k now v input b policy fun call hc => h call (C126_artifact_asks env now v b input policy call hc),
    C126_dsse_rests env k now v b policy fun call hc => h call (C126_dsse_asks env now v b policy call hc)⟩

/-- a library that accepts all RSA signatures and rejects all paths but those of one certificate -/
def exBrokenChecks : Checks where
  rsaPkcs1 _ _ _ _ := true
  ecdsa := exVEnv.crypto.ecdsa
  ed25519 := exVEnv.crypto.ed25519
  verifyTsr := exVEnv.verifyTsr
  buildChain store t cert := if cert = exBundle.cert then exVEnv.buildChain store t cert else none

/-- the verdict on the bundle of the other examples is the same -/
example : Sigstore.verifyArtifact (withChecks exVEnv exBrokenChecks) 3000000000 exVerifier (.bytes exArtifact) exBundle (fun _ => .ok ()) =
    Sigstore.verifyArtifact exVEnv 3000000000 exVerifier (.bytes exArtifact) exBundle (fun _ => .ok ()) := by
  refine C126_artifact_rests _ _ _ _ _ _ _ fun call hc => ?_
  have hk : ((Work.verifyArtifact exVEnv 3000000000 exVerifier (.bytes exArtifact) exBundle (fun _ => .ok ())).2.all fun call =>
      match call with | .rsa .. => false | _ => true) = true := by decide +kernel
  have := List.all_eq_true.1 hk call hc
  cases call with
  | rsa => cases this
  | ed25519 => rfl
  | ecdsa => rfl
  | timestamp => rfl
  | hash => trivial
  | chain store t cert =>
    have := (C126_artifact_asks exVEnv 3000000000 exVerifier exBundle (.bytes exArtifact) (fun _ => .ok ()) _ hc).2
    exact if_pos this

end Sigstore.Props
