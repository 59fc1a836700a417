import Verif.Spec.Work
import Verif.Lemmas.Merkle
import Verif.Lemmas.Trust
import Verif.Props.VerificationExamples

/-!
# C122: the work that a bundle can cause is bounded
-/

namespace Sigstore.Props

open Sigstore.Trust Sigstore.LogEntry Sigstore.Dsse Sigstore.Sct Sigstore.Checkpoint Sigstore.Work Sigstore.Spec

/-! ## The traced functions compute what the functions without trace compute -/

theorem andThen_fst {α β : Type} (x : Traced α) (f : α → Traced β) :
    (andThen x f).1 = match x.1 with | .error e => .error e | .ok a => (f a).1 := by
  obtain ⟨r, l⟩ := x
  cases r <;> rfl

theorem rewrap_fst {α : Type} (x : Traced α) : (rewrap x).1 = match x.1 with
    | .error e => if e.isVerificationError then .error .verification else .error e
    | .ok a => .ok a := by
  obtain ⟨r, l⟩ := x
  cases r <;> rfl

theorem rewrap_snd {α : Type} (x : Traced α) : (rewrap x).2 = x.2 := by
  obtain ⟨r, l⟩ := x
  cases r <;> rfl

theorem chainInnerFrom_fst (H : Bytes → Bytes) (n : Nat) : ∀ (hs : List Bytes) (i : Nat) (seed : Bytes),
    (Work.chainInnerFrom H i seed hs n).1 = Merkle.chainInnerFrom H i seed hs n
  | [], _, _ => rfl
  | h :: hs, i, seed => by
    rw [Work.chainInnerFrom, Merkle.chainInnerFrom]
    dsimp only
    rw [chainInnerFrom_fst H n hs]
    split <;> rfl

theorem chainBorderRight_fst (H : Bytes → Bytes) : ∀ (hs : List Bytes) (seed : Bytes),
    (Work.chainBorderRight H seed hs).1 = Merkle.chainBorderRight H seed hs
  | [], _ => rfl
  | h :: hs, seed => by
    rw [Work.chainBorderRight, Merkle.chainBorderRight]
    exact chainBorderRight_fst H hs _

theorem merkle_fst (H : Bytes → Bytes) (body : Bytes) (p : Merkle.InclusionProof) :
    (Work.verifyMerkleInclusion H body p).1 = Merkle.verifyMerkleInclusion H body p := by
  unfold Work.verifyMerkleInclusion Merkle.verifyMerkleInclusion Merkle.chainInner
  dsimp only
  split
  · rfl
  · rw [chainBorderRight_fst, chainInnerFrom_fst]

theorem tryCandidates_fst (c : Crypto) (sig data : Bytes) : ∀ ks : List Key,
    (Work.tryCandidates c sig data ks).1 = Trust.tryCandidates c sig data ks
  | [] => rfl
  | k :: ks => by
    rw [Work.tryCandidates.eq_def, Trust.tryCandidates.eq_def]
    dsimp only
    rw [← tryCandidates_fst c sig data ks]
    cases h : k.verify c sig data with
    | ok u => rfl
    | error e => cases e <;> rfl

theorem keyringVerify_fst (c : Crypto) (kr : Keyring) (id sig data : Bytes) :
    (keyringVerify c kr id sig data).1 = kr.verify c id sig data := by
  unfold keyringVerify Keyring.verify
  dsimp only
  rw [andThen_fst, tryCandidates_fst]
  cases Dict.get? kr id with
  | none =>
    dsimp only
    cases Trust.tryCandidates c sig data (Dict.values kr) with
    | error e => rfl
    | ok b => cases b <;> rfl
  | some key =>
    dsimp only
    cases Trust.tryCandidates c sig data [key] with
    | error e => rfl
    | ok b => cases b <;> rfl

theorem verifySigs_fst (c : Crypto) (kr : Keyring) (id note : Bytes) : ∀ ss : List RekorSignature,
    (Work.verifySigs c kr id note ss).1 = Checkpoint.verifySigs c kr id note ss
  | [] => rfl
  | s :: ss => by
    rw [Work.verifySigs.eq_def, Checkpoint.verifySigs.eq_def]
    dsimp only
    split
    · rw [andThen_fst]
      dsimp only [plain]
      cases b64Decode s.signature with
      | error e => rfl
      | ok sig =>
        dsimp only
        rw [rewrap_fst, keyringVerify_fst]
        cases kr.verify c id sig note <;> rfl
    · exact verifySigs_fst c kr id note ss

theorem verifyCheckpoint_fst (pyInt : Str → Option Int) (c : Crypto) (kr : Keyring) (id : Bytes) (p : Merkle.InclusionProof) :
    (Work.verifyCheckpoint pyInt c kr id p).1 = Checkpoint.verifyCheckpoint pyInt c kr id p := by
  unfold Work.verifyCheckpoint Checkpoint.verifyCheckpoint SignedNote.verify
  cases p.checkpoint with
  | none => rfl
  | some env =>
    dsimp only
    rw [andThen_fst]
    dsimp only [plain]
    cases SignedCheckpoint.fromText pyInt env with
    | error e => rfl
    | ok sc =>
      dsimp only
      rw [andThen_fst, verifySigs_fst]
      cases Checkpoint.verifySigs c kr id (utf8 sc.signedNote.note) sc.signedNote.signatures <;> rfl

theorem verifySet_fst (c : Crypto) (kr : Keyring) (e : LogEntry) : (Work.verifySet c kr e).1 = e.verifySet c kr := by
  unfold Work.verifySet LogEntry.verifySet
  cases e.promise with
  | none => rfl
  | some set =>
    dsimp only
    rw [andThen_fst]
    dsimp only [plain]
    cases e.encodeCanonical with
    | error e => rfl
    | ok data =>
      dsimp only
      rw [rewrap_fst, keyringVerify_fst]
      cases kr.verify c e.logId set data <;> rfl

theorem verifyEntry_fst (pyInt : Str → Option Int) (c : Crypto) (kr : Keyring) (e : LogEntry) :
    (verifyEntry pyInt c kr e).1 = e.verify pyInt c kr := by
  unfold verifyEntry LogEntry.verify
  cases e.proof with
  | none => rfl
  | some p =>
    dsimp only
    rw [andThen_fst, merkle_fst]
    cases Merkle.verifyMerkleInclusion c.sha256 e.body p with
    | error x => rfl
    | ok u =>
      dsimp only
      rw [andThen_fst, verifyCheckpoint_fst]
      cases Checkpoint.verifyCheckpoint pyInt c kr e.logId p with
      | error x => rfl
      | ok u =>
        dsimp only
        split
        · exact verifySet_fst c kr e
        · rfl

theorem verifySignedTimestamp_fst (env : Env) (now : Time) (tsr : Tsr) (msg : Bytes) : ∀ cas : List (CertificateAuthority Cert),
    (Work.verifySignedTimestamp env now tsr msg cas).1 = Sigstore.verifySignedTimestamp env now tsr msg cas
  | [] => rfl
  | ca :: cas => by
    rw [Work.verifySignedTimestamp.eq_def, Sigstore.verifySignedTimestamp.eq_def]
    dsimp only
    rw [← verifySignedTimestamp_fst env now tsr msg cas]
    cases CertificateAuthority.certs now ca true with
    | nil => rfl
    | cons leaf l =>
      cases l with
      | nil => rfl
      | cons c2 cs =>
        dsimp only
        split
        · cases ca.validFor with
          | none => rfl
          | some r => dsimp only; split <;> rfl
        · rfl

theorem verifyTimestamps_fst (env : Env) (now : Time) (cas : List (CertificateAuthority Cert)) (sig : Py Bytes) : ∀ ts : List Tsr,
    (Work.verifyTimestamps env now cas sig ts).1 = Sigstore.verifyTimestamps env now cas sig ts
  | [] => rfl
  | t :: ts => by
    rw [Work.verifyTimestamps.eq_def, Sigstore.verifyTimestamps.eq_def]
    dsimp only
    rw [andThen_fst]
    dsimp only [plain]
    cases sig with
    | error e => rfl
    | ok s =>
      dsimp only
      rw [andThen_fst, verifySignedTimestamp_fst]
      cases Sigstore.verifySignedTimestamp env now t s cas with
      | error e => rfl
      | ok r =>
        dsimp only
        rw [andThen_fst, verifyTimestamps_fst env now cas (.ok s) ts]
        cases Sigstore.verifyTimestamps env now cas (.ok s) ts <;> rfl

theorem tsaTimes_fst (env : Env) (now : Time) (v : Verifier) (b : Bundle) :
    (Work.tsaTimes env now v b).1 = Sigstore.tsaTimes env now v b := by
  unfold Work.tsaTimes Sigstore.tsaTimes
  rw [andThen_fst]
  dsimp only [plain]
  cases timestampData env b.inner with
  | error e => rfl
  | ok l =>
    cases l with
    | nil => rfl
    | cons t ts =>
      dsimp only
      rw [andThen_fst]
      cases getTimestampAuthorities v.root with
      | error e => rfl
      | ok cas =>
        cases cas with
        | nil => rfl
        | cons ca cas =>
          dsimp only
          unfold Work.verifyTimestampAuthority Sigstore.verifyTimestampAuthority
          split
          · rfl
          · split
            · rfl
            · exact verifyTimestamps_fst env now _ _ _

theorem establishTime_fst (env : Env) (now : Time) (v : Verifier) (b : Bundle) :
    (Work.establishTime env now v b).1 = Sigstore.establishTime env now v b := by
  unfold Work.establishTime Sigstore.establishTime
  rw [andThen_fst, tsaTimes_fst]
  cases Sigstore.tsaTimes env now v b with
  | error e => rfl
  | ok l =>
    dsimp only
    rw [andThen_fst]
    dsimp only [plain]
    cases logTime b.entry <;> rfl

theorem verifyChains_fst (env : Env) (store : List Cert) (cert : Cert) : ∀ (vs : List VerifiedTime) (chain : List Cert),
    (Work.verifyChains env store cert chain vs).1 = Sigstore.verifyChains env store cert chain vs
  | [], _ => rfl
  | v :: vs, chain => by
    rw [Work.verifyChains.eq_def, Sigstore.verifyChains.eq_def]
    dsimp only
    cases env.buildChain store v.time cert with
    | none => rfl
    | some chain' => exact verifyChains_fst env store cert vs chain'

theorem verifySct_fst (c : Crypto) (cert : Cert) (chain : List Cert) (kr : Keyring) :
    (Work.verifySct c cert chain kr).1 = Sct.verifySct c cert chain kr := by
  unfold Work.verifySct Sct.verifySct
  rw [andThen_fst]
  dsimp only [plain]
  cases getSct cert with
  | error e => rfl
  | ok sct =>
    dsimp only
    rw [andThen_fst]
    dsimp only
    cases issuerKeyIdFor c sct chain with
    | error e => rfl
    | ok ik =>
      dsimp only
      rw [andThen_fst]
      dsimp only
      cases packDigitallySigned sct cert ik with
      | error e => rfl
      | ok d =>
        dsimp only
        split
        · rfl
        · rw [rewrap_fst, keyringVerify_fst]
          cases kr.verify c sct.logId sct.signature d <;> rfl

theorem checkSct_fst (env : Env) (now : Time) (v : Verifier) (cert : Cert) (chain : List Cert) :
    (Work.checkSct env now v cert chain).1 = Sigstore.checkSct env now v cert chain := by
  unfold Work.checkSct Sigstore.checkSct
  rw [rewrap_fst, andThen_fst]
  dsimp only [plain]
  cases ctKeyring env.crypto now v.root .verify with
  | error e => rfl
  | ok kr =>
    dsimp only
    rw [verifySct_fst]
    cases Sct.verifySct env.crypto cert chain kr <;> rfl

theorem checkEntry_fst (env : Env) (now : Time) (v : Verifier) (e : LogEntry) :
    (Work.checkEntry env now v e).1 = Sigstore.checkEntry env now v e := by
  unfold Work.checkEntry Sigstore.checkEntry
  rw [rewrap_fst, andThen_fst]
  dsimp only [plain]
  cases rekorKeyring env.crypto now v.root .verify with
  | error e => rfl
  | ok kr =>
    dsimp only
    rw [verifyEntry_fst]
    cases e.verify env.pyInt env.crypto kr <;> rfl

theorem verifyCommon_fst (env : Env) (now : Time) (v : Verifier) (b : Bundle) (policy : Cert → Py Unit) :
    (Work.verifyCommon env now v b policy).1 = Sigstore.verifyCommon env now v b policy := by
  unfold Work.verifyCommon Sigstore.verifyCommon
  rw [andThen_fst, establishTime_fst]
  cases Sigstore.establishTime env now v b with
  | error e => rfl
  | ok times =>
    dsimp only
    split
    · rfl
    · rw [andThen_fst, verifyChains_fst]
      cases Sigstore.verifyChains env v.fulcioCerts b.cert [] times with
      | error e => rfl
      | ok chain =>
        dsimp only
        rw [andThen_fst, checkSct_fst]
        cases Sigstore.checkSct env now v b.cert chain with
        | error e => rfl
        | ok u =>
          dsimp only
          rw [andThen_fst]
          dsimp only [plain]
          cases checkUsage b.cert with
          | error e => rfl
          | ok u =>
            dsimp only
            rw [andThen_fst]
            dsimp only
            cases policy b.cert with
            | error e => rfl
            | ok u =>
              dsimp only
              rw [andThen_fst, checkEntry_fst]
              cases Sigstore.checkEntry env now v b.entry <;> rfl

/-- the traced verification of an artifact has the result of the verification -/
theorem C122_artifact_result (env : Env) (now : Time) (v : Verifier) (input : HashInput) (b : Bundle) (policy : Cert → Py Unit) :
    (Work.verifyArtifact env now v input b policy).1 = Sigstore.verifyArtifact env now v input b policy := by
  unfold Work.verifyArtifact Sigstore.verifyArtifact
  rw [andThen_fst, verifyCommon_fst]
  cases Sigstore.verifyCommon env now v b policy with
  | error e => rfl
  | ok u =>
    dsimp only
    unfold Work.checkArtifact Sigstore.checkArtifact
    dsimp only
    cases b.inner.messageSignature with
    | none => rfl
    | some ms =>
      dsimp only
      split
      · rfl
      · rw [andThen_fst]
        dsimp only [plain]
        cases verifyPrehashed env.crypto b.cert.pubKey ms.signature (sha256Digest env.crypto input) <;> rfl

/-- the traced verification of an attestation has the result of the verification -/
theorem C122_dsse_result (env : Env) (now : Time) (v : Verifier) (b : Bundle) (policy : Cert → Py Unit) :
    (Work.verifyDsse env now v b policy).1 = Sigstore.verifyDsse env now v b policy := by
  unfold Work.verifyDsse Sigstore.verifyDsse
  rw [andThen_fst, verifyCommon_fst]
  cases Sigstore.verifyCommon env now v b policy with
  | error e => rfl
  | ok u =>
    dsimp only
    unfold Work.checkDsse Sigstore.checkDsse
    cases b.inner.dsseEnvelope with
    | none => rfl
    | some e =>
      dsimp only
      rw [andThen_fst]
      dsimp only [plain]
      cases envelopeInit e with
      | error x => rfl
      | ok sig =>
        dsimp only
        rw [andThen_fst]
        have hd : (Work.dsseVerify env.crypto b.cert.pubKey e).1 = Dsse.dsseVerify env.crypto b.cert.pubKey e := by
          unfold Work.dsseVerify Dsse.dsseVerify
          cases e.signatures with
          | nil => rfl
          | cons s l => cases l <;> rfl
        rw [hd]
        cases Dsse.dsseVerify env.crypto b.cert.pubKey e with
        | error x => rfl
        | ok p =>
          dsimp only
          rw [andThen_fst]
          dsimp only
          generalize (if b.entry.kind = "hashedrekord".toList ∧ b.entry.version = "0.0.2".toList then
            validateHashedrekordV002Dsse env b.cert b.entry e
            else if b.entry.kind = "dsse".toList ∧ b.entry.version = "0.0.1".toList then validateDsseV001 env b.cert b.entry e
            else Except.error Exc.verification) = r
          cases r <;> rfl

/-! ## Counting -/

/-- at most so many operations of each kind -/
def Bounded4 (l : List Call) (t c s h : Nat) : Prop :=
  (l.map Call.kind).count .timestamp ≤ t ∧ (l.map Call.kind).count .chain ≤ c ∧ (l.map Call.kind).count .signature ≤ s ∧
    (l.map Call.kind).count .hash ≤ h

theorem bounded4_nil (t c s h : Nat) : Bounded4 [] t c s h := ⟨Nat.zero_le _, Nat.zero_le _, Nat.zero_le _, Nat.zero_le _⟩

theorem bounded4_mono {l : List Call} {t c s h t' c' s' h' : Nat} (hw : Bounded4 l t c s h) (ht : t ≤ t') (hc : c ≤ c') (hs : s ≤ s')
    (hh : h ≤ h') : Bounded4 l t' c' s' h' :=
  ⟨hw.1.trans ht, hw.2.1.trans hc, hw.2.2.1.trans hs, hw.2.2.2.trans hh⟩

theorem bounded4_append {l l' : List Call} {t c s h t' c' s' h' : Nat} (hw : Bounded4 l t c s h) (hw' : Bounded4 l' t' c' s' h') :
    Bounded4 (l ++ l') (t + t') (c + c') (s + s') (h + h') := by
  unfold Bounded4 at *
  simp only [List.map_append, List.count_append]
  omega

theorem bounded4_andThen {α β : Type} {x : Traced α} {f : α → Traced β} {t c s h t' c' s' h' : Nat} (hw : Bounded4 x.2 t c s h)
    (hf : ∀ a, x.1 = .ok a → Bounded4 (f a).2 t' c' s' h') : Bounded4 (andThen x f).2 (t + t') (c + c') (s + s') (h + h') := by
  obtain ⟨r, l⟩ := x
  cases r with
  | error e => exact bounded4_mono hw (by omega) (by omega) (by omega) (by omega)
  | ok a => exact bounded4_append hw (hf a rfl)

theorem bounded4_plain {α β : Type} {r : Py α} {f : α → Traced β} {t c s h : Nat} (hf : ∀ a, r = .ok a → Bounded4 (f a).2 t c s h) :
    Bounded4 (andThen (plain r) f).2 t c s h := by
  have := bounded4_andThen (x := plain r) (f := f) (bounded4_nil 0 0 0 0) hf
  simpa only [Nat.zero_add] using this

theorem bounded4_then_plain {α β : Type} {x : Traced α} {f : α → Py β} {t c s h : Nat} (hw : Bounded4 x.2 t c s h) :
    Bounded4 (andThen x fun a => plain (f a)).2 t c s h :=
  bounded4_andThen hw (t' := 0) (c' := 0) (s' := 0) (h' := 0) fun _ _ => bounded4_nil 0 0 0 0

theorem keyCalls_within (c : Crypto) (k : Key) (sig data : Bytes) : Bounded4 (keyCalls c k sig data) 0 0 1 0 := by
  unfold keyCalls
  (repeat' split) <;> exact ⟨Nat.le_of_ble_eq_true rfl, Nat.le_of_ble_eq_true rfl, Nat.le_of_ble_eq_true rfl, Nat.le_of_ble_eq_true rfl⟩

theorem tryCandidates_within (c : Crypto) (sig data : Bytes) : ∀ ks : List Key,
    Bounded4 (Work.tryCandidates c sig data ks).2 0 0 ks.length 0
  | [] => bounded4_nil ..
  | k :: ks => by
    have ih := tryCandidates_within c sig data ks
    have one : Bounded4 (keyCalls c k sig data) 0 0 (k :: ks).length 0 :=
      bounded4_mono (keyCalls_within c k sig data) (Nat.le_refl _) (Nat.le_refl _) (by simp) (Nat.le_refl _)
    rw [Work.tryCandidates.eq_def]
    dsimp only
    split
    · exact one
    · have := bounded4_append (keyCalls_within c k sig data) ih
      exact bounded4_mono this (by omega) (by omega) (by simp; omega) (by omega)
    · exact one

theorem get?_length {κ ν : Type} [DecidableEq κ] : ∀ (d : Dict κ ν) (k : κ) (v : ν), d.get? k = some v → 1 ≤ d.length
  | [], _, _, h => by cases h
  | _ :: _, _, _, _ => by simp

theorem keyringVerify_within (c : Crypto) (kr : Keyring) (id sig data : Bytes) :
    Bounded4 (keyringVerify c kr id sig data).2 0 0 kr.length 0 := by
  unfold keyringVerify
  dsimp only
  have h : Bounded4 (Work.tryCandidates c sig data (match Dict.get? kr id with | some key => [key] | none => Dict.values kr)).2 0 0
      kr.length 0 := by
    refine bounded4_mono (tryCandidates_within c sig data _) (Nat.le_refl _) (Nat.le_refl _) ?_ (Nat.le_refl _)
    split
    · rename_i key hk
      exact get?_length _ _ _ hk
    · unfold Dict.values
      rw [List.length_map]
  refine bounded4_andThen h (t' := 0) (c' := 0) (s' := 0) (h' := 0) fun b _ => ?_
  cases b <;> exact bounded4_nil ..

theorem length_set {κ ν : Type} [DecidableEq κ] : ∀ (d : Dict κ ν) (k : κ) (v : ν), (Dict.set d k v).length ≤ d.length + 1
  | [], _, _ => by simp [Dict.set]
  | (k', v') :: d, k, v => by
    rw [Dict.set]
    split
    · simp
    · have := length_set d k v
      simp only [List.length_cons]
      omega

theorem keyring_length (c : Crypto) (ms : List PublicKeyMsg) : ∀ kr kr', Keyring.initFrom c kr ms = .ok kr' →
    kr'.length ≤ kr.length + ms.length := by
  induction ms with
  | nil => intro kr kr' h; cases h; simp
  | cons m ms ih =>
    intro kr kr' h
    rw [Keyring.initFrom] at h
    split at h
    · rename_i key _
      have := ih _ _ h
      have := length_set kr key.keyId key
      simp only [List.length_cons]
      omega
    · split at h
      · have := ih _ _ h
        simp only [List.length_cons]
        omega
      · cases h

theorem rekorKeyring_length {c : Crypto} {now : Time} {root : TrustedRoot Cert} {kr : Keyring}
    (h : rekorKeyring c now root .verify = .ok kr) : kr.length ≤ root.tlogs.length := by
  unfold rekorKeyring at h
  dsimp only at h
  split at h
  · cases h
  · have := keyring_length c _ _ _ h
    have h2 : (getTlogKeys now root.tlogs .verify).length ≤ root.tlogs.length := List.length_filter_le _ _
    simp only [List.length_nil, Nat.zero_add] at this
    omega

theorem ctKeyring_length {c : Crypto} {now : Time} {root : TrustedRoot Cert} {kr : Keyring}
    (h : ctKeyring c now root .verify = .ok kr) : kr.length ≤ root.ctlogs.length := by
  unfold ctKeyring at h
  dsimp only at h
  split at h
  · cases h
  · have := keyring_length c _ _ _ h
    have h2 : (getTlogKeys now root.ctlogs .verify).length ≤ root.ctlogs.length := List.length_filter_le _ _
    simp only [List.length_nil, Nat.zero_add] at this
    omega

theorem verifySigs_within (c : Crypto) (kr : Keyring) (id note : Bytes) : ∀ ss : List RekorSignature,
    Bounded4 (Work.verifySigs c kr id note ss).2 0 0 kr.length 0
  | [] => bounded4_nil ..
  | s :: ss => by
    rw [Work.verifySigs.eq_def]
    dsimp only
    split
    · refine bounded4_plain fun sig _ => ?_
      rw [rewrap_snd]
      exact keyringVerify_within ..
    · exact verifySigs_within c kr id note ss

theorem verifyCheckpoint_within (pyInt : Str → Option Int) (c : Crypto) (kr : Keyring) (id : Bytes) (p : Merkle.InclusionProof) :
    Bounded4 (Work.verifyCheckpoint pyInt c kr id p).2 0 0 kr.length 0 := by
  unfold Work.verifyCheckpoint
  split
  · exact bounded4_nil ..
  · exact bounded4_plain fun sc _ => bounded4_then_plain (verifySigs_within ..)

theorem verifySet_within (c : Crypto) (kr : Keyring) (e : LogEntry) : Bounded4 (Work.verifySet c kr e).2 0 0 kr.length 0 := by
  unfold Work.verifySet
  split
  · exact bounded4_nil ..
  · refine bounded4_plain fun sig _ => ?_
    rw [rewrap_snd]
    exact keyringVerify_within ..

theorem chainInnerFrom_trace (H : Bytes → Bytes) (n : Nat) : ∀ (hs : List Bytes) (i : Nat) (seed : Bytes),
    (Work.chainInnerFrom H i seed hs n).2 = List.replicate hs.length .hash
  | [], _, _ => rfl
  | h :: hs, i, seed => by
    rw [Work.chainInnerFrom]
    dsimp only
    rw [chainInnerFrom_trace H n hs]
    rfl

theorem chainBorderRight_trace (H : Bytes → Bytes) : ∀ (hs : List Bytes) (seed : Bytes),
    (Work.chainBorderRight H seed hs).2 = List.replicate hs.length .hash
  | [], _ => rfl
  | h :: hs, seed => by
    rw [Work.chainBorderRight]
    dsimp only
    rw [chainBorderRight_trace H hs]
    rfl

theorem onesBelow_le : ∀ f n : Nat, Merkle.onesBelow f n ≤ f
  | 0, _ => Nat.le_refl _
  | f + 1, n => by
    rw [Merkle.onesBelow]
    have := onesBelow_le f (n / 2)
    omega

theorem proof_length {index size : Nat} (hi : index < 2 ^ 64) (hs : size < 2 ^ 64) :
    (Merkle.decompInclusionProof index size).1 + (Merkle.decompInclusionProof index size).2 ≤ 65 := by
  unfold Merkle.decompInclusionProof
  dsimp only
  have hx : Merkle.bitLength (Merkle.xorPred index size) ≤ 65 := by
    rw [Merkle.bitLength_le_iff]
    unfold Merkle.xorPred
    cases size with
    | zero => dsimp only; omega
    | succ s =>
      dsimp only
      have : index ^^^ s < 2 ^ 64 := Nat.xor_lt_two_pow hi (by omega)
      omega
  generalize Merkle.bitLength (Merkle.xorPred index size) = inner at hx
  have hp : Merkle.popCount (index >>> inner) ≤ 65 - inner := by
    unfold Merkle.popCount
    refine (onesBelow_le _ _).trans ?_
    rw [Merkle.bitLength_le_iff, Nat.shiftRight_eq_div_pow]
    rw [Nat.div_lt_iff_lt_mul (Nat.two_pow_pos _), ← Nat.pow_add]
    have : 65 - inner + inner = 65 := by omega
    rw [this]
    omega
  omega

theorem merkle_within (H : Bytes → Bytes) (body : Bytes) (p : Merkle.InclusionProof) (hi : p.logIndex < 2 ^ 64)
    (hs : p.treeSize < 2 ^ 64) : Bounded4 (Work.verifyMerkleInclusion H body p).2 0 0 0 66 := by
  unfold Work.verifyMerkleInclusion
  dsimp only
  split
  · exact bounded4_nil ..
  · rename_i hl
    rw [chainInnerFrom_trace, chainBorderRight_trace]
    have := proof_length hi hs
    unfold Bounded4
    simp only [List.map_cons, List.map_append, List.map_replicate, Call.kind, List.count_cons, List.count_append,
      List.count_replicate, List.length_take, List.length_drop]
    have ht : (Kind.hash == Kind.timestamp) = false := by decide
    have hc : (Kind.hash == Kind.chain) = false := by decide
    have hg : (Kind.hash == Kind.signature) = false := by decide
    simp only [ht, hc, hg, beq_self_eq_true, if_true, Bool.false_eq_true, if_false]
    omega

theorem verifyEntry_within (pyInt : Str → Option Int) (c : Crypto) (kr : Keyring) (e : LogEntry)
    (hp : ∀ p, e.proof = some p → p.logIndex < 2 ^ 64 ∧ p.treeSize < 2 ^ 64) :
    Bounded4 (verifyEntry pyInt c kr e).2 0 0 (2 * kr.length) 66 := by
  unfold verifyEntry
  split
  · exact bounded4_nil ..
  · rename_i p hpr
    have h := bounded4_andThen (merkle_within c.sha256 e.body p (hp p hpr).1 (hp p hpr).2) (t' := 0) (c' := 0) (s' := 2 * kr.length)
      (h' := 0) (f := fun _ => andThen (Work.verifyCheckpoint pyInt c kr e.logId p) fun _ =>
        if e.hasUsableSet then Work.verifySet c kr e else plain (.ok ())) fun _ _ => by
      have := bounded4_andThen (verifyCheckpoint_within pyInt c kr e.logId p) (t' := 0) (c' := 0) (s' := kr.length) (h' := 0)
        (f := fun _ => if e.hasUsableSet then Work.verifySet c kr e else plain (.ok ())) fun _ _ => by
          split
          · exact verifySet_within ..
          · exact bounded4_nil ..
      exact bounded4_mono this (by omega) (by omega) (by omega) (by omega)
    exact bounded4_mono h (by omega) (by omega) (by omega) (by omega)

theorem verifySignedTimestamp_within (env : Env) (now : Time) (tsr : Tsr) (msg : Bytes) : ∀ cas : List (CertificateAuthority Cert),
    Bounded4 (Work.verifySignedTimestamp env now tsr msg cas).2 cas.length 0 0 0
  | [] => bounded4_nil ..
  | ca :: cas => by
    have ih := verifySignedTimestamp_within env now tsr msg cas
    have one (x : Cert) (y z t m) : Bounded4 [.timestamp x y z t m] 1 0 0 0 :=
      ⟨Nat.le_refl _, Nat.le_refl _, Nat.le_refl _, Nat.le_refl _⟩
    have more (x : Cert) (y z t m) : Bounded4 (.timestamp x y z t m :: (Work.verifySignedTimestamp env now tsr msg cas).2) (ca :: cas).length 0 0 0 :=
      bounded4_mono (bounded4_append (one x y z t m) ih) (by simp; omega) (by omega) (by omega) (by omega)
    have one (x : Cert) (y z t m) : Bounded4 [.timestamp x y z t m] (ca :: cas).length 0 0 0 := bounded4_mono (one x y z t m) (by simp) (by omega) (by omega) (by omega)
    have less : Bounded4 (Work.verifySignedTimestamp env now tsr msg cas).2 (ca :: cas).length 0 0 0 :=
      bounded4_mono ih (by simp) (by omega) (by omega) (by omega)
    rw [Work.verifySignedTimestamp.eq_def]
    dsimp only
    split
    · exact less
    · exact less
    · split
      · split
        · exact one ..
        · split
          · exact one ..
          · exact more ..
      · exact more ..

theorem verifyTimestamps_within (env : Env) (now : Time) (cas : List (CertificateAuthority Cert)) (sig : Py Bytes) : ∀ ts : List Tsr,
    Bounded4 (Work.verifyTimestamps env now cas sig ts).2 (ts.length * cas.length) 0 0 0 ∧
    ∀ l, (Work.verifyTimestamps env now cas sig ts).1 = .ok l → l.length ≤ ts.length
  | [] => ⟨bounded4_nil .., by intro l h; cases h; exact Nat.le_refl _⟩
  | t :: ts => by
    obtain ⟨ih1, ih2⟩ := verifyTimestamps_within env now cas sig ts
    constructor
    · rw [Work.verifyTimestamps.eq_def]
      dsimp only
      refine bounded4_plain fun s _ => ?_
      have := bounded4_andThen (verifySignedTimestamp_within env now t s cas)
        (f := fun r => andThen (Work.verifyTimestamps env now cas sig ts) fun rs =>
          plain (.ok (match r with | none => rs | some v => v :: rs))) fun r _ => bounded4_then_plain ih1
      refine bounded4_mono this ?_ (by omega) (by omega) (by omega)
      rw [List.length_cons, Nat.succ_mul]
      omega
    · intro l h
      rw [verifyTimestamps_fst] at h ih2
      rw [Sigstore.verifyTimestamps.eq_def] at h
      dsimp only at h
      split at h
      · cases h
      · split at h
        · cases h
        · split at h
          · cases h
          · rename_i rs hrs
            cases h
            have := ih2 _ hrs
            rw [List.length_cons]
            split
            · omega
            · rw [List.length_cons]; omega

theorem mapM_init_length {χ : Type} : ∀ (l l' : List (CertificateAuthority χ)), l.mapM CertificateAuthority.init = .ok l' →
    l'.length = l.length
  | [], _, h => by cases h; rfl
  | a :: l, l', h => by
    rw [List.mapM_cons] at h
    cases ha : CertificateAuthority.init a with
    | error e => rw [ha] at h; cases h
    | ok a' =>
      rw [ha] at h
      cases hl : l.mapM CertificateAuthority.init with
      | error e => rw [hl] at h; cases h
      | ok l'' =>
        rw [hl] at h
        cases h
        rw [List.length_cons, List.length_cons, mapM_init_length l l'' hl]

theorem tsaTimes_within (env : Env) (now : Time) (v : Verifier) (b : Bundle) :
    Bounded4 (Work.tsaTimes env now v b).2 (32 * v.root.timestampAuthorities.length) 0 0 0 ∧
    ∀ l, (Work.tsaTimes env now v b).1 = .ok l → l.length ≤ 32 := by
  constructor
  · unfold Work.tsaTimes
    refine bounded4_plain fun l _ => ?_
    split
    · exact bounded4_nil ..
    · refine bounded4_plain fun cas hcas => ?_
      split
      · exact bounded4_nil ..
      · rename_i ca cas'
        unfold Work.verifyTimestampAuthority
        split
        · exact bounded4_nil ..
        · rename_i hlen
          split
          · exact bounded4_nil ..
          · refine bounded4_mono (verifyTimestamps_within env now _ _ _).1 ?_ (by omega) (by omega) (by omega)
            rw [mapM_init_length _ _ hcas]
            refine Nat.mul_le_mul_right _ ?_
            unfold maxAllowedTimestamp at hlen
            omega
  · intro l h
    unfold Work.tsaTimes at h
    rw [andThen_fst] at h
    dsimp only [plain] at h
    split at h
    · cases h
    · split at h
      · cases h; simp
      · rw [andThen_fst] at h
        dsimp only at h
        split at h
        · cases h
        · split at h
          · cases h
          · unfold Work.verifyTimestampAuthority at h
            split at h
            · cases h
            · rename_i hlen
              split at h
              · cases h
              · have := (verifyTimestamps_within env now _ _ _).2 _ h
                unfold maxAllowedTimestamp at hlen
                omega

theorem establishTime_within (env : Env) (now : Time) (v : Verifier) (b : Bundle) :
    Bounded4 (Work.establishTime env now v b).2 (32 * v.root.timestampAuthorities.length) 0 0 0 ∧
    ∀ l, (Work.establishTime env now v b).1 = .ok l → l.length ≤ 33 := by
  constructor
  · unfold Work.establishTime
    refine bounded4_mono (bounded4_andThen (tsaTimes_within env now v b).1 (t' := 0) (c' := 0) (s' := 0) (h' := 0) fun l1 _ => ?_)
      (by omega) (by omega) (by omega) (by omega)
    exact bounded4_plain fun _ _ => bounded4_nil ..
  · intro l h
    unfold Work.establishTime at h
    rw [andThen_fst] at h
    split at h
    · cases h
    · rename_i l1 h1
      rw [andThen_fst] at h
      dsimp only [plain] at h
      split at h
      · cases h
      · rename_i l2 h2
        cases h
        have := (tsaTimes_within env now v b).2 _ h1
        have : l2.length ≤ 1 := by
          unfold logTime at h2
          split at h2
          · cases h2; simp
          · split at h2
            · split at h2
              · split at h2
                · cases h2
                · cases h2; simp
              · cases h2
            · cases h2; simp
        rw [List.length_append]
        omega

theorem verifyChains_within (env : Env) (store : List Cert) (cert : Cert) : ∀ (vs : List VerifiedTime) (chain : List Cert),
    Bounded4 (Work.verifyChains env store cert chain vs).2 0 vs.length 0 0
  | [], _ => bounded4_nil ..
  | v :: vs, chain => by
    have one : Bounded4 [.chain store v.time cert] 0 1 0 0 := ⟨Nat.le_refl _, Nat.le_refl _, Nat.le_refl _, Nat.le_refl _⟩
    rw [Work.verifyChains.eq_def]
    dsimp only
    split
    · exact bounded4_mono one (by omega) (by simp) (by omega) (by omega)
    · rename_i chain' _
      exact bounded4_mono (bounded4_append one (verifyChains_within env store cert vs chain')) (by omega) (by simp; omega) (by omega)
        (by omega)

theorem checkSct_within (env : Env) (now : Time) (v : Verifier) (cert : Cert) (chain : List Cert) :
    Bounded4 (Work.checkSct env now v cert chain).2 0 0 v.root.ctlogs.length 0 := by
  unfold Work.checkSct Work.verifySct
  rw [rewrap_snd]
  refine bounded4_plain fun kr hkr => bounded4_plain fun sct _ => bounded4_plain fun ik _ => bounded4_plain fun d _ => ?_
  split
  · exact bounded4_nil ..
  · rw [rewrap_snd]
    exact bounded4_mono (keyringVerify_within ..) (by omega) (by omega) (ctKeyring_length hkr) (by omega)

theorem checkEntry_within (env : Env) (now : Time) (v : Verifier) (e : LogEntry)
    (hp : ∀ p, e.proof = some p → p.logIndex < 2 ^ 64 ∧ p.treeSize < 2 ^ 64) :
    Bounded4 (Work.checkEntry env now v e).2 0 0 (2 * v.root.tlogs.length) 66 := by
  unfold Work.checkEntry
  rw [rewrap_snd]
  refine bounded4_plain fun kr hkr => ?_
  have := rekorKeyring_length hkr
  exact bounded4_mono (verifyEntry_within _ _ _ _ hp) (by omega) (by omega) (by omega) (by omega)

theorem verifyCommon_within (env : Env) (now : Time) (v : Verifier) (b : Bundle) (policy : Cert → Py Unit)
    (hp : ∀ p, b.entry.proof = some p → p.logIndex < 2 ^ 64 ∧ p.treeSize < 2 ^ 64) :
    Bounded4 (Work.verifyCommon env now v b policy).2 (32 * v.root.timestampAuthorities.length) 33
      (v.root.ctlogs.length + 2 * v.root.tlogs.length) 66 := by
  unfold Work.verifyCommon
  obtain ⟨h1, h2⟩ := establishTime_within env now v b
  refine bounded4_mono (bounded4_andThen h1 (t' := 0) (c' := 33) (s' := v.root.ctlogs.length + 2 * v.root.tlogs.length) (h' := 66)
    fun times ht => ?_) (by omega) (by omega) (by omega) (by omega)
  split
  · exact bounded4_nil ..
  · have hl := h2 _ ht
    refine bounded4_mono (bounded4_andThen (verifyChains_within env v.fulcioCerts b.cert times []) (t' := 0) (c' := 0)
      (s' := v.root.ctlogs.length + 2 * v.root.tlogs.length) (h' := 66) fun chain _ => ?_) (by omega) (by omega) (by omega) (by omega)
    refine bounded4_mono (bounded4_andThen (checkSct_within env now v b.cert chain) (t' := 0) (c' := 0)
      (s' := 2 * v.root.tlogs.length) (h' := 66) fun _ _ => ?_) (by omega) (by omega) (by omega) (by omega)
    exact bounded4_plain fun _ _ => bounded4_plain fun _ _ => bounded4_then_plain (checkEntry_within env now v b.entry hp)

/-- **C122** Whatever bundle is given to `verify_artifact`, the expensive operations are few (indexes and sizes are 64-bit fields). -/
theorem C122_artifact_bounded (env : Env) (now : Time) (v : Verifier) (input : HashInput) (b : Bundle) (policy : Cert → Py Unit)
    (hp : ∀ p, b.entry.proof = some p → p.logIndex < 2 ^ 64 ∧ p.treeSize < 2 ^ 64) :
    WorkBound v.root (Work.verifyArtifact env now v input b policy).2 := by
  have h : Bounded4 (Work.verifyArtifact env now v input b policy).2 (32 * v.root.timestampAuthorities.length + 0) (33 + 0)
      (v.root.ctlogs.length + 2 * v.root.tlogs.length + 1) (66 + 0) := by
    unfold Work.verifyArtifact
    refine bounded4_andThen (verifyCommon_within env now v b policy hp) fun _ _ => ?_
    unfold Work.checkArtifact
    dsimp only
    split
    · exact bounded4_nil ..
    · split
      · exact bounded4_nil ..
      · refine bounded4_then_plain ?_
        unfold prehashedCalls
        (repeat' split) <;> exact ⟨Nat.le_of_ble_eq_true rfl, Nat.le_of_ble_eq_true rfl, Nat.le_of_ble_eq_true rfl,
          Nat.le_of_ble_eq_true rfl⟩
  exact ⟨h.1, h.2.1, h.2.2.1, h.2.2.2⟩

/-- **C122** The same for `verify_dsse`. -/
theorem C122_dsse_bounded (env : Env) (now : Time) (v : Verifier) (b : Bundle) (policy : Cert → Py Unit)
    (hp : ∀ p, b.entry.proof = some p → p.logIndex < 2 ^ 64 ∧ p.treeSize < 2 ^ 64) :
    WorkBound v.root (Work.verifyDsse env now v b policy).2 := by
  have h : Bounded4 (Work.verifyDsse env now v b policy).2 (32 * v.root.timestampAuthorities.length + 0) (33 + 0)
      (v.root.ctlogs.length + 2 * v.root.tlogs.length + 1) (66 + 0) := by
    unfold Work.verifyDsse
    refine bounded4_andThen (verifyCommon_within env now v b policy hp) fun _ _ => ?_
    unfold Work.checkDsse
    split
    · exact bounded4_nil ..
    · refine bounded4_plain fun _ _ => ?_
      refine bounded4_mono (bounded4_andThen (t := 0) (c := 0) (s := 1) (h := 0) (t' := 0) (c' := 0) (s' := 0) (h' := 0) ?_ fun _ _ => ?_)
        (by omega) (by omega) (by omega) (by omega)
      · unfold Work.dsseVerify
        split
        · dsimp only
          unfold ecCalls
          split <;> exact ⟨Nat.le_of_ble_eq_true rfl, Nat.le_of_ble_eq_true rfl, Nat.le_of_ble_eq_true rfl,
            Nat.le_of_ble_eq_true rfl⟩
        · exact bounded4_nil ..
      · exact bounded4_plain fun _ _ => bounded4_nil ..
  exact ⟨h.1, h.2.1, h.2.2.1, h.2.2.2⟩

/-- the hashes of the trace of a successful check of the log entry -/
theorem hashes_andThen {α β : Type} {x : Traced α} {f : α → Traced β} {a : α} (hx : x.1 = .ok a) :
    ((andThen x f).2.map Call.kind).count .hash = (x.2.map Call.kind).count .hash + ((f a).2.map Call.kind).count .hash := by
  obtain ⟨r, l⟩ := x
  cases hx
  dsimp only [andThen]
  rw [List.map_append, List.count_append]

theorem no_hash {l : List Call} {t c s : Nat} (h : Bounded4 l t c s 0) : (l.map Call.kind).count .hash = 0 := Nat.le_zero.1 h.2.2.2

theorem ok_of_andThen {α β : Type} {x : Traced α} {f : α → Traced β} {r : β} (h : (andThen x f).1 = .ok r) :
    ∃ a, x.1 = .ok a ∧ (f a).1 = .ok r := by
  obtain ⟨y, l⟩ := x
  cases y with
  | error e => cases h
  | ok a => exact ⟨a, rfl, h⟩

theorem ok_of_rewrap {α : Type} {x : Traced α} {r : α} (h : (rewrap x).1 = .ok r) : x.1 = .ok r := by
  obtain ⟨y, l⟩ := x
  cases y with
  | error e => unfold rewrap at h; dsimp only at h; split at h <;> cases h
  | ok a => exact h

theorem checkEntry_hashes {env : Env} {now : Time} {v : Verifier} {e : LogEntry} (h : (Work.checkEntry env now v e).1 = .ok ()) :
    ∃ p, e.proof = some p ∧ ((Work.checkEntry env now v e).2.map Call.kind).count .hash = 1 + p.hashes.length := by
  unfold Work.checkEntry at h ⊢
  rw [rewrap_snd]
  obtain ⟨kr, hkr, h⟩ := ok_of_andThen (ok_of_rewrap h)
  rw [hashes_andThen hkr]
  unfold verifyEntry at h ⊢
  cases hp : e.proof with
  | none => rw [hp] at h; cases h
  | some p =>
    rw [hp] at h
    dsimp only at h ⊢
    refine ⟨p, rfl, ?_⟩
    obtain ⟨_, hm, h⟩ := ok_of_andThen h
    rw [hashes_andThen hm]
    obtain ⟨_, hc, h⟩ := ok_of_andThen h
    rw [hashes_andThen hc, no_hash (verifyCheckpoint_within env.pyInt env.crypto kr e.logId p)]
    have hset : ((if e.hasUsableSet then Work.verifySet env.crypto kr e else plain (.ok ())).2.map Call.kind).count .hash = 0 := by
      split
      · exact no_hash (verifySet_within env.crypto kr e)
      · rfl
    rw [hset]
    have hpl : ((plain (rekorKeyring env.crypto now v.root .verify)).2.map Call.kind).count .hash = 0 := rfl
    rw [hpl]
    unfold Work.verifyMerkleInclusion at hm ⊢
    dsimp only at hm ⊢
    split at hm
    · cases hm
    · rename_i hl
      rw [if_neg hl]
      dsimp only
      rw [chainInnerFrom_trace, chainBorderRight_trace]
      simp only [List.map_cons, List.map_append, List.map_replicate, Call.kind, List.count_cons, List.count_append,
        List.count_replicate, List.length_take, List.length_drop, beq_self_eq_true, if_true]
      omega

theorem verifyCommon_hashes {env : Env} {now : Time} {v : Verifier} {b : Bundle} {policy : Cert → Py Unit}
    (h : (Work.verifyCommon env now v b policy).1 = .ok ()) :
    ∃ p, b.entry.proof = some p ∧ ((Work.verifyCommon env now v b policy).2.map Call.kind).count .hash = 1 + p.hashes.length := by
  unfold Work.verifyCommon at h ⊢
  obtain ⟨times, ht, h⟩ := ok_of_andThen h
  rw [hashes_andThen ht, no_hash (establishTime_within env now v b).1]
  split at h
  · cases h
  · rename_i hn
    rw [if_neg hn]
    obtain ⟨chain, hc, h⟩ := ok_of_andThen h
    rw [hashes_andThen hc, no_hash (verifyChains_within env _ _ times [])]
    obtain ⟨_, hs, h⟩ := ok_of_andThen h
    rw [hashes_andThen hs, no_hash (checkSct_within env now v b.cert chain)]
    obtain ⟨_, hu, h⟩ := ok_of_andThen h
    rw [hashes_andThen hu]
    obtain ⟨_, hp, h⟩ := ok_of_andThen h
    rw [hashes_andThen hp]
    obtain ⟨_, he, h⟩ := ok_of_andThen h
    rw [hashes_andThen he]
    obtain ⟨p, hpr, hh⟩ := checkEntry_hashes he
    refine ⟨p, hpr, ?_⟩
    rw [hh]
    simp only [plain, List.map_nil, List.count_nil]
    omega

/-- **C122** The bound on hashes is what accepting a proof takes: all hashes of the proof and the leaf are hashed. -/
theorem C122_hashes_exact (env : Env) (now : Time) (v : Verifier) (input : HashInput) (b : Bundle) (policy : Cert → Py Unit)
    (h : Sigstore.verifyArtifact env now v input b policy = .ok ()) :
    ∃ p, b.entry.proof = some p ∧
      ((Work.verifyArtifact env now v input b policy).2.map Call.kind).count .hash = 1 + p.hashes.length := by
  rw [← C122_artifact_result] at h
  unfold Work.verifyArtifact at h ⊢
  obtain ⟨_, hc, h⟩ := ok_of_andThen h
  rw [hashes_andThen hc]
  obtain ⟨p, hp, hh⟩ := verifyCommon_hashes hc
  refine ⟨p, hp, ?_⟩
  rw [hh]
  have : ((Work.checkArtifact env b input).2.map Call.kind).count .hash = 0 := by
    unfold Work.checkArtifact
    dsimp only
    split
    · rfl
    · split
      · rfl
      · refine no_hash (t := 0) (c := 0) (s := 1) (bounded4_then_plain ?_)
        unfold prehashedCalls
        (repeat' split) <;> exact ⟨Nat.le_of_ble_eq_true rfl, Nat.le_of_ble_eq_true rfl, Nat.le_of_ble_eq_true rfl,
          Nat.le_of_ble_eq_true rfl⟩
  omega

end Sigstore.Props
