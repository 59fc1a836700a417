import Verif.Spec.Cosigned
import Verif.Props.Evidence

/-!
# C132: signatures of others on a checkpoint
-/

namespace Sigstore.Props

open Sigstore.Trust Sigstore.LogEntry Sigstore.Checkpoint Sigstore.Spec

/-- only the signatures with the hint of the log count -/
theorem verifySigs_ofLog (c : Crypto) (kr : Keyring) (id note : Bytes) : ∀ sigs : List NoteSig,
    verifySigs c kr id note (sigs.map fun s => ⟨s.name, s.hint, b64Encode s.sig⟩) =
      verifySigs c kr id note ((ofLog id sigs).map fun s => ⟨s.name, s.hint, b64Encode s.sig⟩)
  | [] => rfl
  | s :: sigs => by
    unfold ofLog
    by_cases h : s.hint = id.take 4
    · rw [List.filter_cons_of_pos (by simpa using h), List.map_cons, List.map_cons, verifySigs, verifySigs, if_pos h, if_pos h]
    · rw [List.filter_cons_of_neg (by simpa using h), List.map_cons, verifySigs, if_neg h]
      exact verifySigs_ofLog c kr id note sigs

/-- a checkpoint and the signatures of the log on it determine the check -/
theorem checkpoint_cosigned (pyInt : Str → Option Int) (c : Crypto) (kr : Keyring) (logId : Bytes)
    (proof : Merkle.InclusionProof) (ck : Spec.Checkpoint) (sigs sigs' : List NoteSig) (hck : ck.WF)
    (hsigs : ∀ s ∈ sigs, s.WF) (hne : sigs ≠ []) (hsigs' : ∀ s ∈ sigs', s.WF) (hne' : sigs' ≠ [])
    (hint : pyInt (decimal ck.size) = some (ck.size : Int)) (hsame : ofLog logId sigs = ofLog logId sigs') :
    verifyCheckpoint pyInt c kr logId { proof with checkpoint := some (envelopeText ck sigs') } =
      verifyCheckpoint pyInt c kr logId { proof with checkpoint := some (envelopeText ck sigs) } := by
  unfold verifyCheckpoint
  dsimp only
  rw [C07_roundtrip pyInt ck _ hck hsigs hne hint, C07_roundtrip pyInt ck _ hck hsigs' hne' hint]
  dsimp only
  rw [SignedNote.verify, SignedNote.verify]
  dsimp only
  rw [verifySigs_ofLog c kr logId _ sigs, verifySigs_ofLog c kr logId _ sigs', hsame]

theorem cosigned_entry {e : LogEntry} {proof : Merkle.InclusionProof} (hp : e.proof = some proof) {ck : Spec.Checkpoint}
    {sigs sigs' : List NoteSig} (hc : proof.checkpoint = some (envelopeText ck sigs)) (hck : ck.WF)
    (hsigs : ∀ s ∈ sigs, s.WF) (hne : sigs ≠ []) (hsigs' : ∀ s ∈ sigs', s.WF) (hne' : sigs' ≠ [])
    {pyInt : Str → Option Int} (hint : pyInt (decimal ck.size) = some (ck.size : Int))
    (hsame : ofLog e.logId sigs = ofLog e.logId sigs') (c : Crypto) (kr : Keyring) :
    (withCheckpoint e (envelopeText ck sigs')).verify pyInt c kr = e.verify pyInt c kr := by
  have hproof : proof = { proof with checkpoint := some (envelopeText ck sigs) } := by rw [← hc]
  unfold LogEntry.verify
  rw [hp, show (withCheckpoint e (envelopeText ck sigs')).proof =
    some { proof with checkpoint := some (envelopeText ck sigs') } by unfold withCheckpoint; rw [hp]; rfl]
  dsimp only
  rw [show (withCheckpoint e (envelopeText ck sigs')).logId = e.logId from rfl,
    checkpoint_cosigned pyInt c kr e.logId proof ck sigs sigs' hck hsigs hne hsigs' hne' hint hsame, ← hproof]
  rfl

/-- a bundle with another checkpoint is a bundle -/
theorem cosigned_init {env : Env} {m : BundleMsg} {b : Bundle} (hb : Bundle.init env m = .ok b) (text : Str) :
    Bundle.init env (cosigned m text) = .ok ⟨cosigned m text, b.cert, withCheckpoint b.entry text⟩ := by
  obtain ⟨hm, he⟩ := init_entry hb
  have hc : cosigned m text = { m with tlogEntries := [withCheckpoint b.entry text] } := by
    unfold cosigned
    rw [he]
    rfl
  rw [hc]
  unfold Bundle.init at hb ⊢
  dsimp only
  split at hb
  · cases hb
  · next t ht =>
    rw [show extractLeaf env t { m with tlogEntries := [withCheckpoint b.entry text] } = extractLeaf env t m from rfl]
    split at hb
    · cases hb
    · next cert hl =>
      have : extractEntry env t { m with tlogEntries := [withCheckpoint b.entry text] } =
          .ok (withCheckpoint b.entry text) := by
        split at hb
        · cases hb
        · next entry hx =>
          cases hb
          unfold extractEntry at hx ⊢
          rw [he] at hx
          dsimp only at hx ⊢
          rw [show (withCheckpoint entry text).version = entry.version from rfl,
            show (withCheckpoint entry text).promise = entry.promise from rfl,
            show timestampData env { m with tlogEntries := [withCheckpoint entry text] } = timestampData env m from rfl]
          split at hx
          · cases hx
          · next h1 =>
            rw [if_neg h1]
            split at hx
            · cases hx
            · next h2 =>
              have hv : (withCheckpoint entry text).validate = .ok () := by
                unfold LogEntry.validate at h2 ⊢
                split at h2
                · cases h2
                · next p hp => unfold withCheckpoint; rw [hp]; rfl
              rw [hv]
              dsimp only
              split at hx
              · next h3 =>
                rw [if_pos h3]
                split at hx
                · cases hx
                · next h4 => rw [if_neg h4]
              · next h3 =>
                rw [if_neg h3]
                split at hx
                · next h4 =>
                  rw [if_pos h4]
                  split at hx
                  · cases hx
                  · cases hx
                  · rfl
                · next h4 => rw [if_neg h4]
      rw [this]
      split at hb
      · cases hb
      · cases hb; rfl

/-- **C132** Further signatures on the checkpoint of a bundle, such as those of witnesses, change no verdict and no exception,
wherever they stand: if two lists of signatures on the same checkpoint have the same signatures with the key hint of the log,
then the bundle with either is accepted alike, fails alike, and yields the same payload.  Missing compared with the property:
signatures of others that have the key hint of the log, see `C132_same_hint`. -/
theorem C132_cosignatures_partial (env : Env) (m : BundleMsg) (b : Bundle) (hb : Bundle.init env m = .ok b)
    (proof : Merkle.InclusionProof) (hp : b.entry.proof = some proof) (ck : Spec.Checkpoint) (sigs sigs' : List NoteSig)
    (hc : proof.checkpoint = some (envelopeText ck sigs)) (hck : ck.WF) (hsigs : ∀ s ∈ sigs, s.WF) (hne : sigs ≠ [])
    (hsigs' : ∀ s ∈ sigs', s.WF) (hne' : sigs' ≠ []) (hint : env.pyInt (decimal ck.size) = some (ck.size : Int))
    (hsame : ofLog b.entry.logId sigs = ofLog b.entry.logId sigs') :
    ∃ b', Bundle.init env (cosigned m (envelopeText ck sigs')) = .ok b' ∧ ∀ now v input policy,
      verifyArtifact env now v input b' policy = verifyArtifact env now v input b policy ∧
      verifyDsse env now v b' policy = verifyDsse env now v b policy := by
  refine ⟨_, cosigned_init hb _, fun now v input policy => ?_⟩
  obtain ⟨rfl, he⟩ := init_entry hb
  have hcommon : verifyCommon env now v ⟨cosigned b.inner (envelopeText ck sigs'), b.cert,
      withCheckpoint b.entry (envelopeText ck sigs')⟩ policy = verifyCommon env now v b policy := by
    have h3 : checkEntry env now v (withCheckpoint b.entry (envelopeText ck sigs')) = checkEntry env now v b.entry := by
      unfold checkEntry
      simp only [cosigned_entry hp hc hck hsigs hne hsigs' hne' hint hsame]
    unfold verifyCommon
    rw [h3]
    rfl
  constructor
  · unfold verifyArtifact
    rw [hcommon]
    rfl
  · unfold verifyDsse
    rw [hcommon]
    rfl

/-- **C132** (refuted in general) A signature before that of the log which has the log's key hint, four bytes, but not its name
or its key, makes every bundle unverifiable: the log's own signature is never looked at. -/
theorem C132_same_hint (env : Env) (m : BundleMsg) (b : Bundle) (hb : Bundle.init env m = .ok b)
    (proof : Merkle.InclusionProof) (hp : b.entry.proof = some proof) (ck : Spec.Checkpoint) (sigs : List NoteSig) (s : NoteSig)
    (hck : ck.WF) (hsigs : ∀ s ∈ sigs, s.WF) (hs : s.WF) (hint : env.pyInt (decimal ck.size) = some (ck.size : Int))
    (hhint : s.hint = b.entry.logId.take 4) (now : Time) (v : Verifier)
    (hforeign : ∀ k ∈ v.root.tlogs, ∀ key scheme, Denotes env.crypto k key scheme →
      ¬Accepts env.crypto key scheme (utf8 ck.noteText) s.sig) :
    ∃ b', Bundle.init env (cosigned m (envelopeText ck (s :: sigs))) = .ok b' ∧ ∀ input policy,
      verifyArtifact env now v input b' policy ≠ .ok () ∧ ∀ r, verifyDsse env now v b' policy ≠ .ok r := by
  refine ⟨_, cosigned_init hb _, fun input policy => ?_⟩
  have hno : verifyCommon env now v ⟨cosigned m (envelopeText ck (s :: sigs)), b.cert,
      withCheckpoint b.entry (envelopeText ck (s :: sigs))⟩ policy ≠ .ok () := by
    intro h
    obtain ⟨_, _, _, _, _, _, _, ⟨_, p, kr, h1, _, h2, h3, _⟩, _⟩ := (verifyCommon_steps _ _ _ _ _).1 h
    have h1 : some { proof with checkpoint := some (envelopeText ck (s :: sigs)) } = some p := by
      rw [← h1]
      unfold withCheckpoint
      rw [hp]
      rfl
    have h4 := ((C07_honest_checkpoint_iff env.pyInt env.crypto kr b.entry.logId p ck [] sigs s hck
      (by simpa using ⟨hs, hsigs⟩) hint (by rw [← Option.some.inj h1]; rfl) (by simp) hhint).1 h3).1
    obtain ⟨k, hk, key, scheme, h5, h6⟩ := C10_sound _ _ _ h2 _ _ _ h4
    exact hforeign k (List.mem_filter.1 hk).1 key scheme h5 h6
  constructor
  · intro h
    unfold verifyArtifact at h
    split at h
    · cases h
    · exact hno (by assumption)
  · intro r h
    unfold verifyDsse at h
    split at h
    · cases h
    · exact hno (by assumption)

/-! ## Concrete cases -/

/-- the signature of the log in `exEnv1` -/
def exLogSig : NoteSig := ⟨"o".toList, [4, 20, 0, 0], [4, 20, 0, 0] ++ utf8 exCk1.noteText⟩

/-- a witness -/
def exWitness : NoteSig := ⟨"witness".toList, [9, 9, 9, 9], [1]⟩

/-- another one, with the key hint of the log -/
def exDouble : NoteSig := ⟨"witness".toList, [4, 20, 0, 0], [1]⟩

theorem exBundle_init : Bundle.init exVEnv exBundle.inner = .ok exBundle := by decide +kernel

theorem exCk1_wf : exCk1.WF := ⟨by decide, by decide, by decide, by decide, by decide, by decide, by decide⟩

theorem exLogSig_wf : exLogSig.WF := ⟨by decide, by decide, by decide, by decide⟩

/-- the bundle is accepted with the signatures of a witness before and after that of the log -/
example : ∃ b, Bundle.init exVEnv (cosigned exBundle.inner (envelopeText exCk1 [exWitness, exLogSig, exWitness])) = .ok b ∧
    verifyArtifact exVEnv 3000000000 exVerifier (.bytes exArtifact) b (fun _ => .ok ()) = .ok () := by
  have hw : exWitness.WF := ⟨by decide, by decide, by decide, by decide⟩
  obtain ⟨b, h1, h2⟩ := C132_cosignatures_partial exVEnv exBundle.inner exBundle exBundle_init _ rfl exCk1 [exLogSig]
    [exWitness, exLogSig, exWitness] rfl exCk1_wf (by simpa using exLogSig_wf) (by simp)
    (by simpa using ⟨hw, exLogSig_wf, hw⟩) (by simp) (by decide) rfl
  exact ⟨b, h1, ((h2 3000000000 exVerifier (.bytes exArtifact) (fun _ => .ok ())).1).trans (by decide +kernel)⟩

/-- and rejected with a signature that has the key hint of the log before that of the log -/
example : ∃ b, Bundle.init exVEnv (cosigned exBundle.inner (envelopeText exCk1 [exDouble, exLogSig])) = .ok b ∧
    ∀ input policy, verifyArtifact exVEnv 3000000000 exVerifier input b policy ≠ .ok () := by
  obtain ⟨b, h1, h2⟩ := C132_same_hint exVEnv exBundle.inner exBundle exBundle_init _ rfl exCk1 [exLogSig] exDouble exCk1_wf
    (by simpa using exLogSig_wf) ⟨by decide, by decide, by decide, by decide⟩ (by decide) rfl 3000000000 exVerifier (by
      intro k hk key scheme hd ha
      obtain rfl : k = ⟨some [4, 20, 0, 0], .pkixEd25519, some ⟨0, none⟩⟩ := by simpa [exVerifier, exRoot] using hk
      obtain ⟨raw, h1, _, h2, h3, _⟩ := hd
      obtain rfl := Option.some.inj h1
      cases h3
      obtain rfl := Option.some.inj h2
      revert ha
      show ¬ (_ = true)
      decide +kernel)
  exact ⟨b, h1, fun input policy => (h2 input policy).1⟩

end Sigstore.Props
