import Verif.Props.Trust
import Verif.Lemmas.Checkpoint

/-!
# C05, C06, C07: signed checkpoints
-/

namespace Sigstore.Props

open Sigstore.Trust Sigstore.Spec Sigstore.Checkpoint

/-- `int()` on plain ASCII digits, used only in examples -/
def asciiInt (s : Str) : Option Int :=
  if s ≠ [] ∧ s.all isDecDigit then some (decimalVal s) else none

/-- **C05** If the checkpoint check succeeds, the envelope is a note text followed by a blank line and
a signature block; the third line of the stripped note text decodes to the proof's root hash; and the
signature block contains a signature line whose bytes are the first four bytes of the log id followed
by a signature of the exact note text that a trusted key accepts. -/
theorem C05_checkpoint_sound (pyInt : Str → Option Int) (c : Crypto) (ms : List PublicKeyMsg) (kr : Keyring)
    (hkr : Keyring.init c ms = .ok kr) (logId : Bytes) (proof : Merkle.InclusionProof)
    (h : verifyCheckpoint pyInt c kr logId proof = .ok ()) :
    ∃ env note data, proof.checkpoint = some env ∧ env = note ++ '\n' :: data ∧
      note.getLast? = some '\n' ∧ ¬ ['\n', '\n'] <:+: note ∧
      (∃ origin size root rest, splitLines (strip note) = origin :: size :: root :: rest ∧
        b64Decode root = .ok proof.rootHash) ∧
      (∃ name b64 sig, (Char.ofNat 0x2014 :: ' ' :: (name ++ ' ' :: (b64 ++ ['\n']))) <:+: data ∧
        b64Decode b64 = .ok (logId.take 4 ++ sig) ∧
        kr.verify c logId sig (utf8 note) = .ok () ∧
        ∃ m ∈ ms, ∃ key s, Denotes c m key s ∧ Accepts c key s (utf8 note) sig) := by
  unfold verifyCheckpoint at h
  split at h
  · simp at h
  · rename_i env henv
    split at h
    · simp at h
    · rename_i sc hsc
      split at h
      · simp at h
      · rename_i hv
        split at h
        · simp at h
        · rename_i hroot
          have hroot : sc.checkpoint.logHash = hexEncode proof.rootHash := by
            cases Decidable.em (sc.checkpoint.logHash = hexEncode proof.rootHash) with
            | inl h => exact h
            | inr h => exact absurd h hroot
          unfold SignedCheckpoint.fromText at hsc
          split at hsc
          · simp at hsc
          · rename_i n hn
            split at hsc
            · simp at hsc
            · rename_i ck hck
              have := Except.ok.inj hsc
              subst this
              obtain ⟨data, e1, e2, e3, e4, e5⟩ := signedNote_ok hn
              obtain ⟨size, root, bs, f1, f2, f3, f4, f5⟩ := logCheckpoint_ok hck
              refine ⟨env, n.note, data, henv, e1, e2, e3, ⟨_, size, root, _, f1, ?_⟩, ?_⟩
              · dsimp only at hroot
                rw [f4] at hroot
                rw [f3, hexEncode_injective hroot]
              · obtain ⟨s, hs, hhint, sig, hsig, hok⟩ := verifySigs_ok c kr logId _ _ hv
                obtain ⟨⟨name, b64⟩, hm, bs', hb, hlen, rfl⟩ := parseSignatures_mem _ _ e5 s hs
                obtain ⟨hinf, _⟩ := mem_findSigLines _ _ _ _ hm
                dsimp only at hhint hsig hb
                rw [b64Decode_b64Encode] at hsig
                have := Except.ok.inj hsig
                subst this
                refine ⟨name, b64, bs'.drop 4, hinf, ?_, hok, C10_sound c ms kr hkr _ _ _ hok⟩
                rw [hb, ← hhint, List.take_append_drop]

/-! ## C07 -/

/-- **C07** Everything a log can write in checkpoint format is read back unchanged. -/
theorem C07_roundtrip (pyInt : Str → Option Int) (ck : Spec.Checkpoint) (sigs : List NoteSig)
    (hck : ck.WF) (hsigs : ∀ s ∈ sigs, s.WF) (hne : sigs ≠ [])
    (hint : pyInt (decimal ck.size) = some (ck.size : Int)) :
    SignedCheckpoint.fromText pyInt (envelopeText ck sigs) = .ok
      { signedNote := { note := ck.noteText,
                        signatures := sigs.map fun s => ⟨s.name, s.hint, b64Encode s.sig⟩ },
        checkpoint := { origin := ck.origin, logSize := ck.size, logHash := hexEncode ck.root,
                        otherContent := ck.extra } } := by
  obtain ⟨h1, h2⟩ := sep_lines ck.lines (by simp [Checkpoint.lines]) (lines_ne ck hck) (lines_no_nl ck hck)
    (sigs.flatMap NoteSig.line)
  rw [countSep_sigLines sigs hsigs] at h1
  have hd : (sigs.flatMap NoteSig.line).length ≠ 0 := by
    obtain ⟨s, t, rfl⟩ := List.exists_cons_of_ne_nil hne
    simp [NoteSig.line]
  have hlast : (sigs.flatMap NoteSig.line).getLast? = some '\n' := by
    have key : ∀ (l : List NoteSig), l ≠ [] → (l.flatMap NoteSig.line).getLast? = some '\n' := by
      intro l
      induction l with
      | nil => intro h; exact absurd rfl h
      | cons s l ih =>
        intro _
        rw [List.flatMap_cons, List.getLast?_append]
        cases l with
        | nil => simp [NoteSig.line, List.getLast?_append, List.getLast?_cons]
        | cons s' l => rw [ih (by simp)]; rfl
    exact key sigs hne
  have hfuel : sigs.length ≤ (sigs.flatMap NoteSig.line).length := by
    clear hd hlast h1 h2 hne hsigs
    induction sigs with
    | nil => simp
    | cons s l ih =>
      rw [List.flatMap_cons, List.length_append, List.length_cons]
      have : 0 < s.line.length := List.length_pos_iff.2 (line_ne_nil s)
      omega
  have hnote : SignedNote.fromText (envelopeText ck sigs) = .ok
      { note := ck.noteText, signatures := sigs.map fun s => ⟨s.name, s.hint, b64Encode s.sig⟩ } := by
    unfold SignedNote.fromText envelopeText Checkpoint.noteText
    rw [h1, if_neg (by simp), h2]
    dsimp only
    rw [if_neg hd, if_neg (by rw [hlast]; simp), findSigLines_lines sigs hsigs _ hfuel,
      parseSignatures_lines sigs hsigs]
  unfold SignedCheckpoint.fromText
  rw [hnote]
  dsimp only
  have hlog : LogCheckpoint.fromText pyInt ck.noteText = .ok
      { origin := ck.origin, logSize := ck.size, logHash := hexEncode ck.root, otherContent := ck.extra } := by
    unfold LogCheckpoint.fromText
    rw [noteText_strip ck hck]
    simp only [Checkpoint.lines, hint, b64Decode_b64Encode]
    rw [if_neg]
    intro h0
    exact hck.origin_ne (List.length_eq_zero_iff.1 h0)
  rw [hlog]

theorem verifySigs_skip (c : Crypto) (kr : Keyring) (id note : Bytes) (s : NoteSig) (post : List NoteSig)
    (hs : s.hint = id.take 4) : ∀ (pre : List NoteSig), (∀ x ∈ pre, x.hint ≠ id.take 4) →
    verifySigs c kr id note ((pre ++ s :: post).map fun s => ⟨s.name, s.hint, b64Encode s.sig⟩) =
      match kr.verify c id s.sig note with
      | .ok () => .ok ()
      | .error e => if e.isVerificationError then .error .verification else .error e := by
  intro pre
  induction pre with
  | nil =>
    intro _
    rw [List.nil_append, List.map_cons, verifySigs, if_pos hs]
    dsimp only
    rw [b64Decode_b64Encode]
    rfl
  | cons x pre ih =>
    intro h
    rw [List.cons_append, List.map_cons, verifySigs, if_neg (h x (by simp)),
      ih (fun y hy => h y (by simp [hy]))]

/-- **C07** The check on a well-formed checkpoint is decided by the first signature with the log's key
hint and by the root hash. -/
theorem C07_honest_checkpoint_iff (pyInt : Str → Option Int) (c : Crypto) (kr : Keyring)
    (logId : Bytes) (proof : Merkle.InclusionProof) (ck : Spec.Checkpoint) (pre post : List NoteSig) (s : NoteSig)
    (hck : ck.WF) (hsigs : ∀ x ∈ pre ++ s :: post, x.WF)
    (hint : pyInt (decimal ck.size) = some (ck.size : Int))
    (henv : proof.checkpoint = some (envelopeText ck (pre ++ s :: post)))
    (hpre : ∀ x ∈ pre, x.hint ≠ logId.take 4) (hs : s.hint = logId.take 4) :
    verifyCheckpoint pyInt c kr logId proof = .ok () ↔
      kr.verify c logId s.sig (utf8 ck.noteText) = .ok () ∧ ck.root = proof.rootHash := by
  unfold verifyCheckpoint
  rw [henv]
  dsimp only
  rw [C07_roundtrip pyInt ck _ hck hsigs (by simp) hint]
  dsimp only
  rw [SignedNote.verify]
  dsimp only
  rw [verifySigs_skip c kr logId _ s post hs pre hpre]
  cases hv : kr.verify c logId s.sig (utf8 ck.noteText) with
  | error e =>
    dsimp only
    cases e.isVerificationError <;> simp
  | ok u =>
    cases u
    dsimp only
    by_cases hr : ck.root = proof.rootHash
    · simp [hr]
    · have : ¬ hexEncode ck.root = hexEncode proof.rootHash := fun h => hr (hexEncode_injective h)
      simp [hr, this]

/-- **C07** A well-formed checkpoint without a signature for the log's key hint is rejected. -/
theorem C07_no_hint_rejected (pyInt : Str → Option Int) (c : Crypto) (kr : Keyring)
    (logId : Bytes) (proof : Merkle.InclusionProof) (ck : Spec.Checkpoint) (sigs : List NoteSig)
    (hck : ck.WF) (hsigs : ∀ x ∈ sigs, x.WF) (hne : sigs ≠ [])
    (hint : pyInt (decimal ck.size) = some (ck.size : Int))
    (henv : proof.checkpoint = some (envelopeText ck sigs))
    (hno : ∀ x ∈ sigs, x.hint ≠ logId.take 4) :
    verifyCheckpoint pyInt c kr logId proof = .error .verification := by
  have hv : ∀ l : List NoteSig, (∀ x ∈ l, x.hint ≠ logId.take 4) → ∀ note,
      verifySigs c kr logId note (l.map fun s => ⟨s.name, s.hint, b64Encode s.sig⟩) = .error .verification := by
    intro l
    induction l with
    | nil => intro _ note; rfl
    | cons x l ih =>
      intro h note
      rw [List.map_cons, verifySigs, if_neg (h x (by simp)), ih (fun y hy => h y (by simp [hy]))]
  unfold verifyCheckpoint
  rw [henv]
  dsimp only
  rw [C07_roundtrip pyInt ck _ hck hsigs hne hint]
  dsimp only
  rw [SignedNote.verify]
  dsimp only
  rw [hv sigs hno]

section Examples

/-- a checkpoint with an extra line -/
def exCheckpoint : Spec.Checkpoint :=
  { origin := "log.example - 1".toList, size := 3, root := [1, 2, 3], extra := ["x y".toList] }

example : exCheckpoint.WF where
  origin_ne := by decide
  origin_start := by decide
  origin_line := by decide
  root_ne := by decide
  extra_ne := by decide
  extra_line := by decide
  end_ok := by decide

/-- a signature with a four-byte hint -/
def exSig : NoteSig := ⟨"log.example".toList, [2, 20, 0, 0], [2, 20, 0, 0] ++ utf8 exCheckpoint.noteText⟩

example : exSig.WF where
  name_ne := by decide
  name_chars := by decide
  hint_len := by decide
  sig_ne := by decide

/-- a keyring with one Ed25519-style toy key whose id is `[4, 20, 0, 0]` -/
def exKeyring : Keyring := [([4, 20, 0, 0], ⟨none, ⟨.ed25519, [4, 20, 0, 0]⟩, [4, 20, 0, 0]⟩)]

example : Keyring.init toyCrypto [⟨some [4, 20, 0, 0], .pkixEd25519, none⟩] = .ok exKeyring := by decide

/-- the complete check succeeds on a concrete envelope (hypothesis of C05) -/
example : verifyCheckpoint asciiInt toyCrypto exKeyring [4, 20, 0, 0]
    { logIndex := 0, rootHash := [1, 2, 3], treeSize := 3, hashes := [],
      checkpoint := some (envelopeText exCheckpoint
        [⟨"log".toList, [4, 20, 0, 0], [4, 20, 0, 0] ++ utf8 exCheckpoint.noteText⟩]) } = .ok () := by
  rw [C07_honest_checkpoint_iff asciiInt toyCrypto exKeyring [4, 20, 0, 0] _ exCheckpoint [] []
    ⟨"log".toList, [4, 20, 0, 0], [4, 20, 0, 0] ++ utf8 exCheckpoint.noteText⟩
    ⟨by decide, by decide, by decide, by decide, by decide, by decide, by decide⟩
    (by intro x hx
        rw [List.nil_append, List.mem_singleton] at hx
        subst hx; exact ⟨by decide, by decide, by decide, by decide⟩)
    (by decide) rfl (by simp) (by decide)]
  exact ⟨by decide, rfl⟩

end Examples

/-! ## C06 -/

/-- **C06** (refuted) A checkpoint whose signature is not base64 makes the check raise
`binascii.Error`, and a non-ASCII root hash line makes it raise `ValueError`. -/
theorem C06_malformed_leaks_other_errors :
    ¬ ∀ (pyInt : Str → Option Int) (c : Crypto) (kr : Keyring) (logId : Bytes) (proof : Merkle.InclusionProof),
      (verifyCheckpoint pyInt c kr logId proof).Clean := by
  intro h
  have := h asciiInt toyCrypto exKeyring [4, 20, 0, 0]
    { logIndex := 0, rootHash := [1, 2, 3], treeSize := 3, hashes := [],
      checkpoint := some "o\n1\nAQID\n\n— n x\n".toList } .binasciiError (by decide)
  revert this; decide

/-- the second leak -/
theorem C06_non_ascii_root_leaks :
    verifyCheckpoint asciiInt toyCrypto exKeyring [4, 20, 0, 0]
      { logIndex := 0, rootHash := [1, 2, 3], treeSize := 3, hashes := [],
        checkpoint := some "o\n1\n—\n\n— n AQIDBAU=\n".toList } = .error .valueError := by decide

theorem b64Decode_error {s : Str} {e : Exc} (h : b64Decode s = .error e) :
    (e = .valueError ∧ ∃ c ∈ s, ¬ c.toNat < 128) ∨ e = .binasciiError := by
  unfold b64Decode at h
  split at h
  · rename_i hall
    left
    refine ⟨by simpa using h.symm, ?_⟩
    simpa using hall
  · split at h
    · simp at h
    · right; simpa using h.symm

theorem parseSignatures_error : ∀ (ms : List (Str × Str)) (e : Exc), parseSignatures ms = .error e →
    e = .verification ∨ ∃ m ∈ ms, b64Decode m.2 = .error e := by
  intro ms
  induction ms with
  | nil => intro e h; simp [parseSignatures] at h
  | cons m ms ih =>
    intro e h
    rw [parseSignatures] at h
    cases hp : parseSignature m with
    | error e' =>
      rw [hp] at h
      have := Except.error.inj h
      subst this
      unfold parseSignature at hp
      cases hb : b64Decode m.2 with
      | error e'' =>
        rw [hb] at hp
        have := Except.error.inj hp
        subst this
        exact .inr ⟨m, by simp, hb⟩
      | ok bs =>
        rw [hb] at hp
        dsimp only at hp
        split at hp
        · left; simpa using hp.symm
        · simp at hp
    | ok s =>
      rw [hp] at h
      dsimp only at h
      cases hps : parseSignatures ms with
      | ok ss => rw [hps] at h; simp at h
      | error e' =>
        rw [hps] at h
        have := Except.error.inj h
        subst this
        rcases ih _ hps with h | ⟨m', hm', h⟩
        · exact .inl h
        · exact .inr ⟨m', by simp [hm'], h⟩

theorem splitSep_of_count : ∀ t, countSep t ≠ 0 → ∃ p, splitSep t = some p := by
  intro t
  induction t with
  | nil => intro h; exact absurd rfl h
  | cons c t ih =>
    cases t with
    | nil => intro h; exact absurd rfl h
    | cons d t =>
      intro h
      rw [splitSep]
      split
      · exact ⟨_, rfl⟩
      · rename_i hc
        rw [countSep, if_neg hc] at h
        obtain ⟨p, hp⟩ := ih h
        exact ⟨_, by rw [hp]; rfl⟩

/-- `note` and `data` are the parts of a text before and after its first blank line -/
def SplitsAt (text note data : Str) : Prop :=
  text = note ++ '\n' :: data ∧ note.getLast? = some '\n' ∧ ¬ ['\n', '\n'] <:+: note

/-- a text contains a signature line with this name and this encoded signature -/
def SigLineIn (data name b64 : Str) : Prop :=
  (Char.ofNat 0x2014 :: ' ' :: (name ++ ' ' :: (b64 ++ ['\n']))) <:+: data ∧
  (∀ c ∈ name, isPySpace c = false) ∧ (∀ c ∈ b64, isPySpace c = false)

/-- **C06** (what does hold, 1) Whatever the text, the only failures besides `VerificationError` are
those of base64 decoding: a signature line of the envelope that does not decode, or a root hash line
with a non-ASCII character. -/
theorem C06_failures_classified_partial (pyInt : Str → Option Int) (c : Crypto) (ms : List PublicKeyMsg)
    (kr : Keyring) (hkr : Keyring.init c ms = .ok kr) (logId : Bytes) (proof : Merkle.InclusionProof)
    (e : Exc) (h : verifyCheckpoint pyInt c kr logId proof = .error e) :
    e = .verification ∨
    (∃ env note data, proof.checkpoint = some env ∧ SplitsAt env note data ∧
      ((∃ name b64, SigLineIn data name b64 ∧ b64Decode b64 = .error e) ∨
       (e = .valueError ∧ ∃ origin size root rest, splitLines (strip note) = origin :: size :: root :: rest ∧
          ∃ ch ∈ root, ¬ ch.toNat < 128))) := by
  unfold verifyCheckpoint at h
  split at h
  · left; simpa using h.symm
  · rename_i env henv
    split at h
    · rename_i e' hsc
      have := Except.error.inj h
      subst this
      unfold SignedCheckpoint.fromText at hsc
      split at hsc
      · rename_i e'' hn
        have := Except.error.inj hsc
        subst this
        unfold SignedNote.fromText at hn
        split at hn
        · left; simpa using hn.symm
        · rename_i hcount
          split at hn
          · rename_i hsp
            obtain ⟨p, hp⟩ := splitSep_of_count env (by omega)
            rw [hp] at hsp; simp at hsp
          · rename_i header data hs
            split at hn
            · left; simpa using hn.symm
            · split at hn
              · left; simpa using hn.symm
              · split at hn
                · rename_i e3 hps
                  have := Except.error.inj hn
                  subst this
                  rcases parseSignatures_error _ _ hps with h | ⟨⟨name, b64⟩, hm, hb⟩
                  · exact .inl h
                  · right
                    obtain ⟨i1, _, _, i4, i5⟩ := mem_findSigLines _ _ _ _ hm
                    exact ⟨env, header, data, henv, splitSep_some _ _ _ hs, .inl ⟨name, b64, ⟨i1, i4, i5⟩, hb⟩⟩
                · simp at hn
      · rename_i n hn
        obtain ⟨data, e1, e2, e3, _⟩ := signedNote_ok hn
        split at hsc
        · rename_i e'' hck
          have := Except.error.inj hsc
          subst this
          unfold LogCheckpoint.fromText at hck
          split at hck
          · rename_i origin size root other hl
            split at hck
            · left; simpa using hck.symm
            · split at hck
              · left; simpa using hck.symm
              · split at hck
                · simp at hck
                · left; simpa using hck.symm
                · rename_i e3 hne hb
                  have := Except.error.inj hck
                  subst this
                  rcases b64Decode_error hb with ⟨rfl, hch⟩ | rfl
                  · right
                    exact ⟨env, n.note, data, henv, ⟨e1, e2, e3⟩, .inr ⟨rfl, origin, size, root, other, hl, hch⟩⟩
                  · exact absurd rfl hne
          · left; simpa using hck.symm
        · simp at hsc
    · rename_i sc hsc
      split at h
      · rename_i e' hv
        have := Except.error.inj h
        subst this
        left
        have hb : ∀ s ∈ sc.signedNote.signatures, ∃ bs, s.signature = b64Encode bs := by
          unfold SignedCheckpoint.fromText at hsc
          split at hsc
          · simp at hsc
          · rename_i n hn
            split at hsc
            · simp at hsc
            · have := Except.ok.inj hsc
              subst this
              obtain ⟨data, _, _, _, _, e5⟩ := signedNote_ok hn
              intro s hs
              obtain ⟨m, _, bs, _, _, rfl⟩ := parseSignatures_mem _ _ e5 s hs
              exact ⟨_, rfl⟩
        have key : ∀ ss : List RekorSignature, (∀ s ∈ ss, ∃ bs, s.signature = b64Encode bs) →
            ∀ note, verifySigs c kr logId note ss = .error e' → e' = .verification := by
          intro ss
          induction ss with
          | nil => intro _ note h; simpa [verifySigs] using h.symm
          | cons s ss ih =>
            intro hbs note h
            rw [verifySigs] at h
            split at h
            · obtain ⟨bs, hbs'⟩ := hbs s (by simp)
              rw [hbs', b64Decode_b64Encode] at h
              dsimp only at h
              split at h
              · simp at h
              · rename_i e4 hve
                have := C10_failure_is_verification_error c ms kr hkr _ _ _ e4 hve
                subst this
                simpa [Exc.isVerificationError] using h.symm
            · exact ih (fun x hx => hbs x (by simp [hx])) note h
        exact key _ hb _ hv
      · split at h
        · left; simpa using h.symm
        · simp at h

/-- **C06** (what does hold, 2) If every signature line after the blank line carries decodable base64 and no
line before it has non-ASCII characters, then every failure is a `VerificationError`.  Missing for
the full property: the two cases shown in `C06_malformed_leaks_other_errors` and
`C06_non_ascii_root_leaks`. -/
theorem C06_clean_partial (pyInt : Str → Option Int) (c : Crypto) (ms : List PublicKeyMsg)
    (kr : Keyring) (hkr : Keyring.init c ms = .ok kr) (logId : Bytes) (proof : Merkle.InclusionProof)
    (hsig : ∀ env note data, proof.checkpoint = some env → SplitsAt env note data → ∀ name b64,
      SigLineIn data name b64 → ∃ bs, b64Decode b64 = .ok bs)
    (hascii : ∀ env note data, proof.checkpoint = some env → SplitsAt env note data →
      ∀ l ∈ splitLines (strip note), ∀ ch ∈ l, ch.toNat < 128) :
    (verifyCheckpoint pyInt c kr logId proof).Clean := by
  intro e h
  rcases C06_failures_classified_partial pyInt c ms kr hkr logId proof e h with rfl | ⟨env, note, data, h1, h2, h3⟩
  · rfl
  · exfalso
    rcases h3 with ⟨name, b64, hi, hb⟩ | ⟨_, origin, size, root, rest, hl, ch, hch, hn⟩
    · obtain ⟨bs, hbs⟩ := hsig env note data h1 h2 name b64 hi
      rw [hb] at hbs; simp at hbs
    · exact hn (hascii env note data h1 h2 root (by rw [hl]; simp) ch hch)

/-- there is only one first blank line -/
theorem splitsAt_unique {text n d n' d' : Str} (h : SplitsAt text n d) (h' : SplitsAt text n' d') : n = n' ∧ d = d' := by
  obtain ⟨h1, h2, h3⟩ := h
  obtain ⟨h1', h2', h3'⟩ := h'
  have key : ∀ (a b x y : Str), a.getLast? = some '\n' → b.getLast? = some '\n' → ¬ ['\n', '\n'] <:+: b →
      a ++ '\n' :: x = b ++ '\n' :: y → ¬ a.length < b.length := by
    intro a b x y ha hb hn he hl
    obtain ⟨z, hz⟩ : ∃ z, b = a ++ z := by
      rcases List.append_eq_append_iff.1 he with ⟨z, hz, _⟩ | ⟨z, hz, _⟩
      · exact ⟨z, hz⟩
      · rw [hz] at hl; simp at hl; omega
    subst hz
    cases z with
    | nil => simp at hl
    | cons c z =>
      rw [List.append_assoc] at he
      have he := List.append_cancel_left he
      simp only [List.cons_append, List.cons.injEq] at he
      obtain ⟨a', ha'⟩ := List.getLast?_eq_some_iff.1 ha
      refine hn ⟨a', z, ?_⟩
      rw [ha', ← he.1]; simp
  have he : n ++ '\n' :: d = n' ++ '\n' :: d' := by rw [← h1, ← h1']
  have hlen : n.length = n'.length := by
    have a1 := key n n' d d' h2 h2' h3' he
    have a2 := key n' n d' d h2' h2 h3 he.symm
    omega
  obtain ⟨rfl, hd⟩ := List.append_inj he hlen
  exact ⟨rfl, by simpa using hd⟩

/-- a signature line is found by its dash, if that is the only one -/
theorem sigLineIn_unique {pre rest data name b64 name' b64' : Str} (hd : data = pre ++ Char.ofNat 0x2014 :: rest)
    (hpre : Char.ofNat 0x2014 ∉ pre) (hrest : Char.ofNat 0x2014 ∉ rest)
    (hr : rest = ' ' :: (name' ++ ' ' :: (b64' ++ ['\n'])))
    (hn' : ∀ c ∈ name', isPySpace c = false) (hb' : ∀ c ∈ b64', isPySpace c = false)
    (h : SigLineIn data name b64) : name = name' ∧ b64 = b64' := by
  obtain ⟨⟨s, t, he⟩, hn, hb⟩ := h
  have hsp : ∀ (l : Str) (ch : Char), (∀ c ∈ l, isPySpace c = false) → isPySpace ch = true → ch ∉ l := by
    intro l ch hl hc hm
    rw [hl ch hm] at hc; simp at hc
  rw [hd, List.append_assoc, List.cons_append] at he
  obtain ⟨hs, ht⟩ := split_at_delim _ s pre _ _ (by
    intro hm
    have hcount := congrArg (List.count (Char.ofNat 0x2014)) he
    rw [List.count_append, List.count_append, List.count_cons_self, List.count_cons_self,
      List.count_eq_zero_of_not_mem hpre, List.count_eq_zero_of_not_mem hrest] at hcount
    have := List.count_pos_iff.2 hm
    omega) hpre he
  rw [hr] at ht
  simp only [List.cons_append, List.append_assoc, List.cons.injEq, true_and] at ht
  obtain ⟨hnn, ht2⟩ := split_at_delim ' ' _ _ _ _ (hsp name ' ' hn (by decide)) (hsp name' ' ' hn' (by decide)) ht
  exact ⟨hnn, (split_at_delim '\n' _ _ _ _ (hsp b64 '\n' hb (by decide)) (hsp b64' '\n' hb' (by decide)) ht2).1⟩

/-- an ASCII envelope with a decodable but wrong signature: rejected cleanly -/
example : verifyCheckpoint asciiInt toyCrypto exKeyring [4, 20, 0, 0]
    { logIndex := 0, rootHash := [1, 2, 3], treeSize := 3, hashes := [],
      checkpoint := some "o\n1\nAQID\n\n— n AQIDBAU=\n".toList } = .error .verification := by decide

/-- that envelope meets the hypotheses of `C06_clean_partial` -/
example : (∀ note data, SplitsAt "o\n1\nAQID\n\n— n AQIDBAU=\n".toList note data →
      ∀ name b64, SigLineIn data name b64 → ∃ bs, b64Decode b64 = .ok bs) ∧
    ∀ note data, SplitsAt "o\n1\nAQID\n\n— n AQIDBAU=\n".toList note data →
      ∀ l ∈ splitLines (strip note), ∀ ch ∈ l, ch.toNat < 128 := by
  have hs : SplitsAt "o\n1\nAQID\n\n— n AQIDBAU=\n".toList "o\n1\nAQID\n".toList "— n AQIDBAU=\n".toList :=
    splitSep_some _ _ _ (by decide)
  constructor
  · intro note data h name b64 hl
    obtain ⟨rfl, rfl⟩ := splitsAt_unique hs h
    obtain ⟨rfl, rfl⟩ := sigLineIn_unique (pre := []) (rest := " n AQIDBAU=\n".toList) (name' := "n".toList)
      (b64' := "AQIDBAU=".toList) (by decide) (by decide) (by decide) (by decide) (by decide) (by decide) hl
    exact ⟨[1, 2, 3, 4, 5], by decide⟩
  · intro note data h
    obtain ⟨rfl, rfl⟩ := splitsAt_unique hs h
    decide

/-! ## Unambiguous envelopes -/

theorem countSep_zero : ∀ t, countSep t = 0 → ¬ ['\n', '\n'] <:+: t := by
  intro t
  induction t with
  | nil => intro _ h; simp at h
  | cons c t ih =>
    cases t with
    | nil =>
      rintro _ ⟨a, b, h⟩
      have := congrArg List.length h
      simp at this
      omega
    | cons d t =>
      intro h
      rw [countSep] at h
      split at h
      · omega
      · rename_i hc
        rintro ⟨a, b, he⟩
        cases a with
        | nil =>
          simp only [List.nil_append, List.cons_append, List.cons.injEq] at he
          exact hc ⟨he.1.symm, he.2.1.symm⟩
        | cons x a =>
          simp only [List.cons_append, List.cons.injEq] at he
          exact ih h ⟨a, b, he.2⟩

theorem countSep_split : ∀ t h d, splitSep t = some (h, d) → countSep t = 1 + countSep d := by
  intro t
  induction t with
  | nil => intro h d hs; simp [splitSep] at hs
  | cons c t ih =>
    cases t with
    | nil => intro h d hs; simp [splitSep] at hs
    | cons e t =>
      intro h d hs
      rw [splitSep] at hs
      rw [countSep]
      split at hs
      · rename_i hc
        rw [if_pos hc]
        cases hs; rfl
      · rename_i hc
        rw [if_neg hc]
        cases hp : splitSep (e :: t) with
        | none => rw [hp] at hs; simp at hs
        | some p =>
          rw [hp] at hs
          simp only [Option.map_some, Option.some.injEq, Prod.mk.injEq] at hs
          rw [ih p.1 p.2 hp, hs.2]

/-- **C05** The envelope of an accepted checkpoint has a single blank line, so what was signed is not ambiguous, and ends
with a newline. -/
theorem C05_unambiguous (pyInt : Str → Option Int) (c : Crypto) (kr : Keyring) (logId : Bytes)
    (proof : Merkle.InclusionProof) (h : verifyCheckpoint pyInt c kr logId proof = .ok ()) :
    ∃ env, proof.checkpoint = some env ∧ env.getLast? = some '\n' ∧
      (¬ ∃ a b d, env = a ++ ['\n', '\n'] ++ b ++ ['\n', '\n'] ++ d) ∧ ∃ note data, SplitsAt env note data := by
  unfold verifyCheckpoint at h
  split at h
  · simp at h
  · rename_i env henv
    refine ⟨env, henv, ?_⟩
    split at h
    · simp at h
    · rename_i sc hsc
      unfold SignedCheckpoint.fromText at hsc
      split at hsc
      · simp at hsc
      · rename_i n hn
        unfold SignedNote.fromText at hn
        split at hn
        · simp at hn
        · rename_i hc
          split at hn
          · simp at hn
          · rename_i header data hs
            obtain ⟨e1, e2, e3⟩ := splitSep_some _ _ _ hs
            have hcd := countSep_split _ _ _ hs
            have hz := countSep_zero data (by omega)
            split at hn
            · simp at hn
            · rename_i hd
              split at hn
              · simp at hn
              · rename_i hl
                have hl' : data.getLast? = some '\n' := by simpa using hl
                refine ⟨?_, ?_, header, data, e1, e2, e3⟩
                · rw [e1]
                  obtain ⟨d', hd'⟩ := List.getLast?_eq_some_iff.1 hl'
                  rw [hd']
                  exact List.getLast?_eq_some_iff.2 ⟨header ++ '\n' :: d', by simp⟩
                · rintro ⟨a, b, d, he⟩
                  obtain ⟨h', hh'⟩ := List.getLast?_eq_some_iff.1 e2
                  have he2 : header ++ '\n' :: data = (a ++ ['\n']) ++ ('\n' :: (b ++ '\n' :: '\n' :: d)) := by
                    rw [← e1, he]; simp
                  rcases List.append_eq_append_iff.1 he2 with ⟨z, hz1, hz2⟩ | ⟨z, hz1, hz2⟩
                  · cases z with
                    | nil =>
                      simp only [List.nil_append, List.cons.injEq, true_and] at hz2
                      exact hz ⟨b, d, by rw [hz2]; simp⟩
                    | cons x z =>
                      simp only [List.cons_append, List.cons.injEq] at hz2
                      exact hz ⟨z ++ '\n' :: b, d, by rw [hz2.2]; simp⟩
                  · cases z with
                    | nil =>
                      simp only [List.nil_append, List.cons.injEq, true_and] at hz2
                      exact hz ⟨b, d, by rw [← hz2]; simp⟩
                    | cons x z =>
                      simp only [List.cons_append, List.cons.injEq] at hz2
                      exact e3 ⟨a, z, by rw [hz1, ← hz2.1]; simp⟩

/-- an envelope with a second blank line is refused; an accepted one is shown above for `C05_checkpoint_sound` -/
example : verifyCheckpoint asciiInt toyCrypto exKeyring [4, 20, 0, 0]
    { logIndex := 0, rootHash := [1, 2, 3], treeSize := 3, hashes := [],
      checkpoint := some "o\n1\nAQID\n\n\n\n— n AQIDBAU=\n".toList } = .error .verification := by decide

end Sigstore.Props
