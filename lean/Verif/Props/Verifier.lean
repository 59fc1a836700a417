import Verif.Spec.Verification
import Verif.Props.Bundle

/-!
# C13–C18, C20: verification of artifacts and attestations
-/

namespace Sigstore.Props

open Sigstore.Trust Sigstore.LogEntry Sigstore.Dsse Sigstore.Sct Sigstore.Spec

/-! ## Times -/

theorem signature_ok_iff (b : Bundle) (sig : Bytes) : b.signature = .ok sig ↔ SignatureOf b.inner sig := by
  unfold Bundle.signature SignatureOf
  cases hd : b.inner.dsseEnvelope with
  | some e =>
    simp only [Option.some.injEq, exists_eq_left', reduceCtorEq, false_and, or_false]
    exact (C34_envelope_iff e).1 sig
  | none =>
    cases hm : b.inner.messageSignature <;> simp

theorem inWindow_iff (r : TimeRange) (t : Time) :
    inWindow r t = true ↔ r.start ≤ t ∧ ∀ e, r.stop = some e → t < e := by
  unfold inWindow
  cases r.stop <;> simp

theorem certs_started_iff (now : Time) (ca : CertificateAuthority Cert) :
    ca.certs now true = if (∀ r, ca.validFor = some r → r.start ≤ now) then ca.certificates else [] := by
  unfold CertificateAuthority.certs
  have := C12_usable_iff now ca.validFor true
  simp only [true_or, and_true] at this
  by_cases h : ∀ r, ca.validFor = some r → r.start ≤ now
  · rw [if_pos h, if_pos (this.2 h)]
  · rw [if_neg h, if_neg (fun x => h (this.1 x))]

/-- one authority of the loop: it decides by `Vouches` or is skipped -/
theorem verifySignedTimestamp_cons (env : Env) (now : Time) (tsr : Tsr) (msg : Bytes) (ca : CertificateAuthority Cert)
    (cas : List (CertificateAuthority Cert)) (hw : ca.validFor ≠ none) :
    (Vouches env now msg tsr ca →
      verifySignedTimestamp env now tsr msg (ca :: cas) = .ok (some ⟨.timestampAuthority, tsr.genTime⟩)) ∧
    (¬ Vouches env now msg tsr ca →
      verifySignedTimestamp env now tsr msg (ca :: cas) = verifySignedTimestamp env now tsr msg cas) := by
  obtain ⟨r, hr⟩ := Option.ne_none_iff_exists'.1 hw
  unfold Vouches
  rw [verifySignedTimestamp, certs_started_iff]
  simp only [hr, Option.some.injEq, forall_eq']
  by_cases hs : r.start ≤ now
  · rw [if_pos hs]
    rcases hc : ca.certificates with _ | ⟨leaf, _ | ⟨c2, cs⟩⟩
    · simp
    · simp
    · have hsplit : c2 :: cs = (c2 :: cs).dropLast ++ [(c2 :: cs).getLast (by simp)] :=
        (List.dropLast_concat_getLast (by simp)).symm
      have hgl : (leaf :: c2 :: cs).getLast (by simp) = (c2 :: cs).getLast (by simp) := by simp
      have hiff : (∃ leaf' mid root period, leaf :: c2 :: cs = leaf' :: (mid ++ [root]) ∧ r = period ∧
          period.start ≤ now ∧ env.verifyTsr leaf' root mid tsr msg = true ∧ period.start ≤ tsr.genTime ∧
          ∀ e, period.stop = some e → tsr.genTime < e) ↔
          env.verifyTsr leaf ((c2 :: cs).getLast (by simp)) (c2 :: cs).dropLast tsr msg = true ∧
            inWindow r tsr.genTime = true := by
        rw [inWindow_iff]
        constructor
        · rintro ⟨l, mid, root, p, h1, rfl, _, h3, h4⟩
          have e1 := (List.cons.inj h1).1
          have e2 := (List.cons.inj h1).2
          subst e1
          have e3 : mid = (c2 :: cs).dropLast := by rw [e2]; simp
          have e4 : root = (c2 :: cs).getLast (by simp) := by simp [e2]
          rw [← e3, ← e4]
          exact ⟨h3, h4⟩
        · rintro ⟨h1, h2⟩
          exact ⟨leaf, _, _, r, by rw [← hsplit], rfl, hs, h1, h2⟩
      rw [hiff]
      dsimp only
      rw [hgl]
      by_cases hv : env.verifyTsr leaf ((c2 :: cs).getLast (by simp)) (c2 :: cs).dropLast tsr msg = true
      · rw [if_pos hv]
        by_cases hi : inWindow r tsr.genTime = true
        · rw [if_pos hi]
          exact ⟨fun _ => rfl, fun h => absurd ⟨hv, hi⟩ h⟩
        · rw [if_neg hi]
          exact ⟨fun h => absurd h.2 hi, fun _ => rfl⟩
      · rw [if_neg hv]
        exact ⟨fun h => absurd h.1 hv, fun _ => rfl⟩
  · rw [if_neg hs]
    refine ⟨?_, fun _ => rfl⟩
    rintro ⟨_, _, _, p, _, rfl, h, _⟩
    exact absurd h hs

/-- **C16** A signed timestamp yields a verified time exactly when a trusted authority vouches for it, and the
time is then the generation time of the timestamp.  (Authorities without a validity period make the code
fail with an `AttributeError`; see `C16_timestamp_sound` for the direction that holds regardless.) -/
theorem C16_timestamp_iff (env : Env) (now : Time) (tsr : Tsr) (msg : Bytes)
    (cas : List (CertificateAuthority Cert)) (hw : ∀ ca ∈ cas, ca.validFor ≠ none) :
    ((∃ ca ∈ cas, Vouches env now msg tsr ca) →
      verifySignedTimestamp env now tsr msg cas = .ok (some ⟨.timestampAuthority, tsr.genTime⟩)) ∧
    ((∀ ca ∈ cas, ¬ Vouches env now msg tsr ca) → verifySignedTimestamp env now tsr msg cas = .ok none) := by
  induction cas with
  | nil => exact ⟨by simp, fun _ => rfl⟩
  | cons ca cas ih =>
    rw [List.forall_mem_cons] at hw
    obtain ⟨h1, h2⟩ := verifySignedTimestamp_cons env now tsr msg ca cas hw.1
    obtain ⟨i1, i2⟩ := ih hw.2
    by_cases hv : Vouches env now msg tsr ca
    · refine ⟨fun _ => h1 hv, fun h => absurd hv (h ca (List.mem_cons_self ..))⟩
    · rw [h2 hv]
      refine ⟨?_, fun h => i2 fun c hc => h c (List.mem_cons_of_mem _ hc)⟩
      rintro ⟨c, hc, hcv⟩
      rcases List.mem_cons.1 hc with rfl | hc
      · exact absurd hcv hv
      · exact i1 ⟨c, hc, hcv⟩

/-- **C16** Whatever the authorities, a verified time always comes from an authority that vouches. -/
theorem C16_timestamp_sound (env : Env) (now : Time) (tsr : Tsr) (msg : Bytes)
    (cas : List (CertificateAuthority Cert)) (r : VerifiedTime)
    (h : verifySignedTimestamp env now tsr msg cas = .ok (some r)) :
    r = ⟨.timestampAuthority, tsr.genTime⟩ ∧ ∃ ca ∈ cas, Vouches env now msg tsr ca := by
  induction cas with
  | nil => simp [verifySignedTimestamp] at h
  | cons ca cas ih =>
    by_cases hw : ca.validFor = none
    · rw [verifySignedTimestamp] at h
      have : verifySignedTimestamp env now tsr msg cas = .ok (some r) := by
        split at h
        · exact h
        · exact h
        · dsimp only at h
          split at h
          · rw [hw] at h; simp at h
          · exact h
      obtain ⟨h1, c, hc, h2⟩ := ih this
      exact ⟨h1, c, List.mem_cons_of_mem _ hc, h2⟩
    · obtain ⟨h1, h2⟩ := verifySignedTimestamp_cons env now tsr msg ca cas hw
      by_cases hv : Vouches env now msg tsr ca
      · rw [h1 hv] at h
        simp only [Except.ok.injEq, Option.some.injEq] at h
        exact ⟨h.symm, ca, List.mem_cons_self .., hv⟩
      · rw [h2 hv] at h
        obtain ⟨h1, c, hc, h2⟩ := ih h
        exact ⟨h1, c, List.mem_cons_of_mem _ hc, h2⟩

open Classical in
theorem verifyTimestamps_ok (env : Env) (now : Time) (root : TrustedRoot Cert) (sig : Bytes)
    (hw : ∀ ca ∈ root.timestampAuthorities, ca.validFor ≠ none) (tsrs : List Tsr) :
    verifyTimestamps env now root.timestampAuthorities (.ok sig) tsrs =
      .ok ((tsrs.filter fun t => decide (TrustedTsr env now root sig t)).map fun t =>
        ⟨.timestampAuthority, t.genTime⟩) := by
  induction tsrs with
  | nil => rfl
  | cons t ts ih =>
    rw [verifyTimestamps]
    obtain ⟨h1, h2⟩ := C16_timestamp_iff env now t sig root.timestampAuthorities hw
    by_cases hv : TrustedTsr env now root sig t
    · rw [h1 hv, ih, List.filter_cons_of_pos (by simpa using hv)]
      rfl
    · rw [h2 (fun ca hc h => hv ⟨ca, hc, h⟩), ih, List.filter_cons_of_neg (by simpa using hv)]

theorem eraseDups_length_iff {α : Type} [DecidableEq α] : ∀ (n : Nat) (l : List α), l.length ≤ n →
    (l.eraseDups.length ≤ l.length ∧ (l.eraseDups.length = l.length ↔ l.Nodup)) := by
  intro n
  induction n with
  | zero => intro l hl; have : l = [] := List.length_eq_zero_iff.1 (by omega); subst this; simp
  | succ n ih =>
    intro l hl
    cases l with
    | nil => simp
    | cons a as =>
      rw [List.eraseDups_cons]
      have hf : (as.filter fun b => !b == a).length ≤ as.length := List.length_filter_le ..
      have hl' : as.length ≤ n := by simpa using hl
      obtain ⟨h1, h2⟩ := ih _ (by omega : (as.filter fun b => !b == a).length ≤ n)
      refine ⟨by simp only [List.length_cons]; omega, ?_⟩
      simp only [List.length_cons, List.nodup_cons]
      have hfe : (as.filter fun b => !b == a).length = as.length ↔ a ∉ as := by
        rw [List.length_filter_eq_length_iff]
        constructor
        · intro h ha
          simpa using h a ha
        · intro h b hb
          simp only [Bool.not_eq_true', beq_eq_false_iff_ne, ne_eq]
          rintro rfl; exact h hb
      constructor
      · intro h
        have e1 : (as.filter fun b => !b == a).length = as.length := by omega
        have hna := hfe.1 e1
        have e2 : (as.filter fun b => !b == a) = as := List.length_filter_eq_length_iff.1 e1 |> List.filter_eq_self.2
        rw [e2] at h1 h2 h
        exact ⟨hna, h2.1 (by omega)⟩
      · rintro ⟨hna, hnd⟩
        have e1 := hfe.2 hna
        have e2 : (as.filter fun b => !b == a) = as := List.length_filter_eq_length_iff.1 e1 |> List.filter_eq_self.2
        rw [e2] at h2 ⊢
        rw [h2.2 hnd]

theorem nodup_iff_eraseDups {α : Type} [DecidableEq α] (l : List α) : l.eraseDups.length = l.length ↔ l.Nodup :=
  (eraseDups_length_iff _ l (Nat.le_refl _)).2

theorem getTimestampAuthorities_eq (root : TrustedRoot Cert) :
    (∀ ca ∈ root.timestampAuthorities, ca.certificates ≠ []) ∧
      getTimestampAuthorities root = .ok root.timestampAuthorities ∨
    (∃ ca ∈ root.timestampAuthorities, ca.certificates = []) ∧ getTimestampAuthorities root = .error .error := by
  unfold getTimestampAuthorities
  generalize root.timestampAuthorities = cas
  induction cas with
  | nil => exact .inl ⟨by simp, rfl⟩
  | cons ca cas ih =>
    rw [List.mapM_cons]
    by_cases hc : ca.certificates = []
    · right
      refine ⟨⟨ca, List.mem_cons_self .., hc⟩, ?_⟩
      simp [CertificateAuthority.init, hc, bind, Except.bind]
    · have hi : ca.init = .ok ca := by
        simp [CertificateAuthority.init, hc]
      rw [hi]
      rcases ih with ⟨h1, h2⟩ | ⟨⟨c, hc', h1⟩, h2⟩
      · left
        refine ⟨List.forall_mem_cons.2 ⟨hc, h1⟩, ?_⟩
        rw [h2]; rfl
      · right
        refine ⟨⟨c, List.mem_cons_of_mem _ hc', h1⟩, ?_⟩
        rw [h2]; rfl

/-- the times of a list of verified times -/
def timesOf (l : List VerifiedTime) : List Time := l.map VerifiedTime.time

open Classical in
/-- **C16** The timestamps of a bundle are evaluated successfully iff all decode and, if there are any, there are
authorities, the bundle has a signature, and there are at most 32 timestamps, all different; the result
consists of the generation times of those timestamps over the bundle's own signature that a trusted
authority vouches for. -/
theorem C16_tsa_times_iff (env : Env) (now : Time) (v : Verifier) (b : Bundle)
    (hw : ∀ ca ∈ v.root.timestampAuthorities, ca.validFor ≠ none) (l : List VerifiedTime) :
    tsaTimes env now v b = .ok l ↔
      ∃ tsrs sig, b.inner.timestamps.map env.decodeTsr = tsrs.map some ∧
        (tsrs ≠ [] → v.root.timestampAuthorities ≠ [] ∧
          (∀ ca ∈ v.root.timestampAuthorities, ca.certificates ≠ []) ∧
          tsrs.length ≤ 32 ∧ tsrs.Nodup ∧ SignatureOf b.inner sig) ∧
        l = (tsrs.filter fun t => decide (TrustedTsr env now v.root sig t)).map fun t =>
          ⟨.timestampAuthority, t.genTime⟩ := by
  unfold tsaTimes timestampData
  cases hd : decodeTsrs env b.inner.timestamps with
  | error e =>
    simp only [reduceCtorEq, false_iff]
    rintro ⟨tsrs, sig, h, _⟩
    rw [← decodeTsrs_ok_iff, hd] at h; simp at h
  | ok tsrs =>
    have huniq : ∀ tsrs', b.inner.timestamps.map env.decodeTsr = tsrs'.map some ↔ tsrs' = tsrs := by
      intro tsrs'
      rw [← decodeTsrs_ok_iff, hd, Except.ok.injEq]
      exact eq_comm
    simp only [huniq]
    cases tsrs with
    | nil =>
      simp only [Except.ok.injEq]
      constructor
      · rintro rfl; exact ⟨[], [], rfl, by simp, rfl⟩
      · rintro ⟨_, sig, rfl, _, rfl⟩; rfl
    | cons t ts =>
      dsimp only
      have hnil : t :: ts ≠ [] := by simp
      generalize t :: ts = tsrs at *
      clear t ts hd
      rcases getTimestampAuthorities_eq v.root with ⟨hne, hg⟩ | ⟨⟨ca, hca, hce⟩, hg⟩
      · rw [hg]
        cases hcas : v.root.timestampAuthorities with
        | nil =>
          simp only [reduceCtorEq, false_iff]
          rintro ⟨_, sig, rfl, h, _⟩
          exact (h hnil).1 rfl
        | cons ca cas =>
          dsimp only
          rw [← hcas]
          unfold verifyTimestampAuthority maxAllowedTimestamp
          by_cases hl : tsrs.length > 32
          · rw [if_pos hl]
            simp only [reduceCtorEq, false_iff]
            rintro ⟨_, sig, rfl, h, _⟩
            have := (h hnil).2.2.1; omega
          · rw [if_neg hl]
            by_cases hnd : tsrs.Nodup
            · rw [if_neg (by rw [ne_eq, nodup_iff_eraseDups]; exact fun h => h hnd)]
              cases hs : b.signature with
              | error e =>
                obtain ⟨t, ts, rfl⟩ := List.exists_cons_of_ne_nil hnil
                simp only [verifyTimestamps, reduceCtorEq, false_iff]
                rintro ⟨_, sig, rfl, h, _⟩
                have := (h hnil).2.2.2.2
                rw [← signature_ok_iff, hs] at this
                simp at this
              | ok sig =>
                rw [verifyTimestamps_ok env now v.root sig hw]
                have hsu : ∀ sig', SignatureOf b.inner sig' ↔ sig' = sig := by
                  intro sig'
                  rw [← signature_ok_iff, hs, Except.ok.injEq]
                  exact eq_comm
                rw [Except.ok.injEq]
                constructor
                · rintro rfl
                  exact ⟨tsrs, sig, rfl, fun _ => ⟨by rw [hcas]; simp, hne, by omega, hnd, (hsu _).2 rfl⟩, rfl⟩
                · rintro ⟨_, sig', rfl, h, rfl⟩
                  have := (hsu _).1 (h hnil).2.2.2.2
                  rw [this]
            · rw [if_pos (by rw [ne_eq, nodup_iff_eraseDups]; exact hnd)]
              simp only [reduceCtorEq, false_iff]
              rintro ⟨_, sig, rfl, h, _⟩
              exact hnd (h hnil).2.2.2.1
      · rw [hg]
        simp only [reduceCtorEq, false_iff]
        rintro ⟨_, sig, rfl, h, _⟩
        exact (h hnil).2.1 ca hca hce

/-- **C16** Too many timestamps, duplicates, or the absence of trusted authorities fail the verification with
`VerificationError`. -/
theorem C16_rejected (env : Env) (now : Time) (v : Verifier) (b : Bundle) (tsrs : List Tsr)
    (hd : b.inner.timestamps.map env.decodeTsr = tsrs.map some) (hne : tsrs ≠ [])
    (hc : ∀ ca ∈ v.root.timestampAuthorities, ca.certificates ≠ [])
    (hbad : v.root.timestampAuthorities = [] ∨ 32 < tsrs.length ∨ ¬ tsrs.Nodup) (policy : Cert → Py Unit) :
    verifyCommon env now v b policy = .error .verification := by
  have : tsaTimes env now v b = .error .verification := by
    unfold tsaTimes timestampData
    rw [(decodeTsrs_ok_iff _ _ _).2 hd]
    obtain ⟨t, ts, rfl⟩ := List.exists_cons_of_ne_nil hne
    dsimp only
    rcases getTimestampAuthorities_eq v.root with ⟨_, hg⟩ | ⟨⟨ca, hca, hce⟩, hg⟩
    · rw [hg]
      cases hcas : v.root.timestampAuthorities with
      | nil => rfl
      | cons ca cas =>
        dsimp only
        unfold verifyTimestampAuthority maxAllowedTimestamp
        rw [hcas] at hbad
        rcases hbad with h | h | h
        · simp at h
        · rw [if_pos h]
        · split
          · rfl
          · rw [if_pos (by rw [ne_eq, nodup_iff_eraseDups]; exact h)]
    · exact absurd hce (hc ca hca)
  unfold verifyCommon establishTime
  rw [this]

theorem logTime_ok_iff (e : LogEntry) (l : List VerifiedTime) :
    logTime e = .ok l ↔ ∃ ts, LogTimeOf e ts ∧ l = ts.map fun t => ⟨.transparencyService, t⟩ := by
  unfold logTime LogTimeOf
  cases ht : e.integratedTime with
  | none =>
    simp only [Except.ok.injEq]
    constructor
    · rintro rfl; exact ⟨[], .inr ⟨by simp, rfl⟩, rfl⟩
    · rintro ⟨ts, ⟨t, h, _⟩ | ⟨_, rfl⟩, rfl⟩
      · simp at h
      · rfl
  | some t =>
    dsimp only
    by_cases hu : t ≠ 0 ∧ e.promise.isSome = true
    · rw [if_pos hu]
      have hp : e.promise ≠ none := by
        intro h; rw [h] at hu; simp at hu
      have hno : ¬ (e.promise = none ∨ some t = none ∨ some t = some 0) := by
        rintro (h | h | h)
        · exact hp h
        · simp at h
        · exact hu.1 (by simpa using h)
      by_cases hk : (e.kind = "dsse".toList ∨ e.kind = "hashedrekord".toList) ∧ e.version = "0.0.1".toList
      · rw [if_pos hk]
        by_cases hr : -62135596800 ≤ t ∧ t ≤ 253402300799
        · rw [fromTimestamp, if_pos hr]
          dsimp only
          rw [Except.ok.injEq]
          constructor
          · rintro rfl
            exact ⟨[t * 1000000], .inl ⟨t, rfl, hu.1, hp, hk.1, hk.2, hr.1, hr.2, rfl⟩, rfl⟩
          · rintro ⟨ts, ⟨t', h, _, _, _, _, _, _, rfl⟩ | ⟨h, _⟩, rfl⟩
            · rw [Option.some.injEq] at h; subst h; rfl
            · exact absurd h hno
        · obtain ⟨x, hx⟩ : ∃ x, fromTimestamp t = .error x := by
            unfold fromTimestamp
            rw [if_neg hr]
            split
            · exact ⟨_, rfl⟩
            · split <;> exact ⟨_, rfl⟩
          rw [hx]
          simp only [reduceCtorEq, false_iff]
          rintro ⟨ts, ⟨t', h, _, _, _, _, h1, h2, _⟩ | ⟨h, _⟩, _⟩
          · rw [Option.some.injEq] at h; subst h; exact hr ⟨h1, h2⟩
          · exact absurd (h.imp_right fun x => x.elim False.elim .inr) hno
      · rw [if_neg hk]
        simp only [reduceCtorEq, false_iff]
        rintro ⟨ts, ⟨t', h, _, _, h1, h2, _⟩ | ⟨h, _⟩, _⟩
        · exact hk ⟨h1, h2⟩
        · exact absurd (h.imp_right fun x => x.elim False.elim .inr) hno
    · rw [if_neg hu]
      have hyes : e.promise = none ∨ t = 0 := by
        cases hp : e.promise with
        | none => exact .inl rfl
        | some _ =>
          right
          apply Classical.byContradiction
          intro h
          exact hu ⟨h, by rw [hp]; rfl⟩
      rw [Except.ok.injEq]
      constructor
      · rintro rfl
        refine ⟨[], .inr ⟨?_, rfl⟩, rfl⟩
        rcases hyes with h | h
        · exact .inl h
        · exact .inr (.inr (by rw [h]))
      · rintro ⟨ts, ⟨t', h, h1, h2, _⟩ | ⟨_, rfl⟩, rfl⟩
        · rw [Option.some.injEq] at h; subst h
          rcases hyes with h | h
          · exact absurd h h2
          · exact absurd h h1
        · rfl

open Classical in
/-- **C16** The verified times are those of the trusted timestamps and that of the log. -/
theorem C16_establish_time_iff (env : Env) (now : Time) (v : Verifier) (b : Bundle)
    (hw : ∀ ca ∈ v.root.timestampAuthorities, ca.validFor ≠ none) (times : List Time) :
    (∃ l, establishTime env now v b = .ok l ∧ timesOf l = times) ↔ TimesOf env now v.root b times := by
  have h1 := C16_tsa_times_iff env now v b hw
  have h2 := logTime_ok_iff b.entry
  unfold establishTime TimesOf
  constructor
  · rintro ⟨l, h, rfl⟩
    split at h
    · simp at h
    · rename_i l1 hl1
      split at h
      · simp at h
      · rename_i l2 hl2
        rw [Except.ok.injEq] at h; subst h
        obtain ⟨tsrs, sig, a1, a2, a3⟩ := (h1 _).1 hl1
        obtain ⟨lt, b1, b2⟩ := (h2 _).1 hl2
        refine ⟨tsrs, sig, lt, a1, a2, b1, ?_⟩
        rw [a3, b2, timesOf, List.map_append, List.map_map, List.map_map]
        congr 1
        rw [show (VerifiedTime.time ∘ fun t => ({ source := .transparencyService, time := t } : VerifiedTime)) = id
          from rfl, List.map_id]
  · rintro ⟨tsrs, sig, lt, a1, a2, b1, rfl⟩
    have e1 := (h1 _).2 ⟨tsrs, sig, a1, a2, rfl⟩
    have e2 := (h2 _).2 ⟨lt, b1, rfl⟩
    rw [e1, e2]
    refine ⟨_, rfl, ?_⟩
    rw [timesOf, List.map_append, List.map_map, List.map_map]
    congr 1
    rw [show (VerifiedTime.time ∘ fun t => ({ source := .transparencyService, time := t } : VerifiedTime)) = id
      from rfl, List.map_id]

/-! ## Steps (1) to (6) -/

theorem verifyChains_ok_iff (env : Env) (store : List Cert) (cert : Cert) (l : List VerifiedTime) :
    ∀ chain0 chain, verifyChains env store cert chain0 l = .ok chain ↔
      (l = [] ∧ chain = chain0) ∨
      ((∀ t ∈ timesOf l, ∃ ch, env.buildChain store t cert = some ch) ∧
        ∃ t, (timesOf l).getLast? = some t ∧ env.buildChain store t cert = some chain) := by
  induction l with
  | nil =>
    intro chain0 chain
    simp [verifyChains, timesOf]
    exact eq_comm
  | cons v vs ih =>
    intro chain0 chain
    rw [verifyChains]
    cases hb : env.buildChain store v.time cert with
    | none =>
      simp [timesOf, hb]
    | some ch =>
      dsimp only
      rw [ih]
      cases vs with
      | nil =>
        simp [timesOf, hb]
        exact eq_comm
      | cons w ws =>
        simp [timesOf, hb]

theorem getTlogKeys_verify (now : Time) (ms : List PublicKeyMsg) : getTlogKeys now ms .verify = startedKeys now ms := by
  unfold getTlogKeys startedKeys
  congr 1
  funext m
  unfold isTimerangeValid
  cases m.validFor with
  | none => rfl
  | some r =>
    dsimp only
    by_cases h : now < r.start
    · rw [if_pos h]
      symm
      simp only [decide_eq_false_iff_not]
      omega
    · rw [if_neg h]
      have : r.start ≤ now := by omega
      simp [this]

theorem checkSct_ok_iff (env : Env) (now : Time) (v : Verifier) (cert : Cert) (chain : List Cert) :
    checkSct env now v cert chain = .ok () ↔ SctOk env now v.root cert chain := by
  unfold checkSct SctOk ctKeyring
  dsimp only
  rw [getTlogKeys_verify]
  by_cases hne : startedKeys now v.root.ctlogs = []
  · simp [hne, Exc.isVerificationError]
  · have he : (startedKeys now v.root.ctlogs).isEmpty = false := by
      cases h : startedKeys now v.root.ctlogs with
      | nil => exact absurd h hne
      | cons => rfl
    rw [he]
    obtain ⟨kr, hkr⟩ := C10_keyring_total env.crypto (startedKeys now v.root.ctlogs)
    rw [hkr]
    simp only [← C10_keyring_iff _ _ kr hkr]
    rw [← C27_verify_sct_iff]
    simp only [Bool.false_eq_true, if_false, ne_eq, hne, not_false_eq_true, true_and]
    cases verifySct env.crypto cert chain kr with
    | error e => by_cases hx : e.isVerificationError = true <;> simp [hx]
    | ok u => simp

theorem checkEntry_ok_iff (env : Env) (now : Time) (v : Verifier) (e : LogEntry) :
    checkEntry env now v e = .ok () ↔ EntryOk env now v.root e := by
  unfold checkEntry EntryOk rekorKeyring
  dsimp only
  rw [getTlogKeys_verify]
  by_cases hne : startedKeys now v.root.tlogs = []
  · simp [hne, Exc.isVerificationError]
  · have he : ¬ (startedKeys now v.root.tlogs).length = 0 := by
      rw [List.length_eq_zero_iff]; exact hne
    rw [if_neg he]
    obtain ⟨kr, hkr⟩ := C10_keyring_total env.crypto (startedKeys now v.root.tlogs)
    have hiff : (∃ p kr', e.proof = some p ∧ Merkle.verifyMerkleInclusion env.crypto.sha256 e.body p = .ok () ∧
        Keyring.init env.crypto (startedKeys now v.root.tlogs) = .ok kr' ∧
        Checkpoint.verifyCheckpoint env.pyInt env.crypto kr' e.logId p = .ok () ∧
        ∀ set t, e.promise = some set → e.integratedTime = some t → t ≠ 0 → JsonSafe t ∧ JsonSafe e.logIndex ∧
          KeysAccept env.crypto (startedKeys now v.root.tlogs) e.logId
            (utf8 (promiseText e.body t e.logId e.logIndex)) set) ↔
        e.verify env.pyInt env.crypto kr = .ok () := by
      rw [C57_entry_verifies_iff]
      simp only [C10_keyring_iff _ _ kr hkr]
      constructor
      · rintro ⟨p, kr', h1, h2, h3, h4, h5⟩
        rw [hkr, Except.ok.injEq] at h3
        subst h3
        exact ⟨p, h1, h2, h4, h5⟩
      · rintro ⟨p, h1, h2, h4, h5⟩
        exact ⟨p, kr, h1, h2, hkr, h4, h5⟩
    rw [hiff, hkr]
    simp only [ne_eq, hne, not_false_eq_true, true_and]
    cases e.verify env.pyInt env.crypto kr with
    | error e => by_cases hx : e.isVerificationError = true <;> simp [hx]
    | ok u => simp

theorem checkUsage_ok_iff (cert : Cert) :
    checkUsage cert = .ok () ↔ (∃ ku, cert.keyUsage = some ku ∧ ku.digitalSignature = true) ∧
      ∃ l, cert.eku = some l ∧ .codeSigning ∈ l := by
  unfold checkUsage
  rcases cert.keyUsage with _ | ⟨_ | _, kc⟩
  · simp
  · simp
  · rcases cert.eku with _ | l
    · simp
    · simp

theorem checkWindow_ok_iff (cert : Cert) (l : List VerifiedTime) :
    checkWindow cert l = .ok () ↔ ∀ t ∈ timesOf l, cert.notBefore ≤ t ∧ t ≤ cert.notAfter := by
  induction l with
  | nil => simp [checkWindow, timesOf]
  | cons v vs ih =>
    rw [checkWindow, timesOf, List.map_cons, List.forall_mem_cons]
    by_cases h : cert.notBefore ≤ v.time ∧ v.time ≤ cert.notAfter
    · rw [if_pos h, ih]; simp [h, timesOf]
    · rw [if_neg h]; simp [h]

/-- the common steps on a list of times -/
theorem verifyCommon_steps (env : Env) (now : Time) (v : Verifier) (b : Bundle) (policy : Cert → Py Unit) :
    verifyCommon env now v b policy = .ok () ↔
      ∃ l, establishTime env now v b = .ok l ∧ timesOf l ≠ [] ∧
        (∀ t ∈ timesOf l, ∃ chain, env.buildChain v.fulcioCerts t b.cert = some chain) ∧
        (∃ t chain, (timesOf l).getLast? = some t ∧ env.buildChain v.fulcioCerts t b.cert = some chain ∧
          SctOk env now v.root b.cert chain) ∧
        ((∃ ku, b.cert.keyUsage = some ku ∧ ku.digitalSignature = true) ∧ ∃ l, b.cert.eku = some l ∧ .codeSigning ∈ l) ∧
        policy b.cert = .ok () ∧ EntryOk env now v.root b.entry ∧
        ∀ t ∈ timesOf l, b.cert.notBefore ≤ t ∧ t ≤ b.cert.notAfter := by
  unfold verifyCommon
  cases hl : establishTime env now v b with
  | error e => simp
  | ok l =>
    simp only [Except.ok.injEq, exists_eq_left']
    rw [← checkUsage_ok_iff, ← checkEntry_ok_iff, ← checkWindow_ok_iff]
    simp only [← checkSct_ok_iff]
    unfold verifiedTimeThreshold
    cases l with
    | nil => simp [timesOf]
    | cons x xs =>
      have hne : timesOf (x :: xs) ≠ [] := by simp [timesOf]
      rw [if_neg (by simp)]
      have hch := verifyChains_ok_iff env v.fulcioCerts b.cert (x :: xs) []
      simp only [reduceCtorEq, false_and, false_or] at hch
      generalize x :: xs = l at *
      cases hc : verifyChains env v.fulcioCerts b.cert [] l with
      | error e =>
        simp only [reduceCtorEq, false_iff]
        rintro ⟨_, h1, ⟨t, chain, h2, h3, _⟩, _⟩
        have := (hch chain).2 ⟨h1, t, h2, h3⟩
        rw [hc] at this; simp at this
      | ok chain =>
        obtain ⟨h1, t, h2, h3⟩ := (hch chain).1 hc
        have hsct : (∃ t chain, (timesOf l).getLast? = some t ∧ env.buildChain v.fulcioCerts t b.cert = some chain ∧
            checkSct env now v b.cert chain = .ok ()) ↔ checkSct env now v b.cert chain = .ok () := by
          constructor
          · rintro ⟨t', chain', a1, a2, a3⟩
            rw [h2, Option.some.injEq] at a1; subst a1
            rw [h3, Option.some.injEq] at a2; subst a2
            exact a3
          · intro h; exact ⟨t, chain, h2, h3, h⟩
        rw [hsct, and_iff_right hne, and_iff_right h1]
        dsimp only
        cases checkSct env now v b.cert chain with
        | error e => simp
        | ok _ =>
          cases checkUsage b.cert with
          | error e => simp
          | ok _ =>
            cases policy b.cert with
            | error e => simp
            | ok _ =>
              cases checkEntry env now v b.entry with
              | error e => simp
              | ok _ => simp

/-- The common steps succeed iff the specification holds for some list of times. -/
theorem verifyCommon_ok_iff (env : Env) (now : Time) (v : Verifier) (b : Bundle) (policy : Cert → Py Unit)
    (hw : ∀ ca ∈ v.root.timestampAuthorities, ca.validFor ≠ none) :
    verifyCommon env now v b policy = .ok () ↔ ∃ times, CommonOk env now v b policy times := by
  rw [verifyCommon_steps]
  constructor
  · rintro ⟨l, h1, h2, h3, h4, ⟨h5, h6⟩, h7, h8, h9⟩
    exact ⟨timesOf l, (C16_establish_time_iff env now v b hw _).1 ⟨l, h1, rfl⟩, h2, h3, h4, h5, h6, h7, h8, h9⟩
  · rintro ⟨times, h⟩
    obtain ⟨l, h1, rfl⟩ := (C16_establish_time_iff env now v b hw _).2 h.timesOf
    exact ⟨l, h1, h.enough, h.chains, h.sct, ⟨h.digitalSignature, h.codeSigning⟩, h.policy, h.entry, h.window⟩

/-! ## C13: artifacts -/

theorem verifyPrehashed_ok_iff (c : Crypto) (key : PubKey) (sig : Bytes) (h : Hashed) :
    verifyPrehashed c key sig h = .ok () ↔
      (∃ curve, key.kind = .ec curve) ∧ h.algorithm = .sha2_256 ∧ h.digest.length = 32 ∧
        c.ecdsa key h.digest sig = true := by
  unfold verifyPrehashed
  cases key.kind with
  | other => simp
  | rsa => by_cases h' : h.algorithm = .sha2_256 <;> simp [h']
  | ed25519 => by_cases h' : h.algorithm = .sha2_256 <;> simp [h']
  | ec curve =>
    by_cases h' : h.algorithm = .sha2_256
    · by_cases hl : h.digest.length = 32
      · by_cases he : c.ecdsa key h.digest sig = true
        · simp [h', hl, he]
        · simp [h', hl, he]
      · simp [h', hl]
    · simp [h']

theorem ec_paddingOk {cert : Cert} {curve : Curve} (h : cert.pubKey.kind = .ec curve) : PaddingOk cert := by
  intro bits hb
  rw [h] at hb; simp at hb

theorem v2Verifier_ok_iff {cert : Cert} {curve : Curve} (h : cert.pubKey.kind = .ec curve)
    (x : V2VerifierKey × KeyDetails) :
    v2Verifier cert = .ok x ↔ x.1 = .x509 cert.der ∧ ∃ hf, Registered cert.pubKey.kind x.2 hf := by
  have hs := C52_selection_iff cert
  simp only [ec_paddingOk h, true_and] at hs
  rw [← hs]
  obtain ⟨vk, kd⟩ := x
  unfold v2Verifier
  cases hk : getKeyDetails cert with
  | error e => simp
  | ok kd' =>
    simp only [Except.ok.injEq, Prod.mk.injEq]
    constructor
    · rintro ⟨rfl, rfl⟩; exact ⟨rfl, rfl⟩
    · rintro ⟨rfl, rfl⟩; exact ⟨rfl, rfl⟩

theorem validateHashedrekordV001_ok_iff (env : Env) (cert : Cert) (entry : LogEntry) (sig : Bytes) (h : Hashed) :
    validateHashedrekordV001 env cert entry sig h = .ok () ↔
      h.algorithm = .sha2_256 ∧
      env.parseHashedrekord entry.body = some ⟨"0.0.1".toList, some (b64Encode sig), some (base64EncodePemCert cert),
        some ("sha256".toList, hexEncode h.digest)⟩ := by
  unfold validateHashedrekordV001 hashedrekordFromParts
  by_cases ha : h.algorithm = .sha2_256
  · rw [if_pos ha]
    dsimp only
    cases env.parseHashedrekord entry.body with
    | none => simp
    | some actual =>
      simp only [ha, true_and, Option.some.injEq]
      split
      · rename_i hne
        simp only [reduceCtorEq, false_iff]
        exact fun h => hne h.symm
      · rename_i he
        simp only [true_iff]
        exact (Classical.byContradiction he).symm
  · rw [if_neg ha]; simp [ha]

theorem validateHashedrekordV002_ok_iff (env : Env) (cert : Cert) (entry : LogEntry) (sig : Bytes) (h : Hashed)
    {curve : Curve} (hc : cert.pubKey.kind = .ec curve) :
    validateHashedrekordV002 env cert entry sig h = .ok () ↔
      ∃ kd hf, Registered cert.pubKey.kind kd hf ∧
        env.parseV2 entry.body = some ⟨entry.kind, entry.version,
          some ⟨h.algorithm, h.digest, sig, .x509 cert.der, kd⟩⟩ := by
  have hv := v2Verifier_ok_iff hc
  unfold validateHashedrekordV002
  cases hx : v2Verifier cert with
  | error e =>
    simp only [reduceCtorEq, false_iff]
    rintro ⟨kd, hf, h1, _⟩
    have := (hv (.x509 cert.der, kd)).2 ⟨rfl, hf, h1⟩
    rw [hx] at this; simp at this
  | ok x =>
    obtain ⟨vk, kd⟩ := x
    obtain ⟨h1, hf, h2⟩ := (hv _).1 hx
    dsimp only at h1 h2 ⊢
    subst h1
    have huniq : ∀ kd' hf', Registered cert.pubKey.kind kd' hf' → kd' = kd := by
      intro kd' hf' h'
      have := (hv (.x509 cert.der, kd')).2 ⟨rfl, hf', h'⟩
      rw [hx] at this
      simp only [Except.ok.injEq, Prod.mk.injEq, true_and] at this
      exact this.symm
    cases hp : env.parseV2 entry.body with
    | none => simp
    | some actual =>
      dsimp only
      split
      · rename_i hne
        simp only [reduceCtorEq, false_iff]
        rintro ⟨kd', hf', h3, h4⟩
        rw [huniq _ _ h3, Option.some.injEq] at h4
        exact hne h4.symm
      · rename_i he
        simp only [true_iff]
        exact ⟨kd, hf, h2, by rw [← Classical.byContradiction he]⟩

/-- Steps (7) and (8) for artifacts succeed iff the message signature is genuine and logged. -/
theorem checkArtifact_ok_iff (env : Env) (b : Bundle) (input : HashInput) :
    checkArtifact env b input = .ok () ↔ ArtifactOk env b (sha256Digest env.crypto input) := by
  unfold checkArtifact ArtifactOk HashedrekordFor
  generalize sha256Digest env.crypto input = h
  dsimp only
  cases hm : b.inner.messageSignature with
  | none => simp
  | some ms =>
    simp only [Option.some.injEq, exists_eq_left']
    have hdig : (ms.digest.isSome = true ∧ some h.digest ≠ ms.digest) ↔ ¬ ∀ d, ms.digest = some d → d = h.digest := by
      cases hd : ms.digest with
      | none => simp
      | some d =>
        simp only [Option.isSome_some, true_and, ne_eq, Option.some.injEq, forall_eq']
        exact not_congr eq_comm
    by_cases hg : ∀ d, ms.digest = some d → d = h.digest
    · rw [if_neg (by rw [hdig]; exact fun x => x hg), and_iff_right hg]
      have hv := verifyPrehashed_ok_iff env.crypto b.cert.pubKey ms.signature h
      cases hp : verifyPrehashed env.crypto b.cert.pubKey ms.signature h with
      | error e =>
        rw [hp] at hv
        simp only [reduceCtorEq, false_iff] at hv ⊢
        rintro ⟨h1, h2, h3, h4, _⟩
        exact hv ⟨h3, h1, h2, h4⟩
      | ok u =>
        obtain ⟨⟨curve, h3⟩, h1, h2, h4⟩ := hv.1 hp
        rw [and_iff_right h1, and_iff_right h2, and_iff_right ⟨curve, h3⟩, and_iff_right h4]
        dsimp only
        have e1 := validateHashedrekordV001_ok_iff env b.cert b.entry ms.signature h
        have e2 := validateHashedrekordV002_ok_iff env b.cert b.entry ms.signature h h3
        by_cases hk : b.entry.kind = "hashedrekord".toList
        · rw [if_neg (by simp [hk]), and_iff_right hk]
          rw [hk] at e2
          by_cases hv2 : b.entry.version = "0.0.2".toList
          · rw [if_pos hv2, e2, hv2, h1]
            simp
          · rw [if_neg hv2]
            by_cases hv1 : b.entry.version = "0.0.1".toList
            · rw [if_pos hv1, e1, hv1, h1]
              simp
            · rw [if_neg hv1]
              simp only [reduceCtorEq, false_iff]
              rintro (⟨h, _⟩ | ⟨h, _⟩)
              · exact hv1 h
              · exact hv2 h
        · rw [if_pos hk]
          simp only [reduceCtorEq, false_iff]
          exact fun x => hk x.1
    · rw [if_pos (hdig.2 hg)]
      simp only [reduceCtorEq, false_iff]
      exact fun x => hg x.1

/-- **C13** `verify_artifact` returns normally exactly when every required check holds. -/
theorem C13_verify_artifact_iff (env : Env) (now : Time) (v : Verifier) (input : HashInput) (b : Bundle)
    (policy : Cert → Py Unit) (hw : ∀ ca ∈ v.root.timestampAuthorities, ca.validFor ≠ none) :
    verifyArtifact env now v input b policy = .ok () ↔
      (∃ times, CommonOk env now v b policy times) ∧ ArtifactOk env b (sha256Digest env.crypto input) := by
  rw [← verifyCommon_ok_iff env now v b policy hw, ← checkArtifact_ok_iff]
  unfold verifyArtifact
  cases verifyCommon env now v b policy <;> simp

theorem verifyArtifact_parts {env : Env} {now : Time} {v : Verifier} {input : HashInput} {b : Bundle}
    {policy : Cert → Py Unit} (h : verifyArtifact env now v input b policy = .ok ()) :
    verifyCommon env now v b policy = .ok () ∧ ArtifactOk env b (sha256Digest env.crypto input) := by
  rw [← checkArtifact_ok_iff]
  unfold verifyArtifact at h
  cases hc : verifyCommon env now v b policy with
  | error e => rw [hc] at h; simp at h
  | ok u => rw [hc] at h; exact ⟨rfl, h⟩

/-! ## C14: attestations -/

theorem validateDsseV001_ok_iff (env : Env) (cert : Cert) (entry : LogEntry) (e : EnvelopeMsg) (sig : Bytes)
    (hs : e.signatures = [sig]) :
    validateDsseV001 env cert entry e = .ok () ↔
      env.parseDsse entry.body = some ⟨some ("sha256".toList, hexEncode (env.crypto.sha256 e.payload)),
        some [(b64Encode sig, base64EncodePemCert cert)]⟩ := by
  unfold validateDsseV001
  rw [hs]
  rcases env.parseDsse entry.body with _ | ⟨_ | ⟨alg, value⟩, sigs⟩
  · simp
  · simp
  · dsimp only
    by_cases h1 : alg = "sha256".toList
    · rw [if_neg (fun h => h h1)]
      by_cases h2 : hexEncode (env.crypto.sha256 e.payload) = value
      · rw [if_neg (fun h => h h2), List.map_singleton]
        by_cases h3 : some [(b64Encode sig, base64EncodePemCert cert)] = sigs
        · rw [if_neg (fun h => h h3)]
          simp [h1, h2, ← h3]
        · rw [if_pos h3]
          simp only [reduceCtorEq, false_iff, Option.some.injEq, DsseBody.mk.injEq, not_and]
          exact fun _ h => h3 h.symm
      · rw [if_pos h2]
        simp only [reduceCtorEq, false_iff, Option.some.injEq, DsseBody.mk.injEq, Prod.mk.injEq]
        exact fun h => h2 h.1.2.symm
    · rw [if_pos h1]
      simp only [reduceCtorEq, false_iff, Option.some.injEq, DsseBody.mk.injEq, Prod.mk.injEq]
      exact fun h => h1 h.1.1

theorem registered_prehash {kind : KeyKind} {kd : KeyDetails} {h : Option (HashAlgorithm × HashAlg)}
    (hr : Registered kind kd h) (x : HashAlgorithm × HashAlg) : getPrehash kd = .ok x ↔ h = some x := by
  cases hr <;> simp [getPrehash, getAlgorithmDetails, detailsByKey, algorithmRegistry, Dict.set, Dict.get?]

theorem validateHashedrekordV002Dsse_ok_iff (env : Env) (cert : Cert) (entry : LogEntry) (e : EnvelopeMsg) (sig : Bytes)
    (hs : e.signatures = [sig]) {curve : Curve} (hc : cert.pubKey.kind = .ec curve) :
    validateHashedrekordV002Dsse env cert entry e = .ok () ↔
      ∃ kd alg hf, Registered cert.pubKey.kind kd (some (alg, hf)) ∧
        env.parseV2 entry.body = some ⟨entry.kind, entry.version,
          some ⟨alg, env.crypto.hash hf (pae e.payloadType e.payload), sig, .x509 cert.der, kd⟩⟩ := by
  have hv := v2Verifier_ok_iff hc
  unfold validateHashedrekordV002Dsse
  rw [hs]
  dsimp only
  cases hx : v2Verifier cert with
  | error x =>
    simp only [reduceCtorEq, false_iff]
    rintro ⟨kd, alg, hf, h1, _⟩
    have := (hv (.x509 cert.der, kd)).2 ⟨rfl, _, h1⟩
    rw [hx] at this; simp at this
  | ok x =>
    obtain ⟨vk, kd⟩ := x
    obtain ⟨h1, hf, h2⟩ := (hv _).1 hx
    dsimp only at h1 h2 ⊢
    subst h1
    have huniq : ∀ kd' hf', Registered cert.pubKey.kind kd' hf' → kd' = kd := by
      intro kd' hf' h'
      have := (hv (.x509 cert.der, kd')).2 ⟨rfl, hf', h'⟩
      rw [hx] at this
      simp only [Except.ok.injEq, Prod.mk.injEq, true_and] at this
      exact this.symm
    have hpre := registered_prehash h2
    cases hp : getPrehash kd with
    | error x =>
      simp only [reduceCtorEq, false_iff]
      rintro ⟨kd', alg, hf', h3, _⟩
      have := huniq _ _ h3
      subst this
      have := (registered_prehash h3 (alg, hf')).2 rfl
      rw [hp] at this; simp at this
    | ok y =>
      obtain ⟨alg, hf'⟩ := y
      have h5 := (hpre _).1 hp
      subst h5
      have huniq2 : ∀ kd' x', Registered cert.pubKey.kind kd' (some x') → kd' = kd ∧ x' = (alg, hf') := by
        intro kd' x' h'
        have h6 := huniq _ _ h'
        subst h6
        have := (registered_prehash h' x').2 rfl
        rw [hp, Except.ok.injEq] at this
        exact ⟨rfl, this.symm⟩
      cases hb : env.parseV2 entry.body with
      | none => simp
      | some actual =>
        dsimp only
        split
        · rename_i hne
          simp only [reduceCtorEq, false_iff]
          rintro ⟨kd', alg', hf'', h3, h4⟩
          obtain ⟨h6, h7⟩ := huniq2 _ _ h3
          simp only [Prod.mk.injEq] at h7
          obtain ⟨h7, h8⟩ := h7
          subst h6 h7 h8
          rw [Option.some.injEq] at h4
          exact hne h4.symm
        · rename_i he
          simp only [true_iff]
          exact ⟨kd, alg, hf', h2, by rw [← Classical.byContradiction he]⟩

/-- Steps (7) and (8) for attestations return (type, payload) iff the envelope holds them, signed and logged. -/
theorem checkDsse_ok_iff (env : Env) (b : Bundle) (type_ : Str) (payload : Bytes) :
    checkDsse env b = .ok (type_, payload) ↔ DsseOk env b type_ payload := by
  unfold checkDsse DsseOk
  cases hm : b.inner.dsseEnvelope with
  | none => simp
  | some e =>
    simp only [Option.some.injEq, exists_and_left, exists_eq_left']
    have hi := (C34_envelope_iff e).1
    cases hen : envelopeInit e with
    | error x =>
      simp only [reduceCtorEq, false_iff]
      rintro ⟨_, _, sig, h1, h2, _⟩
      have := (hi sig).2 ⟨h1, h2⟩
      rw [hen] at this; simp at this
    | ok sig =>
      obtain ⟨hs, hne⟩ := (hi sig).1 hen
      have hv := C34_verify_iff env.crypto b.cert.pubKey e
      dsimp only
      cases hd : dsseVerify env.crypto b.cert.pubKey e with
      | error x =>
        simp only [reduceCtorEq, false_iff]
        rintro ⟨rfl, rfl, sig', h1, _, h3, h4, _⟩
        have := (hv e.payload).2 ⟨rfl, h3, sig', h1, h4⟩
        rw [hd] at this; simp at this
      | ok p =>
        obtain ⟨_, ⟨curve, hc⟩, sig', hs', hver⟩ := (hv p).1 hd
        rw [hs] at hs'
        have : sig = sig' := by simpa using hs'
        subst this
        dsimp only
        unfold DsseLogged
        have e1 := validateDsseV001_ok_iff env b.cert b.entry e sig hs
        have e2 := validateHashedrekordV002Dsse_ok_iff env b.cert b.entry e sig hs hc
        -- the log check
        have hlog : (if b.entry.kind = "hashedrekord".toList ∧ b.entry.version = "0.0.2".toList then
              validateHashedrekordV002Dsse env b.cert b.entry e
            else if b.entry.kind = "dsse".toList ∧ b.entry.version = "0.0.1".toList then
              validateDsseV001 env b.cert b.entry e
            else .error .verification) = .ok () ↔ DsseLogged env b.entry b.cert e sig := by
          unfold DsseLogged
          by_cases h2 : b.entry.kind = "hashedrekord".toList ∧ b.entry.version = "0.0.2".toList
          · rw [if_pos h2, e2, h2.1, h2.2]
            simp
          · rw [if_neg h2]
            by_cases h1 : b.entry.kind = "dsse".toList ∧ b.entry.version = "0.0.1".toList
            · rw [if_pos h1, e1, h1.1, h1.2]
              simp
            · rw [if_neg h1]
              simp only [reduceCtorEq, false_iff]
              rintro (⟨a, b, _⟩ | ⟨a, b, _⟩)
              · exact h1 ⟨a, b⟩
              · exact h2 ⟨a, b⟩
        unfold DsseLogged at hlog
        generalize (if b.entry.kind = "hashedrekord".toList ∧ b.entry.version = "0.0.2".toList then
              validateHashedrekordV002Dsse env b.cert b.entry e
            else if b.entry.kind = "dsse".toList ∧ b.entry.version = "0.0.1".toList then
              validateDsseV001 env b.cert b.entry e
            else .error .verification) = checked at *
        cases checked with
        | error x =>
          simp only [reduceCtorEq, false_iff] at hlog ⊢
          rintro ⟨rfl, rfl, sig', h1, _, _, _, h2⟩
          rw [hs] at h1
          have : sig = sig' := by simpa using h1
          subst this
          exact hlog h2
        | ok u =>
          simp only [Except.ok.injEq, Prod.mk.injEq, true_iff] at hlog ⊢
          constructor
          · rintro ⟨rfl, rfl⟩
            exact ⟨rfl, rfl, sig, hs, hne, ⟨curve, hc⟩, hver, hlog⟩
          · rintro ⟨h1, h2, _⟩
            exact ⟨h1, h2⟩

/-- **C14** `verify_dsse` returns exactly a type and payload that were signed by the certificate's key, in an
envelope with one signature, and logged; and it returns them whenever all the checks hold. -/
theorem C14_verify_dsse_iff (env : Env) (now : Time) (v : Verifier) (b : Bundle) (policy : Cert → Py Unit)
    (hw : ∀ ca ∈ v.root.timestampAuthorities, ca.validFor ≠ none) (type_ : Str) (payload : Bytes) :
    verifyDsse env now v b policy = .ok (type_, payload) ↔
      (∃ times, CommonOk env now v b policy times) ∧ DsseOk env b type_ payload := by
  rw [← verifyCommon_ok_iff env now v b policy hw, ← checkDsse_ok_iff]
  unfold verifyDsse
  cases verifyCommon env now v b policy <;> simp

theorem verifyDsse_parts {env : Env} {now : Time} {v : Verifier} {b : Bundle}
    {policy : Cert → Py Unit} {type_ : Str} {payload : Bytes}
    (h : verifyDsse env now v b policy = .ok (type_, payload)) :
    verifyCommon env now v b policy = .ok () ∧ DsseOk env b type_ payload := by
  rw [← checkDsse_ok_iff]
  unfold verifyDsse at h
  cases hc : verifyCommon env now v b policy with
  | error e => rw [hc] at h; simp at h
  | ok u => rw [hc] at h; exact ⟨rfl, h⟩

end Sigstore.Props
