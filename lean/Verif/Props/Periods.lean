import Verif.Spec.Periods
import Verif.Props.VerificationExamples
import Verif.Props.World

/-!
# C121: evidence counts only from signers that were trusted when they made it

False of logs and certificate authorities: the end of their validity periods is not looked at when a bundle is verified, and the
start is compared with the clock, not with the time of the evidence.
-/

namespace Sigstore.Props

open Sigstore.Trust Sigstore.LogEntry Sigstore.Dsse Sigstore.Sct Sigstore.Spec

/-- **C121** (partial) Every time that counts because of a timestamp is within the period of the trusted authority that verifies the
timestamp as one of the bundle's signature. -/
theorem C121_timestamps_partial (env : Env) (now : Time) (v : Verifier) (b : Bundle) (l : List VerifiedTime)
    (h : establishTime env now v b = .ok l) (x : VerifiedTime) (hx : x ∈ l) (hs : x.source = .timestampAuthority) :
    ∃ ca ∈ v.root.timestampAuthorities, Covers ca.validFor x.time ∧ ∃ leaf mid root tsr sig,
      ca.certificates = leaf :: (mid ++ [root]) ∧ SignatureOf b.inner sig ∧ env.verifyTsr leaf root mid tsr sig = true ∧
      x.time = tsr.genTime := by
  unfold establishTime at h
  split at h
  · cases h
  · rename_i l1 h1
    split at h
    · cases h
    · rename_i l2 h2
      cases h
      rcases List.mem_append.1 hx with hx | hx
      · obtain ⟨sig, tsr, hsig, ⟨ca, hca, leaf, mid, root, period, hc, hp, _, hv, hs, he⟩, ht⟩ := tsaTimes_sound env now v b l1 h1 x hx
        refine ⟨ca, hca, fun r hr => ?_, leaf, mid, root, tsr, sig, hc, hsig, hv, ht⟩
        rw [hp] at hr
        cases hr
        rw [ht]
        exact ⟨hs, fun e h => Int.le_of_lt (he e h)⟩
      · unfold logTime at h2
        split at h2
        · cases h2; cases hx
        · split at h2
          · split at h2
            · split at h2
              · cases h2
              · cases h2
                rw [List.mem_singleton] at hx
                subst hx
                cases hs
            · cases h2
          · cases h2; cases hx

theorem started_iff (now : Time) (p : Option TimeRange) : isTimerangeValid now p true = true ↔ Started now p := by
  unfold isTimerangeValid Started
  cases p with
  | none => simp
  | some r => simp

theorem timerange_congr {now : Time} {p p' : Option TimeRange} (h : Started now p ↔ Started now p') :
    isTimerangeValid now p true = isTimerangeValid now p' true := by
  rw [Bool.eq_iff_iff, started_iff, started_iff, h]

theorem _root_.Sigstore.Spec.SameKey.init {now : Time} {m m' : PublicKeyMsg} (h : SameKey now m m') (c : Crypto) :
    Key.init c m = Key.init c m' := by
  unfold Key.init
  rw [h.rawBytes, h.keyDetails]

theorem sameKeys_init (c : Crypto) (now : Time) : ∀ {ms ms' : List PublicKeyMsg}, List.Forall₂ (SameKey now) ms ms' → ∀ kr,
    Keyring.initFrom c kr (getTlogKeys now ms .verify) = Keyring.initFrom c kr (getTlogKeys now ms' .verify) ∧
    (getTlogKeys now ms .verify).length = (getTlogKeys now ms' .verify).length
  | [], [], .nil, _ => ⟨rfl, rfl⟩
  | m :: ms, m' :: ms', .cons h hs, kr => by
    have ih := fun kr => sameKeys_init c now hs kr
    unfold getTlogKeys at ih ⊢
    rw [List.filter_cons, List.filter_cons]
    have e : isTimerangeValid now m.validFor (decide (Purpose.verify = .verify)) =
        isTimerangeValid now m'.validFor (decide (Purpose.verify = .verify)) := timerange_congr h.started
    rw [e]
    split
    · constructor
      · rw [Keyring.initFrom, Keyring.initFrom, h.init c]
        split
        · exact (ih _).1
        · split
          · exact (ih _).1
          · rfl
      · rw [List.length_cons, List.length_cons, (ih kr).2]
    · exact ih kr

theorem _root_.Sigstore.Spec.SameButPeriods.rekorKeyring {now : Time} {root root' : TrustedRoot Cert} (h : SameButPeriods now root root')
    (c : Crypto) : Trust.rekorKeyring c now root .verify = Trust.rekorKeyring c now root' .verify := by
  unfold Trust.rekorKeyring Keyring.init
  dsimp only
  rw [(sameKeys_init c now h.tlogs []).1, (sameKeys_init c now h.tlogs []).2]

theorem _root_.Sigstore.Spec.SameButPeriods.ctKeyring {now : Time} {root root' : TrustedRoot Cert} (h : SameButPeriods now root root')
    (c : Crypto) : Trust.ctKeyring c now root .verify = Trust.ctKeyring c now root' .verify := by
  unfold Trust.ctKeyring Keyring.init
  dsimp only
  have : (getTlogKeys now root.ctlogs .verify).isEmpty = (getTlogKeys now root'.ctlogs .verify).isEmpty := by
    rw [Bool.eq_iff_iff, List.isEmpty_iff_length_eq_zero, List.isEmpty_iff_length_eq_zero, (sameKeys_init c now h.ctlogs []).2]
  rw [(sameKeys_init c now h.ctlogs []).1, this]

theorem sameAuthorities_collect (now : Time) : ∀ {as as' : List (CertificateAuthority Cert)}, List.Forall₂ (SameAuthority now) as as' →
    ∀ acc, collectFulcioCerts now acc as = collectFulcioCerts now acc as'
  | [], [], .nil, _ => rfl
  | a :: as, a' :: as', .cons h hs, acc => by
    rw [collectFulcioCerts, collectFulcioCerts]
    unfold CertificateAuthority.init
    rw [h.certificates]
    split
    · rename_i e he
      split at he
      · rename_i hc; rw [if_pos hc]; cases he; rfl
      · cases he
    · rename_i ca hca
      split at hca
      · cases hca
      · rename_i hc
        rw [if_neg hc]
        cases hca
        have : a.certs now true = a'.certs now true := by
          unfold CertificateAuthority.certs
          rw [timerange_congr h.started, h.certificates]
        dsimp only
        rw [this]
        exact sameAuthorities_collect now hs _

theorem _root_.Sigstore.Spec.SameButPeriods.establishTime {now : Time} {root root' : TrustedRoot Cert} (h : SameButPeriods now root root')
    (env : Env) (certs : List Cert) (b : Bundle) :
    Sigstore.establishTime env now ⟨root, certs⟩ b = Sigstore.establishTime env now ⟨root', certs⟩ b := by
  unfold Sigstore.establishTime tsaTimes getTimestampAuthorities
  dsimp only
  rw [h.timestampAuthorities]

theorem _root_.Sigstore.Spec.SameButPeriods.verifyCommon {now : Time} {root root' : TrustedRoot Cert} (h : SameButPeriods now root root')
    (env : Env) (certs : List Cert) (b : Bundle) (policy : Cert → Py Unit) :
    Sigstore.verifyCommon env now ⟨root, certs⟩ b policy = Sigstore.verifyCommon env now ⟨root', certs⟩ b policy := by
  unfold Sigstore.verifyCommon checkSct checkEntry
  dsimp only
  rw [h.establishTime, h.rekorKeyring, h.ctKeyring]

/-- **C121** is false of logs and certificate authorities: their validity periods do not matter at all, except for whether they
have started at the moment of the verification.  Verifiers whose roots differ in them agree on all bundles. -/
theorem C121_periods_ignored (env : Env) (now : Time) (root root' : TrustedRoot Cert) (h : SameButPeriods now root root')
    (v : Verifier) (hv : Verifier.init now root = .ok v) :
    ∃ v', Verifier.init now root' = .ok v' ∧ ∀ b policy,
      (∀ input, verifyArtifact env now v' input b policy = verifyArtifact env now v input b policy) ∧
      verifyDsse env now v' b policy = verifyDsse env now v b policy := by
  unfold Verifier.init at hv
  have e : getFulcioCerts now root = getFulcioCerts now root' := by
    unfold getFulcioCerts
    rw [sameAuthorities_collect now h.certificateAuthorities]
  rw [e] at hv
  split at hv
  · cases hv
  · rename_i certs hc
    split at hv
    · cases hv
    · rename_i m ms hm
      cases hv
      have hne : ∃ m' ms', root'.tlogs = m' :: ms' := by
        have := h.tlogs.length_eq
        rw [hm] at this
        cases hr : root'.tlogs with
        | nil => rw [hr] at this; cases this
        | cons m' ms' => exact ⟨m', ms', rfl⟩
      obtain ⟨m', ms', hm'⟩ := hne
      refine ⟨⟨root', certs⟩, ?_, fun b policy => ⟨fun input => ?_, ?_⟩⟩
      · unfold Verifier.init
        rw [hc]
        dsimp only
        rw [hm']
      · unfold verifyArtifact
        rw [h.verifyCommon]
      · unfold verifyDsse
        rw [h.verifyCommon]

/-- all periods of logs and certificate authorities replaced -/
def withPeriods (r : TimeRange) (root : TrustedRoot Cert) : TrustedRoot Cert :=
  { root with
      tlogs := root.tlogs.map fun m => { m with validFor := some r }
      ctlogs := root.ctlogs.map fun m => { m with validFor := some r }
      certificateAuthorities := root.certificateAuthorities.map fun a => { a with validFor := some r } }

/-- a root whose keys and authorities have all started is the same up to periods for every period that has started -/
theorem sameButPeriods_withPeriods (now : Time) (root : TrustedRoot Cert) (r : TimeRange) (hr : r.start ≤ now)
    (h1 : ∀ m ∈ root.tlogs, Started now m.validFor) (h2 : ∀ m ∈ root.ctlogs, Started now m.validFor)
    (h3 : ∀ a ∈ root.certificateAuthorities, Started now a.validFor) : SameButPeriods now root (withPeriods r root) := by
  have hs : Started now (some r) := by rintro _ ⟨⟩; exact hr
  have keys : ∀ ms : List PublicKeyMsg, (∀ m ∈ ms, Started now m.validFor) →
      List.Forall₂ (SameKey now) ms (ms.map fun m => { m with validFor := some r }) := by
    intro ms
    induction ms with
    | nil => intro _; exact .nil
    | cons m ms ih => exact fun h => .cons ⟨rfl, rfl, iff_of_true (h m (.head _)) hs⟩ (ih fun x hx => h x (.tail _ hx))
  have auth : ∀ as : List (CertificateAuthority Cert), (∀ a ∈ as, Started now a.validFor) →
      List.Forall₂ (SameAuthority now) as (as.map fun a => { a with validFor := some r }) := by
    intro as
    induction as with
    | nil => intro _; exact .nil
    | cons a as ih => exact fun h => .cons ⟨rfl, iff_of_true (h a (.head _)) hs⟩ (ih fun x hx => h x (.tail _ hx))
  exact ⟨keys _ h1, keys _ h2, auth _ h3, rfl⟩

/-- **C121** refuted: a bundle is accepted although the log's time, which counts, is neither within the period of the only log, nor
of any CT log, nor of any certificate authority: either all of them had been retired before, or none had started yet. -/
theorem C121_outside_periods : ∃ (env : Env) (now : Time) (root root' : TrustedRoot Cert) (v v' : Verifier) (b : Bundle)
    (policy : Cert → Py Unit) (input : HashInput) (l : List VerifiedTime) (x : VerifiedTime),
    Verifier.init now root = .ok v ∧ verifyArtifact env now v input b policy = .ok () ∧
    Verifier.init now root' = .ok v' ∧ verifyArtifact env now v' input b policy = .ok () ∧
    establishTime env now v b = .ok l ∧ establishTime env now v' b = .ok l ∧ x ∈ l ∧ x.source = .transparencyService ∧
    (∀ p, p ∈ root.tlogs.map (·.validFor) ++ root.ctlogs.map (·.validFor) ++ root.certificateAuthorities.map (·.validFor) →
      ∃ r e, p = some r ∧ r.stop = some e ∧ e < x.time) ∧
    ∀ p, p ∈ root'.tlogs.map (·.validFor) ++ root'.ctlogs.map (·.validFor) ++ root'.certificateAuthorities.map (·.validFor) →
      ∃ r, p = some r ∧ x.time < r.start := by
  have hv : Verifier.init 3000000000 exRoot = .ok exVerifier := rfl
  have same : ∀ r : TimeRange, r.start ≤ 3000000000 → SameButPeriods 3000000000 exRoot (withPeriods r exRoot) := by
    intro r hr
    refine sameButPeriods_withPeriods _ _ r hr ?_ ?_ ?_
    all_goals
      intro m hm
      rw [← started_iff]
      revert m
      decide
  have member : ∀ (r : TimeRange) (p : Option TimeRange), p ∈ (withPeriods r exRoot).tlogs.map (·.validFor) ++
      (withPeriods r exRoot).ctlogs.map (·.validFor) ++ (withPeriods r exRoot).certificateAuthorities.map (·.validFor) →
      p = some r := by
    intro r p hp
    simp only [withPeriods, List.map_map, List.mem_append, List.mem_map, Function.comp] at hp
    rcases hp with (⟨_, _, h⟩ | ⟨_, _, h⟩) | ⟨_, _, h⟩ <;> exact h.symm
  have h1 := same ⟨0, some 1⟩ (by decide)
  have h2 := same ⟨2000000000, none⟩ (by decide)
  refine ⟨exVEnv, 3000000000, withPeriods ⟨0, some 1⟩ exRoot, withPeriods ⟨2000000000, none⟩ exRoot,
    ⟨withPeriods ⟨0, some 1⟩ exRoot, [exIssuer]⟩, ⟨withPeriods ⟨2000000000, none⟩ exRoot, [exIssuer]⟩, exBundle, fun _ => .ok (),
    .bytes exArtifact, [⟨.timestampAuthority, 1000000007⟩, ⟨.transparencyService, 1500000000⟩], ⟨.transparencyService, 1500000000⟩,
    rfl, ?_, rfl, ?_, by decide, by decide, by decide, rfl, ?_, ?_⟩
  · have := exArtifact_accepted
    unfold verifyArtifact exVerifier at this
    rw [h1.verifyCommon] at this
    exact this
  · have := exArtifact_accepted
    unfold verifyArtifact exVerifier at this
    rw [h2.verifyCommon] at this
    exact this
  · exact fun p hp => ⟨_, 1, member _ p hp, rfl, by decide⟩
  · exact fun p hp => ⟨_, member _ p hp, by decide⟩

end Sigstore.Props
