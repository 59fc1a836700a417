import Verif.Spec.MovingClock
import Verif.Props.VerificationExamples

/-!
# C128: the clock moves during a verification
-/

namespace Sigstore.Props

open Sigstore.Trust Sigstore.LogEntry Sigstore.Dsse Sigstore.Spec

/-! ## Nothing begins in between -/

theorem valid_same {now now' : Time} {p : Option TimeRange} (h : ∀ r, p = some r → (now < r.start ↔ now' < r.start)) :
    isTimerangeValid now p true = isTimerangeValid now' p true := by
  cases p with
  | none => rfl
  | some r =>
    have := h r rfl
    unfold isTimerangeValid
    by_cases h1 : now < r.start
    · simp [h1, this.mp h1]
    · simp [h1, mt this.mpr h1]

theorem getTlogKeys_still {clock : Nat → Time} {now : Time} : ∀ {l : List PublicKeyMsg} {i : Nat},
    (∀ i, ∀ k ∈ l, ∀ r, k.validFor = some r → (clock i < r.start ↔ now < r.start)) →
    MovingClock.getTlogKeys clock .verify i l = getTlogKeys now l .verify
  | [], _, _ => rfl
  | k :: l, i, h => by
    have ih := getTlogKeys_still (l := l) (i := i + 1) (fun j k' hk => h j k' (List.mem_cons_of_mem _ hk))
    have hv := valid_same (p := k.validFor) (fun r hr => h i k List.mem_cons_self r hr)
    unfold MovingClock.getTlogKeys
    unfold getTlogKeys at ih ⊢
    rw [List.filter_cons, ih]
    simp only [decide_true] at hv ⊢
    rw [hv]

theorem collect_still {clock : MovingClock.Clock} {now : Time} : ∀ {l : List (CertificateAuthority Cert)} {i : Nat} {acc : List Cert},
    (∀ i, ∀ a ∈ l, ∀ r, a.validFor = some r → (clock (.ca i) < r.start ↔ now < r.start)) →
    MovingClock.collectFulcioCerts clock acc i l = collectFulcioCerts now acc l
  | [], _, _, _ => rfl
  | a :: l, i, acc, h => by
    unfold MovingClock.collectFulcioCerts collectFulcioCerts
    have hv := valid_same (p := a.validFor) (fun r hr => h i a List.mem_cons_self r hr)
    unfold CertificateAuthority.init
    by_cases he : a.certificates.isEmpty
    · simp [he]
    · simp only [he, Bool.false_eq_true, if_false]
      have hc : a.certs (clock (.ca i)) true = a.certs now true := by
        unfold CertificateAuthority.certs
        rw [hv]
      rw [hc]
      exact collect_still (fun j a' ha => h j a' (List.mem_cons_of_mem _ ha))

theorem signed_still {env : Env} {clock : MovingClock.Clock} {now : Time} {t : Nat} {tsr : Tsr} {message : Bytes} :
    ∀ {l : List (CertificateAuthority Cert)} {i : Nat},
    (∀ i, ∀ a ∈ l, ∀ r, a.validFor = some r → (clock (.tsa t i) < r.start ↔ now < r.start)) →
    MovingClock.verifySignedTimestamp env clock t tsr message i l = verifySignedTimestamp env now tsr message l
  | [], _, _ => rfl
  | a :: l, i, h => by
    have ih := signed_still (env := env) (clock := clock) (now := now) (t := t) (tsr := tsr) (message := message) (l := l) (i := i + 1)
      (fun j a' ha => h j a' (List.mem_cons_of_mem _ ha))
    have hc : a.certs (clock (.tsa t i)) true = a.certs now true := by
      unfold CertificateAuthority.certs
      rw [valid_same (p := a.validFor) (fun r hr => h i a List.mem_cons_self r hr)]
    rw [MovingClock.verifySignedTimestamp.eq_def, verifySignedTimestamp.eq_def]
    dsimp only
    rw [hc, ih]
    rcases a.certs now true with _ | ⟨c1, _ | ⟨c2, cs⟩⟩ <;> rfl

theorem timestamps_still {env : Env} {clock : MovingClock.Clock} {now : Time} {cas : List (CertificateAuthority Cert)} {sig : Py Bytes}
    (h : ∀ t i, ∀ a ∈ cas, ∀ r, a.validFor = some r → (clock (.tsa t i) < r.start ↔ now < r.start)) :
    ∀ {l : List Tsr} {t : Nat}, MovingClock.verifyTimestamps env clock cas sig t l = verifyTimestamps env now cas sig l
  | [], _ => rfl
  | tsr :: l, t => by
    unfold MovingClock.verifyTimestamps verifyTimestamps
    rw [timestamps_still h]
    cases sig with
    | error e => rfl
    | ok s =>
      simp only [signed_still (h t)]
      rfl

theorem mapM_init {l l' : List (CertificateAuthority Cert)} (h : l.mapM CertificateAuthority.init = (.ok l' : Py _)) : l' = l := by
  induction l generalizing l' with
  | nil => cases h; rfl
  | cons a l ih =>
    rw [List.mapM_cons] at h
    unfold CertificateAuthority.init at h
    by_cases he : a.certificates.isEmpty
    · simp [he, bind, Except.bind] at h
    · simp only [he, Bool.false_eq_true, if_false, bind, Except.bind] at h
      split at h
      · cases h
      · rename_i v hv
        cases h
        rw [ih hv]

theorem common_still {env : Env} {clock : MovingClock.Clock} {now : Time} {v : Verifier} (h : NothingBegins v.root clock now)
    (b : Bundle) (policy : Cert → Py Unit) :
    MovingClock.verifyCommon env clock v b policy = verifyCommon env now v b policy := by
  have hk : ∀ k ∈ v.root.tlogs ++ v.root.ctlogs, ∀ r, k.validFor = some r → ∀ x, (clock x < r.start ↔ now < r.start) :=
    fun k hk r hr x => h x _ ⟨r, rfl, .inl ⟨k, hk, hr⟩⟩
  have ha : ∀ a ∈ v.root.certificateAuthorities ++ v.root.timestampAuthorities, ∀ r, a.validFor = some r →
      ∀ x, (clock x < r.start ↔ now < r.start) := fun a ha r hr x => h x _ ⟨r, rfl, .inr ⟨a, ha, hr⟩⟩
  have h1 : MovingClock.establishTime env clock v b = establishTime env now v b := by
    unfold MovingClock.establishTime establishTime
    have : MovingClock.tsaTimes env clock v b = tsaTimes env now v b := by
      unfold MovingClock.tsaTimes tsaTimes
      rcases timestampData env b.inner with e | _ | ⟨t, ts⟩
      · rfl
      · rfl
      · dsimp only
        rcases hg : getTimestampAuthorities v.root with e | _ | ⟨ca, cas⟩
        · rfl
        · rfl
        · dsimp only
          unfold MovingClock.verifyTimestampAuthority verifyTimestampAuthority
          rw [timestamps_still]
          intro t' i a hm r hr
          refine ha a (List.mem_append_right _ ?_) r hr _
          rw [← mapM_init hg]
          exact hm
    rw [this]
    rfl
  have h2 : ∀ cert chain, MovingClock.checkSct env clock v cert chain = checkSct env now v cert chain := by
    intro cert chain
    unfold MovingClock.checkSct checkSct MovingClock.ctKeyring ctKeyring
    rw [getTlogKeys_still (fun i k hm r hr => hk k (List.mem_append_right _ hm) r hr _)]
    rfl
  have h3 : ∀ e, MovingClock.checkEntry env clock v e = checkEntry env now v e := by
    intro e
    unfold MovingClock.checkEntry checkEntry MovingClock.rekorKeyring rekorKeyring
    rw [getTlogKeys_still (fun i k hm r hr => hk k (List.mem_append_left _ hm) r hr _)]
    rfl
  unfold MovingClock.verifyCommon verifyCommon
  simp only [h1, h2, h3]
  rfl

theorem init_still {clock : MovingClock.Clock} {now : Time} {root : TrustedRoot Cert} (h : NothingBegins root clock now) :
    MovingClock.init clock root = Verifier.init now root := by
  unfold MovingClock.init Verifier.init MovingClock.getFulcioCerts getFulcioCerts
  rw [collect_still (now := now) (fun i a hm r hr => h (.ca i) _ ⟨r, rfl, .inr ⟨a, List.mem_append_left _ hm, hr⟩⟩)]
  rfl

theorem init_root {now : Time} {root : TrustedRoot Cert} {v : Verifier} (h : Verifier.init now root = .ok v) : v.root = root := by
  unfold Verifier.init at h
  split at h
  · cases h
  · split at h
    · cases h
    · cases h
      rfl

theorem init_root' {clock : MovingClock.Clock} {root : TrustedRoot Cert} {v : Verifier} (h : MovingClock.init clock root = .ok v) :
    v.root = root := by
  unfold MovingClock.init at h
  split at h
  · cases h
  · split at h
    · cases h
    · cases h
      rfl

/-- **C128**: as long as nothing in the trusted root begins to be valid in between, it makes no difference that the clock moves during
the making of a verifier and the verification of an artifact or an attestation: the outcome is that with all readings at `now` (the
simplification of all other theorems about verification). -/
theorem C128_still (env : Env) (clock : MovingClock.Clock) (now : Time) (root : TrustedRoot Cert) (h : NothingBegins root clock now)
    (b : Bundle) (policy : Cert → Py Unit) :
    MovingClock.init clock root = Verifier.init now root ∧
    ∀ v, Verifier.init now root = .ok v →
      (∀ input, MovingClock.artifactRun env clock root input b policy = verifyArtifact env now v input b policy) ∧
      MovingClock.dsseRun env clock root b policy = verifyDsse env now v b policy := by
  refine ⟨init_still h, fun v hv => ?_⟩
  have hr := init_root hv
  have hc := common_still (env := env) (v := v) (by rw [hr]; exact h) b policy
  constructor
  · intro input
    unfold MovingClock.artifactRun
    rw [init_still h, hv]
    dsimp only
    unfold MovingClock.verifyArtifact verifyArtifact
    rw [hc]
    rfl
  · unfold MovingClock.dsseRun
    rw [init_still h, hv]
    dsimp only
    unfold MovingClock.verifyDsse verifyDsse
    rw [hc]
    rfl

/-! ## What is not yet valid has no influence -/

theorem future_invalid {now latest : Time} {p : Option TimeRange} {r : TimeRange} (hp : p = some r) (h : latest < r.start)
    (hn : now ≤ latest) (a : Bool) : isTimerangeValid now p a = false := by
  subst hp
  unfold isTimerangeValid
  simp [show now < r.start from lt_of_le_of_lt hn h]

theorem getTlogKeys_until {clock : Nat → Time} {latest : Time} {purpose : Purpose} (hl : ∀ i, clock i ≤ latest) :
    ∀ {l l' : List PublicKeyMsg} {i : Nat}, List.Forall₂ (SameKeyUntil latest) l l' →
    MovingClock.getTlogKeys clock purpose i l = MovingClock.getTlogKeys clock purpose i l'
  | _, _, _, .nil => rfl
  | _, _, i, .cons (a := k) (b := k') h t => by
    unfold MovingClock.getTlogKeys
    rw [getTlogKeys_until hl t]
    rcases h with rfl | ⟨r, r', hr, hr', h1, h2⟩
    · rfl
    · rw [future_invalid hr h1 (hl i), future_invalid hr' h2 (hl i)]
      rfl

theorem init_nonempty {a : CertificateAuthority Cert} (h : a.certificates ≠ []) : a.init = .ok a := by
  unfold CertificateAuthority.init
  cases hc : a.certificates with
  | nil => exact absurd hc h
  | cons c cs => rfl

theorem collect_until {clock : MovingClock.Clock} {latest : Time} (hl : ∀ r, clock r ≤ latest) :
    ∀ {l l' : List (CertificateAuthority Cert)} {i : Nat} {acc : List Cert}, List.Forall₂ (SameAuthorityUntil latest) l l' →
    MovingClock.collectFulcioCerts clock acc i l = MovingClock.collectFulcioCerts clock acc i l'
  | _, _, _, _, .nil => rfl
  | _, _, i, acc, .cons (a := a) (b := a') h t => by
    unfold MovingClock.collectFulcioCerts
    rcases h with rfl | ⟨r, r', hr, hr', h1, h2, h3, h4⟩
    · rcases a.init with e | ca
      · rfl
      · exact collect_until hl t
    · rw [init_nonempty h3, init_nonempty h4]
      dsimp only
      unfold CertificateAuthority.certs
      rw [future_invalid hr h1 (hl _), future_invalid hr' h2 (hl _)]
      exact collect_until hl t

theorem signed_until {env : Env} {clock : MovingClock.Clock} {latest : Time} {t : Nat} {tsr : Tsr} {message : Bytes}
    (hl : ∀ r, clock r ≤ latest) : ∀ {l l' : List (CertificateAuthority Cert)} {i : Nat},
    List.Forall₂ (SameAuthorityUntil latest) l l' →
    MovingClock.verifySignedTimestamp env clock t tsr message i l = MovingClock.verifySignedTimestamp env clock t tsr message i l'
  | _, _, _, .nil => rfl
  | _, _, i, .cons (a := a) (b := a') (l₁ := l) (l₂ := l') h tl => by
    have ih := signed_until (env := env) (t := t) (tsr := tsr) (message := message) hl (i := i + 1) tl
    rw [MovingClock.verifySignedTimestamp.eq_def, MovingClock.verifySignedTimestamp.eq_def env clock t tsr message i (a' :: l')]
    dsimp only
    rw [ih]
    rcases h with rfl | ⟨r, r', hr, hr', h1, h2, h3, h4⟩
    · rfl
    · unfold CertificateAuthority.certs
      rw [future_invalid hr h1 (hl _), future_invalid hr' h2 (hl _)]
      rfl

theorem timestamps_until {env : Env} {clock : MovingClock.Clock} {latest : Time} (hl : ∀ r, clock r ≤ latest)
    {cas cas' : List (CertificateAuthority Cert)} (h : List.Forall₂ (SameAuthorityUntil latest) cas cas') {sig : Py Bytes} :
    ∀ {l : List Tsr} {t : Nat}, MovingClock.verifyTimestamps env clock cas sig t l = MovingClock.verifyTimestamps env clock cas' sig t l
  | [], _ => rfl
  | tsr :: l, t => by
    unfold MovingClock.verifyTimestamps
    rw [timestamps_until hl h]
    cases sig with
    | error e => rfl
    | ok s => simp only [signed_until hl h]

theorem tsas_until {latest : Time} : ∀ {l l' : List (CertificateAuthority Cert)}, List.Forall₂ (SameAuthorityUntil latest) l l' →
    (∃ e, l.mapM CertificateAuthority.init = (.error e : Py _) ∧ l'.mapM CertificateAuthority.init = (.error e : Py _)) ∨
    (l.mapM CertificateAuthority.init = (.ok l : Py _) ∧ l'.mapM CertificateAuthority.init = (.ok l' : Py _))
  | _, _, .nil => .inr ⟨rfl, rfl⟩
  | _, _, .cons (a := a) (b := a') h t => by
    have key : (∃ e, a.init = .error e ∧ a'.init = .error e) ∨ (a.init = .ok a ∧ a'.init = .ok a') := by
      rcases h with rfl | ⟨r, r', hr, hr', h1, h2, h3, h4⟩
      · unfold CertificateAuthority.init
        split
        · exact .inl ⟨_, rfl, rfl⟩
        · exact .inr ⟨rfl, rfl⟩
      · exact .inr ⟨init_nonempty h3, init_nonempty h4⟩
    rw [List.mapM_cons, List.mapM_cons]
    rcases key with ⟨e, h1, h2⟩ | ⟨h1, h2⟩
    · exact .inl ⟨e, by rw [h1]; rfl, by rw [h2]; rfl⟩
    · rw [h1, h2]
      rcases tsas_until t with ⟨e, h3, h4⟩ | ⟨h3, h4⟩
      · exact .inl ⟨e, by rw [h3]; rfl, by rw [h4]; rfl⟩
      · exact .inr ⟨by rw [h3]; rfl, by rw [h4]; rfl⟩

theorem common_until {env : Env} {clock : MovingClock.Clock} {latest : Time} (hl : ∀ r, clock r ≤ latest) {root root' : TrustedRoot Cert}
    (h : SameUntil latest root root') (certs : List Cert) (b : Bundle) (policy : Cert → Py Unit) :
    MovingClock.verifyCommon env clock ⟨root, certs⟩ b policy = MovingClock.verifyCommon env clock ⟨root', certs⟩ b policy := by
  have h1 : MovingClock.establishTime env clock ⟨root, certs⟩ b = MovingClock.establishTime env clock ⟨root', certs⟩ b := by
    unfold MovingClock.establishTime
    have : MovingClock.tsaTimes env clock ⟨root, certs⟩ b = MovingClock.tsaTimes env clock ⟨root', certs⟩ b := by
      unfold MovingClock.tsaTimes getTimestampAuthorities
      rcases timestampData env b.inner with e | _ | ⟨t, ts⟩
      · rfl
      · rfl
      · dsimp only
        rcases tsas_until h.tsas with ⟨e, h1, h2⟩ | ⟨h1, h2⟩
        · rw [h1, h2]
        · rw [h1, h2]
          have ht := h.tsas
          generalize root.timestampAuthorities = l at ht
          generalize root'.timestampAuthorities = l' at ht
          cases ht with
          | nil => rfl
          | cons ha hb =>
            dsimp only
            unfold MovingClock.verifyTimestampAuthority
            rw [timestamps_until hl (.cons ha hb)]
    rw [this]
  have h2 : ∀ cert chain, MovingClock.checkSct env clock ⟨root, certs⟩ cert chain =
      MovingClock.checkSct env clock ⟨root', certs⟩ cert chain := by
    intro cert chain
    unfold MovingClock.checkSct MovingClock.ctKeyring
    dsimp only
    rw [getTlogKeys_until (fun i => hl (.ct i)) h.ctlogs]
  have h3 : ∀ e, MovingClock.checkEntry env clock ⟨root, certs⟩ e = MovingClock.checkEntry env clock ⟨root', certs⟩ e := by
    intro e
    unfold MovingClock.checkEntry MovingClock.rekorKeyring
    dsimp only
    rw [getTlogKeys_until (fun i => hl (.tlog i)) h.tlogs]
  unfold MovingClock.verifyCommon
  simp only [h1, h2, h3]

/-- **C128**: however the clock moves, what is not yet valid at any of its readings has no influence: keys of logs and certificates of
authorities whose validity begins after `latest` may be exchanged for others. -/
theorem C128_future (env : Env) (clock : MovingClock.Clock) (latest : Time) (hl : ∀ r, clock r ≤ latest) (root root' : TrustedRoot Cert)
    (h : SameUntil latest root root') (b : Bundle) (policy : Cert → Py Unit) :
    (∀ input, MovingClock.artifactRun env clock root input b policy = MovingClock.artifactRun env clock root' input b policy) ∧
    MovingClock.dsseRun env clock root b policy = MovingClock.dsseRun env clock root' b policy := by
  have hi : (∃ e, MovingClock.init clock root = .error e ∧ MovingClock.init clock root' = .error e) ∨
      ∃ certs, MovingClock.init clock root = .ok ⟨root, certs⟩ ∧ MovingClock.init clock root' = .ok ⟨root', certs⟩ := by
    unfold MovingClock.init MovingClock.getFulcioCerts
    rw [collect_until hl h.cas]
    rcases MovingClock.collectFulcioCerts clock [] 0 root'.certificateAuthorities with e | _ | ⟨c, cs⟩
    · exact .inl ⟨_, rfl, rfl⟩
    · exact .inl ⟨_, rfl, rfl⟩
    · dsimp only
      have ht := h.tlogs
      generalize hl1 : root.tlogs = l at ht
      generalize hl2 : root'.tlogs = l' at ht
      cases ht with
      | nil => exact .inl ⟨_, rfl, rfl⟩
      | cons _ _ => exact .inr ⟨_, rfl, rfl⟩
  unfold MovingClock.artifactRun MovingClock.dsseRun
  rcases hi with ⟨e, h1, h2⟩ | ⟨certs, h1, h2⟩
  · rw [h1, h2]
    exact ⟨fun _ => rfl, rfl⟩
  · rw [h1, h2]
    dsimp only
    unfold MovingClock.verifyArtifact MovingClock.verifyDsse
    rw [common_until hl h certs b policy]
    exact ⟨fun _ => rfl, rfl⟩

/-! ## Examples -/

/-- a clock that advances from 3000 to 3001 seconds, and is set back by a second for the timestamps -/
def exMovingClock : MovingClock.Clock
  | .ca _ => 3000000000
  | .tsa _ _ => 2999000000
  | .ct i => if i = 0 then 3000500000 else 3000600000
  | .tlog _ => 3001000000

theorem exNothingBegins : NothingBegins exRoot exMovingClock 3000000000 := by
  rintro x s ⟨r, rfl, h⟩
  have hs : r.start = 0 := by
    rcases h with ⟨k, hk, hr⟩ | ⟨a, ha, hr⟩
    · have : ∀ k ∈ exRoot.tlogs ++ exRoot.ctlogs, ∀ r, k.validFor = some r → r.start = 0 := by
        intro k hk
        have := (show ∀ k ∈ exRoot.tlogs ++ exRoot.ctlogs, (k.validFor.map (·.start)).getD 0 = 0 by decide) k hk
        intro r hr
        rw [hr] at this
        exact this
      exact this k hk r hr
    · simp only [exRoot, List.cons_append, List.nil_append, List.mem_cons, List.not_mem_nil, or_false] at ha
      rcases ha with rfl | rfl <;> (cases hr; rfl)
  rw [hs]
  cases x <;> (dsimp only [exMovingClock]; (try split) <;> decide)

/-- the example artifact is accepted while the clock moves -/
example : MovingClock.artifactRun exVEnv exMovingClock exRoot (.bytes exArtifact) exBundle (fun _ => .ok ()) = .ok () := by
  rw [((C128_still exVEnv _ _ _ exNothingBegins exBundle (fun _ => .ok ())).2 exVerifier rfl).1]
  exact exArtifact_accepted

/-- a log whose key becomes valid between two readings: the clock matters then -/
example : MovingClock.getTlogKeys (fun i => if i = 0 then 0 else 2) .verify 0
      [⟨some [1], .pkixEd25519, some ⟨1, none⟩⟩, ⟨some [2], .pkixEd25519, some ⟨1, none⟩⟩] =
    [⟨some [2], .pkixEd25519, some ⟨1, none⟩⟩] := by decide

/-- a log that is not yet valid may have any key -/
example (key : Bytes) : MovingClock.artifactRun exVEnv exMovingClock
      { exRoot with tlogs := exRoot.tlogs ++ [⟨some key, .pkixEd25519, some ⟨4000000000, none⟩⟩] } (.bytes exArtifact) exBundle (fun _ => .ok ()) =
    MovingClock.artifactRun exVEnv exMovingClock
      { exRoot with tlogs := exRoot.tlogs ++ [⟨some [4, 20, 0, 0], .pkixEd25519, some ⟨5000000000, none⟩⟩] } (.bytes exArtifact) exBundle
      (fun _ => .ok ()) := by
  refine (C128_future exVEnv exMovingClock 3900000000 ?_ _ _ ⟨?_, ?_, ?_, ?_⟩ exBundle _).1 _
  · intro r
    cases r <;> (simp only [exMovingClock]; (try split) <;> omega)
  · exact .cons (.inl rfl) (.cons (.inr ⟨_, _, rfl, rfl, by decide, by decide⟩) .nil)
  · exact List.forall₂_same.mpr fun _ _ => .inl rfl
  · exact List.forall₂_same.mpr fun _ _ => .inl rfl
  · exact List.forall₂_same.mpr fun _ _ => .inl rfl

end Sigstore.Props
