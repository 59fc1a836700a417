import Verif.Props.Growth
import Verif.Props.WorldExamples

/-!
# C78, C79: where accepted bundles stop being accepted, and where they do not
-/

namespace Sigstore.Props

open Sigstore.Trust Sigstore.LogEntry Sigstore.Dsse Sigstore.Sct Sigstore.Spec Sigstore.Merkle

/-- the certificate of a second timestamp authority -/
def gLeaf : Cert := { exLeafCert with der := [5] }

/-- a second timestamp authority, which starts later -/
def gTsa : CertificateAuthority Cert := ⟨some ⟨3500000000, none⟩, [gLeaf, exCaCert]⟩

/-- the two authorities verify one timestamp each; that of the second is later than the certificate's end -/
def gEnv : Env :=
  { exVEnv with
      decodeTsr := fun b => match b with | [n] => some ⟨[n], if n = 7 then 1000000007 else 3600000000⟩ | _ => none
      verifyTsr := fun leaf _ _ t _ => if leaf = gLeaf then t.raw == [13] else t.raw == [7] }

/-- the trusted root with both authorities -/
def gRoot : TrustedRoot Cert := { exRoot with timestampAuthorities := exRoot.timestampAuthorities ++ [gTsa] }

theorem gAccepted (now : Time) (root : TrustedRoot Cert) (hr : root = exRoot ∨ root = gRoot)
    (ht : establishTime gEnv now ⟨root, [exIssuer]⟩ exBundle =
      .ok [⟨.timestampAuthority, 1000000007⟩, ⟨.transparencyService, 1500000000⟩]) (hn : now = 3000000000 ∨ now = 4000000000) :
    verifyArtifact gEnv now ⟨root, [exIssuer]⟩ (.bytes exArtifact) exBundle (fun _ => .ok ()) = .ok () := by
  have hc : verifyCommon gEnv now ⟨root, [exIssuer]⟩ exBundle (fun _ => .ok ()) = .ok () := by
    rw [verifyCommon_steps]
    refine ⟨_, ht, by decide, ?_, ⟨1500000000, [exIssuer], by decide, ?_, ?_⟩, ?_, rfl, ?_, by decide⟩
    · intro t ht
      have ht : t = 1000000007 ∨ t = 1500000000 := by simpa [timesOf] using ht
      rcases ht with rfl | rfl <;> rcases hr with rfl | rfl <;> exact ⟨[exIssuer], by decide⟩
    · rcases hr with rfl | rfl <;> decide
    · rw [← checkSct_ok_iff gEnv now ⟨root, [exIssuer]⟩]
      rcases hr with rfl | rfl <;> rcases hn with rfl | rfl <;> decide
    · exact ⟨⟨⟨true, false⟩, rfl, rfl⟩, [.codeSigning], rfl, by simp⟩
    · have h3 : EntryOk gEnv 3000000000 exRoot (exLogged "hashedrekord".toList "0.0.1".toList) := exEntryOk _ _
      rcases hr with rfl | rfl <;> rcases hn with rfl | rfl <;> exact h3
  unfold verifyArtifact
  rw [hc]
  decide

theorem gRejected : verifyArtifact gEnv 4000000000 ⟨gRoot, [exIssuer]⟩ (.bytes exArtifact) exBundle (fun _ => .ok ()) ≠ .ok () := by
  intro h
  obtain ⟨l, hl, _, _, _, _, _, _, hwin⟩ := (verifyCommon_steps _ _ _ _ _).1 (verifyArtifact_parts h).1
  have : establishTime gEnv 4000000000 ⟨gRoot, [exIssuer]⟩ exBundle =
      .ok [⟨.timestampAuthority, 1000000007⟩, ⟨.timestampAuthority, 3600000000⟩, ⟨.transparencyService, 1500000000⟩] := by decide
  rw [this, Except.ok.injEq] at hl
  subst hl
  exact absurd (hwin 3600000000 (by decide)).2 (by decide)

/-- **C78** (refuted) A bundle that verifies may fail later with the same trusted root: a timestamp that no authority vouched
for becomes trusted when an authority's period starts, and its time is outside the certificate's validity. -/
theorem C78_rejected_later :
    ∃ (env : Env) (root : TrustedRoot Cert) (now now' : Time) (v : Verifier) (input : HashInput) (b : Bundle)
      (policy : Cert → Py Unit), now ≤ now' ∧ Verifier.init now root = .ok v ∧ Verifier.init now' root = .ok v ∧
      verifyArtifact env now v input b policy = .ok () ∧ verifyArtifact env now' v input b policy ≠ .ok () :=
  ⟨gEnv, gRoot, 3000000000, 4000000000, ⟨gRoot, [exIssuer]⟩, .bytes exArtifact, exBundle, _, by decide, rfl, rfl,
    gAccepted _ _ (.inr rfl) (by decide) (.inl rfl), gRejected⟩

/-- **C79** (refuted) A bundle that verifies may fail when a timestamp authority is added to the trusted root. -/
theorem C79_rejected_with_more_trust :
    ∃ (env : Env) (now : Time) (v v' : Verifier) (input : HashInput) (b : Bundle) (policy : Cert → Py Unit), Extends v v' ∧
      v.fulcioCerts = v'.fulcioCerts ∧ verifyArtifact env now v input b policy = .ok () ∧
      verifyArtifact env now v' input b policy ≠ .ok () :=
  ⟨gEnv, 4000000000, ⟨exRoot, [exIssuer]⟩, ⟨gRoot, [exIssuer]⟩, .bytes exArtifact, exBundle, _,
    ⟨fun _ h => h, fun _ h => h, fun _ h => List.mem_append_left _ h⟩, rfl,
    gAccepted _ _ (.inl rfl) (by decide) (.inr rfl), gRejected⟩

theorem wNames : NamesItsLogs (wCrypto false) 6000000000 wRoot wBundle := by
  refine ⟨⟨_, List.mem_singleton.2 rfl, wLogKey, .ed25519, ⟨_, rfl, by simp, rfl, .ed25519, .ed25519⟩, rfl⟩, ?_⟩
  intro scts h sct hs
  have h := Option.some.inj h
  subst h
  rw [List.mem_singleton] at hs
  subst hs
  exact ⟨_, List.mem_singleton.2 rfl, wCtKey, .ed25519, ⟨_, rfl, by simp, rfl, .ed25519, .ed25519⟩, rfl⟩

theorem wUnambiguous (raws : List Bytes) (hr : (raws.map pad32).Nodup) :
    Unambiguous (wCrypto false) (raws.map fun r => ⟨some r, .pkixEd25519, some ⟨0, none⟩⟩) := by
  intro m hm m' hm' key s key' s' hd hd' he
  obtain ⟨r, hr1, rfl⟩ := List.mem_map.1 hm
  obtain ⟨r', hr1', rfl⟩ := List.mem_map.1 hm'
  obtain ⟨rfl, rfl⟩ := wDenotes hd
  obtain ⟨rfl, rfl⟩ := wDenotes hd'
  have : r = r' := List.inj_on_of_nodup_map hr hr1 hr1' he
  subst this
  exact ⟨rfl, rfl⟩

/-- **C78** is not vacuous: the bundle of `WorldExamples` verifies at any later time -/
example (now' : Time) (h : 6000000000 ≤ now') :
    ∃ v', Verifier.init now' wRoot = .ok v' ∧ verifyArtifact (wEnv false) now' v' (.bytes exArtifact) wBundle
      (Sigstore.Policy.Policy.identity "me".toList (some "https://i".toList)).verify = .ok () :=
  C78_artifact_stays_accepted_partial (wEnv false) 6000000000 now' h wRoot (by decide)
    (by intro ca hca r hr
        rw [show wRoot.certificateAuthorities = [⟨some ⟨0, none⟩, [exIssuer]⟩] from rfl, List.mem_singleton] at hca
        subst hca
        have := Option.some.inj hr
        subst this
        decide)
    (wUnambiguous [[4, 20, 0, 0]] (by decide)) (wUnambiguous [[4, 30]] (by decide)) wVerifier rfl _ wBundle _ wNames
    (by intro raw _ t ht
        have := Option.some.inj ht
        subst this
        show (1000000007 : Int) ≤ 6000000000
        decide) wArtifact_accepted

/-- the verifier with another log and another timestamp authority, which vouches for nothing -/
def wMore : Verifier :=
  ⟨{ wRoot with
      tlogs := [[4, 21], [4, 20, 0, 0]].map fun r => ⟨some r, .pkixEd25519, some ⟨0, none⟩⟩
      timestampAuthorities := wRoot.timestampAuthorities ++ [⟨some ⟨2000000000, none⟩, [gLeaf, exCaCert]⟩] }, [exIssuer]⟩

/-- **C79** is not vacuous -/
example : verifyArtifact (wEnv false) 6000000000 wMore (.bytes exArtifact) wBundle
      (Sigstore.Policy.Policy.identity "me".toList (some "https://i".toList)).verify = .ok () :=
  C79_artifact_stays_accepted_partial (wEnv false) 6000000000 wVerifier wMore
    ⟨fun m h => List.mem_cons_of_mem _ h, fun _ h => h, fun _ h => List.mem_append_left _ h⟩ (by decide)
    (wUnambiguous [[4, 21], [4, 20, 0, 0]] (by decide)) (wUnambiguous [[4, 30]] (by decide)) _ wBundle _ wNames
    (by intro ca hca hn raw _ t sig hd _ hv
        rcases List.mem_append.1 hca with h | h
        · exact hn h
        · rw [List.mem_singleton] at h
          subst h
          have := Option.some.inj hd
          subst this
          obtain ⟨_, _, _, p, _, hp, _, _, h5, _⟩ := hv
          have := Option.some.inj hp
          subst this
          exact absurd h5 (by show ¬ (2000000000 : Int) ≤ 1000000007; decide))
    (fun _ _ h => h) wArtifact_accepted

end Sigstore.Props
