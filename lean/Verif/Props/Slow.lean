import Verif.Props.EndToEndExamples
import Verif.Spec.Slow

/-!
# C130: signing that outlasts its certificate
-/

namespace Sigstore.Props

open Sigstore.Trust Sigstore.LogEntry Sigstore.Dsse Sigstore.Sct Sigstore.Spec Sigstore.Signing Sigstore.Rekor
open Sigstore.Rfc6962

/-- a log that is honest about one request only, and a certificate that covers its time -/
def onlyFor (request : EntryRequest) [DecidableEq EntryRequest] (rekor : EntryRequest → Py LogEntry) (q : EntryRequest) : Py LogEntry :=
  if q = request then rekor q else .error .rekorClient

/-- a timestamp client that answers for one signature only -/
def onlyAt (sig : Bytes) (tsa : Bytes → Py Tsr) (x : Bytes) : Py Tsr := if x = sig then tsa x else .error .timestamp

theorem answered_onlyAt (sig : Bytes) (tsas : List (Bytes → Py Tsr)) : answered sig (tsas.map (onlyAt sig)) = answered sig tsas := by
  unfold answered
  rw [List.filterMap_map]
  congr 1
  funext tsa
  show (onlyAt sig tsa sig).toOption = _
  unfold onlyAt
  rw [if_pos rfl]

theorem answered_onlyAt_ne (sig x : Bytes) (h : x ≠ sig) (tsas : List (Bytes → Py Tsr)) : answered x (tsas.map (onlyAt sig)) = [] := by
  unfold answered
  rw [List.filterMap_map, List.filterMap_eq_nil_iff]
  intro tsa _
  show (onlyAt sig tsa x).toOption = none
  unfold onlyAt
  rw [if_neg h]
  rfl

/-- the entry is also logged as far as another certificate is concerned that is valid at its time -/
theorem logged_for {env : Env} {log : ServiceKey} {ms : List PublicKeyMsg} {c cert : Cert} {request : EntryRequest} {entry : LogEntry}
    (h : Logged env log ms c request entry)
    (ht : entry.promise ≠ none → ∀ t, entry.integratedTime = some t → cert.ValidAt (t * 1000000)) :
    Logged env log ms cert request entry where
  body := h.body
  logId := h.logId
  proof := h.proof
  promised hv := by
    obtain ⟨set, t, q1, q2, q3, q4, _, q5⟩ := h.promised hv
    exact ⟨set, t, q1, q2, q3, q4, ht (by rw [q1]; simp) t q2, q5⟩
  unpromised := h.unpromised

open Classical in
/-- **C130** Let the services follow their specifications but take any time.  A bundle that signing returned verifies for what was
signed, up to the policy, if and only if the certificate was valid at all times that the services put into the bundle. -/
theorem C130_verifies_iff (env : Env) (ctx : Context) (kp : KeyPairs) (a₀ a : Answers) (w₀ w₁ w w' : World)
    (s : Signer) (cert : Cert) (call : Call) (b : Bundle) (now : Time) (v : Verifier) (ct log : ServiceKey)
    (hinit : Signer.init env ctx kp a₀ true w₀ = (.ok s, w₁)) (hcert : s.cachedCert = some cert)
    (hsign : s.sign env ctx kp a w call = (.ok b, w'))
    (hkeys : CorrectKeys env.crypto kp) (hsha : ∀ x, (env.crypto.sha256 x).length = 32)
    (hint : ∀ n : Nat, n < 2 ^ 64 → env.pyInt (decimal n) = some (n : Int))
    (hct : ct.TrustedIn env.crypto (startedKeys now v.root.ctlogs))
    (hlog : log.TrustedIn env.crypto (startedKeys now v.root.tlogs)) (hroot : ProperTsas v.root)
    (hfulcio : HonestFulcio env v.fulcioCerts ct a₀.fulcio)
    (hrekor : SlowLog env log (startedKeys now v.root.tlogs) a.rekor) (htsas : SlowTsas env now v.root a.tsas) :
    b.cert = cert ∧
      ((∀ t, TimeIn env b t → cert.ValidAt t) → ∀ policy, VerifiesUpToPolicy env now v b policy call) ∧
      ((∃ t, TimeIn env b t ∧ ¬ cert.ValidAt t) → ∀ policy, ¬ AcceptedFor env now v b policy call) := by
  obtain ⟨cert', chain, i1, i2, i3, rfl, rfl⟩ := (init_cached_iff _ _ _ _ _ _ _).1 hinit
  rw [Option.some.injEq] at hcert
  subst hcert
  have hissued := hfulcio _ (hkeys.p256 _) _ _ i2
  obtain ⟨cert, w₂, k, request, ts, entry, g1, g2, g3, g4, g5, g6, g7⟩ := (sign_ok_iff _ _ _ _ _ _ _ _ _).1 hsign
  have g1' := g1
  rw [signingCert_cached] at g1
  by_cases hn : a.now > cert'.notAfter
  · rw [if_pos hn] at g1; simp at g1
  rw [if_neg hn, Prod.mk.injEq, Except.ok.injEq] at g1
  obtain ⟨rfl, rfl⟩ := g1
  have hbc := cert_of_loads hissued.loads g7
  obtain ⟨f1, f2, f3, rfl, f5, f6⟩ := fromParts_content g7
  have hp256 : cert'.pubKey.kind = .ec .p256 := by rw [hissued.key]; exact hkeys.p256 _
  obtain ⟨c, hlogged⟩ := hrekor _ (recordable_p256 g4 hp256) _ g6
  obtain ⟨c1, rfl⟩ := (collectTimestamps_ok_iff _ _ _).1 g5
  have hanswered : ∀ t ∈ answered (signatureFor env.crypto kp k a.nonce call) a.tsas, env.decodeTsr t.raw = some t ∧
      TrustedTsr env now v.root (signatureFor env.crypto kp k a.nonce call) t := by
    intro t ht
    obtain ⟨tsa, hm, he⟩ := List.mem_filterMap.1 ht
    rcases htsas.answers tsa hm (signatureFor env.crypto kp k a.nonce call) with hr | ⟨t', hr, hd⟩
    · rw [hr] at he; cases he
    · rw [hr] at he; cases he; exact hd
  have htime : ∀ t ∈ answered (signatureFor env.crypto kp k a.nonce call) a.tsas, TimeIn env b t.genTime := by
    intro t ht
    exact .timestamp t.raw t (by rw [f5]; exact List.mem_map.2 ⟨t, ht, rfl⟩) (hanswered t ht).1
  refine ⟨hbc, ?_, ?_⟩
  · -- the same call with services that answer nothing else
    intro hvalid
    let a' : Answers := { a with
      rekor := onlyFor request a.rekor
      tsas := a.tsas.map (onlyAt (signatureFor env.crypto kp k a.nonce call)) }
    have hsign' : Signer.sign env ctx kp a' ⟨some w₀.keys, some cert'⟩ w call = (.ok b, w') := by
      refine (sign_ok_iff _ _ _ _ _ _ _ _ _).2 ⟨cert', w, k, request, _, b.entry, ?_, g2, g3, g4,
        (collectTimestamps_ok_iff _ _ _).2 ⟨?_, rfl⟩, ?_, ?_⟩
      · rw [signingCert_cached, if_neg hn]
      · intro tsa hm e he
        obtain ⟨tsa', hm', rfl⟩ := List.mem_map.1 hm
        unfold onlyAt at he
        rw [if_pos rfl] at he
        exact c1 tsa' hm' e he
      · show onlyFor request a.rekor request = _
        unfold onlyFor
        rw [if_pos rfl]
        exact g6
      · rw [show answered (signatureFor env.crypto kp k a'.nonce call) a'.tsas =
            answered (signatureFor env.crypto kp k a.nonce call) a.tsas from answered_onlyAt _ _]
        exact g7
    refine (C38_signed_bundle_verifies_partial env ctx kp a₀ a' w₀ _ w w' _ cert' call b now v ct log hinit rfl hsign' hkeys hsha hint
      hct hlog hroot hfulcio ?_ ⟨?_, ?_, ?_⟩).2
    · intro q hq e he
      change onlyFor request a.rekor q = _ at he
      unfold onlyFor at he
      split at he
      · rename_i hqr
        subst hqr
        rw [g6] at he
        cases he
        exact logged_for hlogged fun hp t ht => hvalid _ (.log t hp ht)
      · cases he
    · intro tsa hm sig
      obtain ⟨tsa', hm', rfl⟩ := List.mem_map.1 hm
      unfold onlyAt
      split
      · rename_i hs
        subst hs
        rcases htsas.answers tsa' hm' (signatureFor env.crypto kp k a.nonce call) with h | ⟨t, h, h1, h2⟩
        · exact .inl h
        · refine .inr ⟨t, h, h1, h2, hvalid _ (htime t (List.mem_filterMap.2 ⟨tsa', hm', by rw [h]; rfl⟩))⟩
      · exact .inl rfl
    · intro sig
      by_cases hs : sig = signatureFor env.crypto kp k a.nonce call
      · subst hs
        rw [show a'.tsas = a.tsas.map (onlyAt (signatureFor env.crypto kp k a.nonce call)) from rfl, answered_onlyAt]
        exact htsas.different _
      · rw [show a'.tsas = a.tsas.map (onlyAt (signatureFor env.crypto kp k a.nonce call)) from rfl, answered_onlyAt_ne _ _ hs]
        exact List.nodup_nil
    · rw [show a'.tsas = a.tsas.map (onlyAt (signatureFor env.crypto kp k a.nonce call)) from rfl, List.length_map]
      exact htsas.few
  · rintro ⟨t, ht, hbad⟩ policy hacc
    have hw : ∀ ca ∈ v.root.timestampAuthorities, ca.validFor ≠ none := fun ca h => (hroot ca h).1
    have hc : ∃ times, CommonOk env now v b policy times := by
      cases call with
      | artifact input => exact ((C13_verify_artifact_iff env now v input b _ hw).1 hacc).1
      | dsse stmt =>
        obtain ⟨⟨ty, p⟩, h⟩ := hacc
        exact ((C14_verify_dsse_iff env now v b _ hw _ _).1 h).1
    obtain ⟨times, hc⟩ := hc
    obtain ⟨tsrs, sig, logTimes, t1, t2, t3, rfl⟩ := hc.timesOf
    have hsig : SignatureOf b.inner (signatureFor env.crypto kp k a.nonce call) := by
      cases call with
      | artifact input => exact .inr ⟨f1.1, _, f1.2, rfl⟩
      | dsse stmt => exact .inl ⟨_, f1.2, rfl, g3⟩
    have htsrs : tsrs = answered (signatureFor env.crypto kp k a.nonce call) a.tsas := by
      have : (answered (signatureFor env.crypto kp k a.nonce call) a.tsas).map some = tsrs.map some := by
        rw [← t1, f5, List.map_map]
        exact List.map_congr_left fun t ht => ((hanswered t ht).1).symm
      exact (List.map_injective_iff.2 (Option.some_injective _) this).symm
    apply hbad
    rw [← hbc]
    apply hc.window
    cases ht with
    | timestamp raw x hraw hx =>
      apply List.mem_append_left
      rw [f5] at hraw
      obtain ⟨y, hy, rfl⟩ := List.mem_map.1 hraw
      rw [(hanswered y hy).1] at hx
      cases hx
      refine List.mem_map.2 ⟨x, List.mem_filter.2 ⟨by rw [htsrs]; exact hy, ?_⟩, rfl⟩
      rw [decide_eq_true_eq]
      have hs := (t2 (by rw [htsrs]; exact List.ne_nil_of_mem hy)).2.2.2.2
      rw [signatureOf_unique hs hsig]
      exact (hanswered x hy).2
    | log i hp hi =>
      apply List.mem_append_right
      rcases t3 with ⟨i', h1, _, _, _, _, _, _, rfl⟩ | ⟨h, _⟩
      · rw [hi] at h1
        cases h1
        exact List.mem_singleton.2 rfl
      · exfalso
        by_cases hv : b.entry.version = "0.0.1".toList
        · obtain ⟨set, i', q1, q2, q3, _⟩ := hlogged.promised hv
          rcases h with h | h | h
          · exact hp h
          · rw [q2] at h; cases h
          · rw [q2] at h
            cases h
            omega
        · exact hp (hlogged.unpromised hv)

/-- **C130** (refuted) Signing that starts before the certificate's end returns a bundle however long the services take; if one of
the times in it is after the certificate's end (or before its beginning), nobody will ever accept it. -/
theorem C130_returned_anyway (env : Env) (ctx : Context) (kp : KeyPairs) (a₀ : Answers) (w₀ : World) (v : Verifier) (now : Time)
    (ct log : ServiceKey)
    (hkeys : CorrectKeys env.crypto kp) (hsha : ∀ x, (env.crypto.sha256 x).length = 32)
    (hint : ∀ n : Nat, n < 2 ^ 64 → env.pyInt (decimal n) = some (n : Int))
    (htoken : a₀.tokenValid = true)
    (hct₀ : ct.TrustedIn env.crypto (getTlogKeys a₀.now ctx.root.ctlogs .sign))
    (hct : ct.TrustedIn env.crypto (startedKeys now v.root.ctlogs))
    (hlog : log.TrustedIn env.crypto (startedKeys now v.root.tlogs)) (hroot : ProperTsas v.root)
    (hfulcio : HonestFulcio env v.fulcioCerts ct a₀.fulcio)
    (hanswer : ∃ cert chain, a₀.fulcio ⟨kp.pub w₀.keys⟩ = .ok (cert, chain)) :
    ∃ s w₁ cert, Signer.init env ctx kp a₀ true w₀ = (.ok s, w₁) ∧ s.cachedCert = some cert ∧
      ∀ (a : Answers) (w : World) (call : Call), a.now ≤ cert.notAfter → CanSign call →
        SlowLog env log (startedKeys now v.root.tlogs) a.rekor →
        (∀ request, (∃ r, Records env.crypto request r) → ∃ entry, a.rekor request = .ok entry) →
        SlowTsas env now v.root a.tsas →
        (ctx.rekor = .v1 ∨ ∃ tsa ∈ a.tsas, ∀ sig, ∃ t, tsa sig = .ok t) →
        ∃ b w', s.sign env ctx kp a w call = (.ok b, w') ∧ b.cert = cert ∧
          ((∀ t, TimeIn env b t → cert.ValidAt t) → ∀ policy, VerifiesUpToPolicy env now v b policy call) ∧
          ((∃ t, TimeIn env b t ∧ ¬ cert.ValidAt t) → ∀ policy, ¬ AcceptedFor env now v b policy call) := by
  obtain ⟨s, w₁, cert, h1, h2, h3⟩ := signing_succeeds env ctx kp a₀ w₀ v.fulcioCerts ct log
    (startedKeys now v.root.tlogs) hkeys hsha htoken hct₀ hfulcio hanswer
  refine ⟨s, w₁, cert, h1, h2, ?_⟩
  intro a w call hnow hcan hrekor hreply htsas htime
  obtain ⟨b, w', hb⟩ := h3 a w call hnow hcan hrekor hreply (by
    intro tsa hm sig
    rcases htsas.answers tsa hm sig with h | ⟨t, h, hd, _⟩
    · exact .inl h
    · exact .inr ⟨t, h, hd⟩) htime
  exact ⟨b, w', hb, C130_verifies_iff env ctx kp a₀ a w₀ w₁ w w' s cert call b now v ct log h1 h2 hb hkeys hsha hint hct hlog hroot
    hfulcio hrekor htsas⟩

/-- **C130** What does hold: bundles whose times are in the certificate's period verify.  (Missing: that the others are not
returned, see `C130_returned_anyway` and `C130_late`.) -/
theorem C130_in_time_partial (env : Env) (ctx : Context) (kp : KeyPairs) (a₀ a : Answers) (w₀ w₁ w w' : World)
    (s : Signer) (cert : Cert) (call : Call) (b : Bundle) (now : Time) (v : Verifier) (ct log : ServiceKey)
    (hinit : Signer.init env ctx kp a₀ true w₀ = (.ok s, w₁)) (hcert : s.cachedCert = some cert)
    (hsign : s.sign env ctx kp a w call = (.ok b, w'))
    (hkeys : CorrectKeys env.crypto kp) (hsha : ∀ x, (env.crypto.sha256 x).length = 32)
    (hint : ∀ n : Nat, n < 2 ^ 64 → env.pyInt (decimal n) = some (n : Int))
    (hct : ct.TrustedIn env.crypto (startedKeys now v.root.ctlogs))
    (hlog : log.TrustedIn env.crypto (startedKeys now v.root.tlogs)) (hroot : ProperTsas v.root)
    (hfulcio : HonestFulcio env v.fulcioCerts ct a₀.fulcio)
    (hrekor : SlowLog env log (startedKeys now v.root.tlogs) a.rekor) (htsas : SlowTsas env now v.root a.tsas)
    (h : ∀ t, TimeIn env b t → cert.ValidAt t) (policy : Cert → Py Unit) (hp : policy cert = .ok ()) :
    AcceptedFor env now v b policy call := by
  obtain ⟨h1, h2, _⟩ := C130_verifies_iff env ctx kp a₀ a w₀ w₁ w w' s cert call b now v ct log hinit hcert hsign hkeys hsha hint hct
    hlog hroot hfulcio hrekor htsas
  have h3 := h2 h policy
  cases call with
  | artifact input =>
    change _ = _ at h3
    show _ = _
    rw [h3, h1, hp]
  | dsse stmt =>
    change _ = _ at h3
    exact ⟨_, by rw [h3, h1, hp]; rfl⟩

/-- services that are honest in the sense of C38 are such services -/
theorem slow_of_honest {env : Env} {now : Time} {root : TrustedRoot Cert} {log : ServiceKey} {ms : List PublicKeyMsg} {cert : Cert}
    {a : Answers} (h1 : HonestLog env log ms cert a.rekor) (h2 : HonestTsas env now root cert a.tsas) :
    SlowLog env log ms a.rekor ∧ SlowTsas env now root a.tsas := by
  refine ⟨fun q hq e he => ⟨cert, h1 q hq e he⟩, ?_, h2.different, h2.few⟩
  intro tsa hm sig
  rcases h2.answers tsa hm sig with h | ⟨t, h, ht⟩
  · exact .inl h
  · exact .inr ⟨t, h, ht.decodes, ht.trusted⟩

/-- the world of C38 meets the hypotheses -/
example (spki : Bytes) : SlowLog padEnv padLog (startedKeys 1800000000 padRoot.tlogs) padAnswers.rekor ∧
    SlowTsas padEnv 1800000000 padRoot padAnswers.tsas :=
  slow_of_honest (padRekor_honest _ spki) (padTsas_honest spki)

/-! ## A slow timestamp authority -/

/-- timestamps of this world hold the time of the authority: after the certificate's end -/
noncomputable def lateEnv : Env := { padEnv with decodeTsr := fun b => some ⟨b, 2100000000⟩ }

/-- the services: the certificate is valid when signing starts, but the timestamp is made later -/
noncomputable def lateAnswers : Answers := { padAnswers with tsas := [fun sig => .ok ⟨sig, 2100000000⟩] }

theorem lateLogged (request : EntryRequest) (r : Recorded) (h : Records padCrypto request r) (ms : List PublicKeyMsg)
    (spki : Bytes) : Logged lateEnv padLog ms (padCert spki) request (padEntry r) :=
  have h := padEntry_logged request r h ms spki
  ⟨h.body, h.logId, h.proof, h.promised, h.unpromised⟩

theorem lateTsas : SlowTsas lateEnv 3000000000 padRoot lateAnswers.tsas where
  answers := by
    intro tsa hm sig
    rw [show lateAnswers.tsas = [fun sig => .ok ⟨sig, 2100000000⟩] from rfl, List.mem_singleton] at hm
    subst hm
    refine .inr ⟨_, rfl, rfl, ⟨_, List.mem_singleton.2 rfl, exLeafCert, [], exCaCert, _, rfl, rfl, ?_, rfl, ?_, ?_⟩⟩
    · exact show (0 : Int) ≤ 3000000000 by decide
    · exact show (0 : Int) ≤ 2100000000 by decide
    · intro e he; cases he
  different := fun sig => by
    rw [show answered sig lateAnswers.tsas = [⟨sig, 2100000000⟩] from rfl]
    exact List.nodup_singleton _
  few := by decide

/-- **C130** (refuted) A run: with either version of the log, every input can be signed with a timestamp authority that answers after the
certificate's end, a bundle is returned, and it is never accepted. -/
theorem C130_late (v : ApiVersion) (w₀ : World) :
    ∃ s w₁ cert, Signer.init lateEnv ⟨padRoot, v⟩ padKeys lateAnswers true w₀ = (.ok s, w₁) ∧ s.cachedCert = some cert ∧
      ∀ (w : World) (call : Call), CanSign call →
        ∃ b w', s.sign lateEnv ⟨padRoot, v⟩ padKeys lateAnswers w call = (.ok b, w') ∧
          ∀ policy, ¬ AcceptedFor lateEnv 3000000000 ⟨padRoot, [exIssuer]⟩ b policy call := by
  obtain ⟨s, w₁, cert, h1, h2, h3⟩ := C130_returned_anyway lateEnv ⟨padRoot, v⟩ padKeys lateAnswers w₀ ⟨padRoot, [exIssuer]⟩ 3000000000
    padCt padLog padKeys_correct pad32_length padInt rfl (padTrusted _ (by simp)) (padTrusted _ (by simp))
    (padTrusted _ (by simp)) (by intro ca hc; rw [List.mem_singleton.1 hc]; exact ⟨by simp, by simp⟩)
    (fun csr hk cert chain h =>
      have h := padFulcio_honest csr hk cert chain h
      ⟨h.key, h.loads, h.digitalSignature, h.codeSigning, h.issuer⟩) ⟨_, _, rfl⟩
  refine ⟨s, w₁, cert, h1, h2, ?_⟩
  obtain ⟨cert', chain, i1, i2, i3, rfl, rfl⟩ := (init_cached_iff _ _ _ _ _ _ _).1 h1
  rw [Option.some.injEq] at h2
  subst h2
  obtain ⟨rfl, rfl⟩ := Prod.mk.inj (Except.ok.inj i2)
  intro w call hcan
  obtain ⟨b, w', hb, _, _, h4⟩ := h3 lateAnswers w call (show (1600000000 : Int) ≤ 2000000000 by decide) hcan (by
      intro request h entry he
      change ∃ r, Records padCrypto request r at h
      change padRekor request = _ at he
      unfold padRekor at he
      rw [dif_pos h, Except.ok.injEq] at he
      subst he
      exact ⟨padCert [], lateLogged request _ h.choose_spec _ _⟩)
    (by
      intro request h
      change ∃ r, Records padCrypto request r at h
      exact ⟨padEntry h.choose, by show padRekor request = _; unfold padRekor; rw [dif_pos h]⟩) lateTsas
    (.inr ⟨_, List.mem_singleton.2 rfl, fun _ => ⟨_, rfl⟩⟩)
  refine ⟨b, w', hb, h4 ?_⟩
  obtain ⟨cert, w₂, k, request, ts, entry, g1, g2, g3, g4, g5, g6, g7⟩ := (sign_ok_iff _ _ _ _ _ _ _ _ _).1 hb
  obtain ⟨c1, rfl⟩ := (collectTimestamps_ok_iff _ _ _).1 g5
  obtain ⟨f1, f2, f3, rfl, f5, f6⟩ := fromParts_content g7
  refine ⟨2100000000, .timestamp (signatureFor lateEnv.crypto padKeys k lateAnswers.nonce call)
    ⟨signatureFor lateEnv.crypto padKeys k lateAnswers.nonce call, 2100000000⟩ (by rw [f5]; exact List.mem_singleton.2 rfl) rfl, ?_⟩
  intro hv
  exact absurd hv.2 (show ¬ (2100000000 : Int) ≤ 2000000000 by decide)

end Sigstore.Props
