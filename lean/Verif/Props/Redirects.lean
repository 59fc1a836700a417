import Verif.Spec.Redirects
import Verif.Props.Traffic

/-!
# C134: what redirects do with credentials and bodies
-/

namespace Sigstore.Props

open Sigstore.Redirects Sigstore.Spec Sigstore.Traffic Sigstore.Http Sigstore.Url

section Credentials

variable {β : Type} {libs : Redirects.Libs} {endpoint value value' : Str}

private theorem sameService_refl (parts : Str → UrlParts) (u : Str) : SameService parts u u := ⟨rfl, .inl ⟨rfl, rfl⟩⟩

private theorem portInUse_default {p : UrlParts} (h : isDefault p.scheme p.port = true) : portInUse p = defaultPort p.scheme := by
  unfold isDefault at h
  unfold portInUse
  rcases Bool.or_eq_true _ _ ▸ h with h | h
  · have h := of_decide_eq_true h
    cases hp : p.port with
    | none => rfl
    | some n => rw [← h, hp]
  · rw [of_decide_eq_true h]
    rfl

/-- a step that keeps the credentials stays at the service -/
private theorem sameService_step {parts : Str → UrlParts} {endpoint u v : Str} (h : SameService parts endpoint u)
    (hs : shouldStripAuth (parts u) (parts v) = false) : SameService parts endpoint v := by
  obtain ⟨hh, h⟩ := h
  unfold shouldStripAuth at hs
  split at hs
  · cases hs
  · rename_i hhost
    have hhost := (Classical.not_not.mp hhost).symm
    refine ⟨hhost.trans hh, ?_⟩
    split at hs
    · rename_i hc
      obtain ⟨h1, h2, h3, h4⟩ := hc
      have p1 := portInUse_default h2
      have p2 := portInUse_default h4
      rw [h1] at p1
      rw [h3] at p2
      rcases h with ⟨hsch, hp⟩ | ⟨-, -, hsch, -⟩
      · exact .inr ⟨hsch ▸ h1, hp ▸ p1, h3, p2⟩
      · rw [h1] at hsch
        exact absurd hsch (by decide)
    · have same : (parts v).scheme = (parts u).scheme ∧ portInUse (parts v) = portInUse (parts u) := by
        split at hs
        · rename_i hc
          obtain ⟨h1, h2, h3⟩ := hc
          rw [h1] at h3
          exact ⟨h1.symm, by rw [portInUse_default h2, portInUse_default h3, h1]⟩
        · obtain ⟨h1, h2⟩ := Bool.or_eq_false_iff.mp hs
          have h1 : (parts u).port = (parts v).port := Classical.not_not.mp (of_decide_eq_false h1)
          have h2 : (parts u).scheme = (parts v).scheme := Classical.not_not.mp (of_decide_eq_false h2)
          exact ⟨h2.symm, by unfold portInUse; rw [h1, h2]⟩
      rcases h with ⟨hsch, hp⟩ | ⟨a, b, c, d⟩
      · exact .inl ⟨same.1.trans hsch, same.2.trans hp⟩
      · exact .inr ⟨a, b, same.1.trans c, same.2.trans d⟩

/-- two lists of headers that differ in the credentials only -/
private def HeadersDiffer (value value' : Str) (a b : List (Str × Str)) : Prop :=
  ∃ before after, a = before ++ (authorization, value) :: after ∧ b = before ++ (authorization, value') :: after

private theorem without_auth {a b : List (Str × Str)} (h : HeadersDiffer value value' a b) :
    without [authorization] a = without [authorization] b := by
  obtain ⟨x, y, rfl, rfl⟩ := h
  simp [without]

private theorem without_other {names : List Str} (hn : authorization ∉ names) {a b : List (Str × Str)}
    (h : HeadersDiffer value value' a b) : HeadersDiffer value value' (without names a) (without names b) := by
  obtain ⟨x, y, rfl, rfl⟩ := h
  refine ⟨without names x, without names y, ?_, ?_⟩ <;> simp [without, hn]

private theorem redirected_same (status : Nat) (u : Str) {w w' : WireRequest β}
    (h : SameButCredentials libs.parts endpoint value value' w w') :
    SameButCredentials libs.parts endpoint value value' (redirected libs status w u) (redirected libs status w' u) := by
  rcases h with rfl | ⟨hs, hm, hu, hb, hh⟩
  · exact .inl rfl
  · have hh : HeadersDiffer value value' w.headers w'.headers := hh
    have h1 : HeadersDiffer value value'
        (if (decide (status = 307) || decide (status = 308)) = true then w.headers else
          without ["Content-Length".toList, "Content-Type".toList, "Transfer-Encoding".toList] w.headers)
        (if (decide (status = 307) || decide (status = 308)) = true then w'.headers else
          without ["Content-Length".toList, "Content-Type".toList, "Transfer-Encoding".toList] w'.headers) := by
      split
      · exact hh
      · exact without_other (by decide) hh
    unfold redirected
    dsimp only
    rw [← hm, ← hu, ← hb]
    generalize (if (decide (status = 307) || decide (status = 308)) = true then w.headers else _) = a at h1 ⊢
    generalize (if (decide (status = 307) || decide (status = 308)) = true then w'.headers else _) = b at h1 ⊢
    cases hst : shouldStripAuth (libs.parts w.url) (libs.parts u) with
    | true =>
      left
      simp only [if_true, without_auth h1]
    | false =>
      cases hn : libs.netrc u with
      | none => exact .inr ⟨sameService_step hs hst, rfl, rfl, rfl, h1⟩
      | some v =>
        left
        simp only [withAuthorization, Bool.false_eq_true, if_false, without_auth h1]

private theorem prepared_same {w w' : WireRequest β} (h : SameButCredentials libs.parts endpoint value value' w w') :
    SameButCredentials libs.parts endpoint value value' (prepared libs w) (prepared libs w') := by
  rcases h with rfl | ⟨hs, hm, hu, hb, hh⟩
  · exact .inl rfl
  · have hh' : HeadersDiffer value value' w.headers w'.headers := hh
    unfold prepared
    rw [← hu]
    cases (libs.netrc w.url).or (libs.userinfo w.url) with
    | none => exact .inr ⟨hs, hm, hu, hb, hh⟩
    | some v =>
      left
      obtain ⟨m, u, hd, b⟩ := w
      obtain ⟨m', u', hd', b'⟩ := w'
      dsimp only at hm hu hb hh'
      simp only [withAuthorization, without_auth hh', hm, hu, hb]

/-- following redirects keeps the difference at the service -/
private theorem follow_same {ws ws' : WireServices β} (hw : SameReplies libs.parts endpoint value value' ws ws') (n : Nat) :
    ∀ (h h' : List (WireRequest β)) (w w' : WireRequest β),
      List.Forall₂ (SameButCredentials libs.parts endpoint value value') h h' →
      SameButCredentials libs.parts endpoint value value' w w' →
      (follow libs ws n h w).1 = (follow libs ws' n h' w').1 ∧
      List.Forall₂ (SameButCredentials libs.parts endpoint value value') (follow libs ws n h w).2 (follow libs ws' n h' w').2 := by
  induction n with
  | zero =>
    intro h h' w w' hh hr
    have hs : List.Forall₂ (SameButCredentials libs.parts endpoint value value') (h ++ [w]) (h' ++ [w']) :=
      List.rel_append hh (.cons hr .nil)
    unfold follow
    rw [← hw h h' w w' hh hr]
    cases ws h w with
    | error e => exact ⟨rfl, hs⟩
    | ok reply =>
      dsimp only
      cases reply.redirect? with
      | none => exact ⟨rfl, hs⟩
      | some l => exact ⟨rfl, hs⟩
  | succ n ih =>
    intro h h' w w' hh hr
    have hs : List.Forall₂ (SameButCredentials libs.parts endpoint value value') (h ++ [w]) (h' ++ [w']) :=
      List.rel_append hh (.cons hr .nil)
    have hu : w.url = w'.url := by
      rcases hr with rfl | ⟨-, -, hu, -⟩
      · rfl
      · exact hu
    unfold follow
    rw [← hw h h' w w' hh hr]
    cases ws h w with
    | error e => exact ⟨rfl, hs⟩
    | ok reply =>
      dsimp only
      cases reply.redirect? with
      | none => exact ⟨rfl, hs⟩
      | some l =>
        dsimp only
        rw [← hu]
        cases libs.target w.url l with
        | error e => exact ⟨rfl, hs⟩
        | ok u => exact ih _ _ _ _ hs (redirected_same _ u hr)

end Credentials

private theorem ofRequest_same {libs : Redirects.Libs} {endpoint token token' : Str} {r r' : Request}
    (h : SameButToken endpoint token token' r r') :
    SameButCredentials libs.parts endpoint ("Bearer ".toList ++ token) ("Bearer ".toList ++ token') (ofRequest libs r)
      (ofRequest libs r') := by
  refine prepared_same ?_
  rcases h with rfl | ⟨hu, hu', hp, hh⟩
  · exact .inl rfl
  · exact .inr ⟨hu ▸ sameService_refl _ _, rfl, hu.trans hu'.symm, congrArg some hp, hh⟩

private theorem wireTrace_same {libs : Redirects.Libs} {endpoint token token' : Str} {ws ws' : WireServices Payload}
    (hw : SameReplies libs.parts endpoint ("Bearer ".toList ++ token) ("Bearer ".toList ++ token') ws ws') {rs rs' : List Request}
    (hr : List.Forall₂ (SameButToken endpoint token token') rs rs') :
    ∀ h h', List.Forall₂ (SameButCredentials libs.parts endpoint ("Bearer ".toList ++ token) ("Bearer ".toList ++ token')) h h' →
      List.Forall₂ (SameButCredentials libs.parts endpoint ("Bearer ".toList ++ token) ("Bearer ".toList ++ token'))
        (wireTrace libs ws h rs) (wireTrace libs ws' h' rs') := by
  induction hr with
  | nil => exact fun _ _ h => h
  | cons h1 _ ih => exact fun h h' hh => ih _ _ (follow_same hw _ _ _ _ _ hh (ofRequest_same h1)).2

/-- **C134 (identity token).**  A session of signing with either of two tokens, when services redirect at will: if whoever is on
the wire does not answer according to the token sent to Fulcio, then results are the same, and so is all that goes over the wire, but
for the token in requests to Fulcio's own service. -/
theorem C134_token (ctx : Traffic.Context) (o : Origin) (ho : o.WF) (rest : Str) (hrest : FollowsAuthority rest)
    (hf : ctx.services.fulcio = o.text ++ rest) (token token' : Str) (now : Time) (valid cache : Bool) (jobs : List Job)
    (libs : Redirects.Libs) (ws ws' : WireServices Payload)
    (hw : SameReplies libs.parts (o.text ++ "/api/v2/signingCert".toList) ("Bearer ".toList ++ token) ("Bearer ".toList ++ token')
      ws ws') (n : Net) :
    (Traffic.session ctx token now valid cache jobs (services libs ws) n).1 =
      (Traffic.session ctx token' now valid cache jobs (services libs ws') n).1 ∧
    List.Forall₂ (SameButCredentials libs.parts (o.text ++ "/api/v2/signingCert".toList) ("Bearer ".toList ++ token)
        ("Bearer ".toList ++ token'))
      (wireTrace libs ws [] (Traffic.session ctx token now valid cache jobs (services libs ws) n).2.sent)
      (wireTrace libs ws' [] (Traffic.session ctx token' now valid cache jobs (services libs ws') n).2.sent) := by
  have := C96_token_only_to_fulcio ctx o ho rest hrest hf token token' now valid cache jobs (services libs ws) (services libs ws')
    (fun h h' r r' hh hr => (follow_same hw _ _ _ _ _ (wireTrace_same hw hh [] [] .nil) (ofRequest_same hr)).1) n
  exact ⟨this.1, wireTrace_same hw this.2 [] [] .nil⟩

/-- **C134 (client secret).**  Likewise for the client secret in the request to the token endpoint. -/
theorem C134_secret (basic : Str → Str → Str) (headers : List (Str × Str)) (c : OAuth.Client) (secret' : Str)
    (t : OAuth.TokenRequest) (libs : Redirects.Libs) (ws ws' : WireServices (List (Str × Str)))
    (hw : SameReplies libs.parts c.tokenEndpoint (basic c.clientId c.clientSecret) (basic c.clientId secret') ws ws') :
    (follow libs ws maxRedirects [] (ofTokenRequest basic headers c t)).1 =
      (follow libs ws' maxRedirects [] (ofTokenRequest basic headers { c with clientSecret := secret' } t)).1 ∧
    List.Forall₂ (SameButCredentials libs.parts c.tokenEndpoint (basic c.clientId c.clientSecret) (basic c.clientId secret'))
      (follow libs ws maxRedirects [] (ofTokenRequest basic headers c t)).2
      (follow libs ws' maxRedirects [] (ofTokenRequest basic headers { c with clientSecret := secret' } t)).2 :=
  follow_same hw _ _ _ _ _ .nil (.inr ⟨sameService_refl _ _, rfl, rfl, rfl, _, [], rfl, rfl⟩)

/-- **C134 (encryption).**  Requests that differ in credentials for an `https` endpoint are `https` requests to its host and port. -/
theorem C134_https {β : Type} {parts : Str → UrlParts} {endpoint value value' : Str} {w w' : WireRequest β}
    (h : SameButCredentials parts endpoint value value' w w') (hne : w ≠ w') (hs : (parts endpoint).scheme = "https".toList) :
    (parts w.url).scheme = "https".toList ∧ (parts w.url).host = (parts endpoint).host ∧
      portInUse (parts w.url) = portInUse (parts endpoint) ∧ w'.url = w.url := by
  rcases h with h | ⟨⟨hh, h⟩, -, hu, -⟩
  · exact absurd h hne
  · rcases h with ⟨h1, h2⟩ | ⟨h1, -⟩
    · exact ⟨h1.trans hs, hh, h2, hu.symm⟩
    · rw [h1] at hs
      exact absurd hs (by decide)

/-- **C134 (number).**  A request leads to at least one and at most 31 requests on the wire, the first of which is the request. -/
theorem C134_number {β : Type} (libs : Redirects.Libs) (ws : WireServices β) (sent : List (WireRequest β)) (req : WireRequest β) :
    ∃ rest, (follow libs ws maxRedirects sent req).2 = sent ++ req :: rest ∧ rest.length ≤ 30 := by
  suffices h : ∀ n sent req, ∃ rest, (follow libs ws n sent req).2 = sent ++ req :: rest ∧ rest.length ≤ n from h 30 sent req
  intro n
  induction n with
  | zero =>
    intro sent req
    unfold follow
    cases ws sent req with
    | error e => exact ⟨[], rfl, Nat.le_refl _⟩
    | ok reply =>
      dsimp only
      cases reply.redirect? <;> exact ⟨[], rfl, Nat.le_refl _⟩
  | succ n ih =>
    intro sent req
    unfold follow
    cases ws sent req with
    | error e => exact ⟨[], rfl, Nat.zero_le _⟩
    | ok reply =>
      dsimp only
      cases reply.redirect? with
      | none => exact ⟨[], rfl, Nat.zero_le _⟩
      | some l =>
        dsimp only
        cases libs.target req.url l with
        | error e => exact ⟨[], rfl, Nat.zero_le _⟩
        | ok u =>
          obtain ⟨rest, h1, h2⟩ := ih (sent ++ [req]) (redirected libs reply.response.status req u)
          refine ⟨redirected libs reply.response.status req u :: rest, ?_, Nat.succ_le_succ h2⟩
          dsimp only
          rw [h1, List.append_assoc]
          rfl

/-- **C134 (bodies).**  The requests after the first have the body of the first or none; and if no service redirects with the
status 307 or 308, they are `GET` requests without a body. -/
theorem C134_bodies_partial {β : Type} (libs : Redirects.Libs) (ws : WireServices β) (sent : List (WireRequest β))
    (req : WireRequest β) :
    ∃ rest, (follow libs ws maxRedirects sent req).2 = sent ++ req :: rest ∧
      (∀ w ∈ rest, w.body = req.body ∨ w.body = none) ∧
      ((∀ h w reply, ws h w = .ok reply → reply.response.status ≠ 307 ∧ reply.response.status ≠ 308) →
        ∀ w ∈ rest, w.method = .get ∧ w.body = none) := by
  suffices h : ∀ n sent req, ∃ rest, (follow libs ws n sent req).2 = sent ++ req :: rest ∧
      (∀ w ∈ rest, w.body = req.body ∨ w.body = none) ∧
      ((∀ h w reply, ws h w = .ok reply → reply.response.status ≠ 307 ∧ reply.response.status ≠ 308) →
        ∀ w ∈ rest, w.method = .get ∧ w.body = none) from h 30 sent req
  intro n
  induction n with
  | zero =>
    intro sent req
    refine ⟨[], ?_, by simp, by simp⟩
    unfold follow
    cases ws sent req with
    | error e => rfl
    | ok reply =>
      dsimp only
      cases reply.redirect? <;> rfl
  | succ n ih =>
    intro sent req
    unfold follow
    cases hr : ws sent req with
    | error e => exact ⟨[], rfl, by simp, by simp⟩
    | ok reply =>
      dsimp only
      cases hl : reply.redirect? with
      | none => exact ⟨[], rfl, by simp, by simp⟩
      | some l =>
        dsimp only
        cases libs.target req.url l with
        | error e => exact ⟨[], rfl, by simp, by simp⟩
        | ok u =>
          obtain ⟨rest, h1, h2, h3⟩ := ih (sent ++ [req]) (redirected libs reply.response.status req u)
          have hb : (redirected libs reply.response.status req u).body = req.body ∨
              (redirected libs reply.response.status req u).body = none := by
            unfold redirected
            dsimp only
            split
            · exact .inl rfl
            · exact .inr rfl
          refine ⟨redirected libs reply.response.status req u :: rest, ?_, ?_, ?_⟩
          · dsimp only
            rw [h1, List.append_assoc]
            rfl
          · intro w hw
            rcases List.mem_cons.mp hw with rfl | hw
            · exact hb
            · rcases h2 w hw with h | h
              · rw [h]
                exact hb
              · exact .inr h
          · intro hno w hw
            rcases List.mem_cons.mp hw with rfl | hw
            · obtain ⟨n7, n8⟩ := hno _ _ _ hr
              have hst : reply.response.status ∈ [301, 302, 303, 307, 308] := by
                unfold Reply.redirect? at hl
                split at hl
                · assumption
                · cases hl
              simp only [List.mem_cons, List.not_mem_nil, or_false] at hst
              unfold redirected rebuildMethod
              dsimp only
              refine ⟨if_pos (by omega), if_neg ?_⟩
              simp [n7, n8]
            · exact h3 hno w hw

/-- **C134 (refuted for bodies).**  A token endpoint that redirects with the status 307 makes the client send the form – with the
authorization code and the PKCE verifier – to any URL at all. -/
theorem C134_form_elsewhere (basic : Str → Str → Str) (headers : List (Str × Str)) (c : OAuth.Client) (t : OAuth.TokenRequest)
    (libs : Redirects.Libs) (location url : Str) (hl : location ≠ []) (ht : libs.target c.tokenEndpoint location = .ok url) :
    ∃ (ws : WireServices (List (Str × Str))) (w : WireRequest (List (Str × Str))),
      w ∈ (follow libs ws maxRedirects [] (ofTokenRequest basic headers c t)).2 ∧ w.url = url ∧ w.method = .post ∧
      w.body = some t.form := by
  refine ⟨fun h _ => .ok ⟨⟨if h = [] then 307 else 200, [], [], none⟩, some location⟩,
    redirected libs 307 (ofTokenRequest basic headers c t) url, ?_, rfl, rfl, rfl⟩
  have h1 : (Reply.redirect? ⟨⟨307, [], [], none⟩, some location⟩) = some location := by
    simp [Reply.redirect?, hl]
  have h2 : (Reply.redirect? ⟨⟨200, [], [], none⟩, some location⟩) = none := by
    simp [Reply.redirect?]
  have ht' : libs.target (ofTokenRequest basic headers c t).url location = .ok url := ht
  simp [maxRedirects, follow, h1, h2, ht']

end Sigstore.Props
