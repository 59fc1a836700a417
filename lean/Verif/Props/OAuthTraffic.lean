import Verif.Spec.OAuthTraffic
import Verif.Props.OAuthUrl

/-!
# C117-C119: what the OAuth flow tells whom
-/

namespace Sigstore.Props

open Sigstore.OAuth Sigstore.Spec

theorem flow_append (libs : Libs) (c : Client) (s : Session) (f : Flow) (a b : List Thread) :
    flow libs c s f (a ++ b) = flow libs c s (flow libs c s f a) b := List.foldl_append ..

theorem flow_snoc (libs : Libs) (c : Client) (s : Session) (f : Flow) (a : List Thread) (t : Thread) :
    flow libs c s f (a ++ [t]) = flowStep libs c s (flow libs c s f a) t := by rw [flow_append]; rfl

/-- the outputs do not change the machine -/
theorem flow_machine (libs : Libs) (c : Client) (s : Session) (f : Flow) (schedule : List Thread) :
    (flow libs c s f schedule).machine = OAuth.run libs s f.machine schedule := by
  induction schedule using List.reverseRecOn with
  | nil => rfl
  | append_singleton schedule t ih =>
    rw [flow_snoc, run_snoc, ← ih]
    cases t <;> rfl

/-! ## C117: the verifier -/

theorem _root_.Sigstore.Spec.SameChallenge.authParams {libs libs' : Libs} {s s' : Session} (h : SameChallenge libs libs' s s') (uri : Str) :
    s.authParams libs uri = s'.authParams libs' uri := by
  unfold Session.authParams Session.codeChallenge
  rw [h.hash, h.state]

theorem _root_.Sigstore.Spec.SameChallenge.redirectUri {libs libs' : Libs} {s s' : Session} (h : SameChallenge libs libs' s s') (oob : Bool) :
    s.redirectUri oob = s'.redirectUri oob := by
  unfold Session.redirectUri
  rw [h.baseUri]

theorem _root_.Sigstore.Spec.SameChallenge.step {libs libs' : Libs} {s s' : Session} (h : SameChallenge libs libs' s s') (c : Client) (f : Flow)
    (t : Thread) : flowStep libs c s f t = flowStep libs' c s' f t := by
  cases t with
  | server =>
    unfold flowStep serverStep serverEvents Session.authUrl
    simp only [h.split, h.parseQs, h.redirectUri, h.authParams]
  | main =>
    unfold flowStep mainStep mainEvents Session.authUrl
    simp only [h.redirectUri, h.authParams]

theorem _root_.Sigstore.Spec.SameChallenge.flow {libs libs' : Libs} {s s' : Session} (h : SameChallenge libs libs' s s') (c : Client) (f : Flow)
    (schedule : List Thread) : flow libs c s f schedule = flow libs' c s' f schedule := by
  induction schedule using List.reverseRecOn with
  | nil => rfl
  | append_singleton schedule t ih => rw [flow_snoc, flow_snoc, ih, h.step]

/-- the token requests of two sessions in the same state -/
theorem _root_.Sigstore.Spec.SameChallenge.tokenRequest {libs libs' : Libs} {s s' : Session} (h : SameChallenge libs libs' s s') (input : Str) (m : Machine) :
    tokenRequest s' input m = (tokenRequest s input m).map fun r => r.map fun t => { t with codeVerifier := s'.codeVerifier } := by
  unfold OAuth.tokenRequest
  cases m.main with
  | waiting =>
    dsimp only
    cases m.response with
    | none => rfl
    | some q =>
      dsimp only
      rw [h.state]
      cases checkResponse s'.state q with
      | error e => rfl
      | ok code => dsimp only; rw [h.redirectUri]; rfl
  | printed => dsimp only; rw [h.redirectUri]; rfl
  | _ => rfl

theorem _root_.Sigstore.Spec.SameChallenge.init {libs libs' : Libs} {s s' : Session} (h : SameChallenge libs libs' s s') (forceOob opens : Bool)
    (requests : List Str) : Flow.init s forceOob opens requests = Flow.init s' forceOob opens requests := by
  unfold Flow.init
  rw [h.baseUri]

theorem forall₂_refl_filter {R : Event → Event → Prop} (hR : ∀ e, R e e) (l : List Event) : List.Forall₂ R l l := by
  induction l with
  | nil => exact .nil
  | cons a l ih => exact .cons (hR a) ih

/-- the verifier of a token request is the session's -/
theorem tokenRequest_verifier {s : Session} {input : Str} {m : Machine} {t : TokenRequest}
    (h : tokenRequest s input m = some (.ok t)) : t.codeVerifier = s.codeVerifier := by
  unfold tokenRequest at h
  split at h
  · split at h
    · cases h
    · split at h
      · cases h
      · cases h; rfl
  · cases h; rfl
  · cases h
  · cases h

/-- **C117** (partial: without the debug log of the root logger, see `C117_verifier_logged`) In both flows, for every schedule, all
requests to the local server and every input: apart from the request to the token endpoint, what the flow puts out depends on the
verifier through its hash only.  So nothing is told about it to the user's browser, to other programs that ask the local server, to
the screen or to the log of the package. -/
theorem C117_verifier_partial (libs libs' : Libs) (c : Client) (s s' : Session) (h : SameChallenge libs libs' s s')
    (forceOob opens : Bool) (requests : List Str) (schedule : List Thread) (input : Str) (package : Bool) :
    List.Forall₂ (SameButVerifier c.tokenEndpoint s.codeVerifier s'.codeVerifier)
      (written package false (outputs c s input (flow libs c s (.init s forceOob opens requests) schedule)))
      (written package false (outputs c s' input (flow libs' c s' (.init s' forceOob opens requests) schedule))) := by
  rw [← h.init, ← h.flow]
  generalize flow libs c s (.init s forceOob opens requests) schedule = f
  unfold outputs
  rw [h.tokenRequest]
  unfold written
  rw [List.filter_append, List.filter_append]
  refine List.rel_append (forall₂_refl_filter (fun e => .inl rfl) _) ?_
  cases hr : OAuth.tokenRequest s input f.machine with
  | none => exact .nil
  | some r =>
    cases r with
    | error e => exact .nil
    | ok t =>
      refine .cons (.inr ⟨[("grant_type".toList, "authorization_code".toList), ("redirect_uri".toList, t.redirectUri),
        ("code".toList, t.code)], [], (c.clientId, c.clientSecret), ?_, rfl⟩) .nil
      show Event.token _ t.form _ = _
      unfold TokenRequest.form
      rw [tokenRequest_verifier hr]
      rfl

/-- **C117** The request to the token endpoint: there is at most one, it is the last output, it goes to the endpoint that the
issuer's configuration names, with the client's credentials; and it is sent exactly if the flow gets as far as that. -/
theorem C117_token_request (libs : Libs) (c : Client) (s : Session) (forceOob opens : Bool) (requests : List Str)
    (schedule : List Thread) (input : Str) (package root : Bool) :
    ∃ before last,
      written package root (outputs c s input (flow libs c s (.init s forceOob opens requests) schedule)) = before ++ last ∧
      (∀ e ∈ before, ∀ url form auth, e ≠ .token url form auth) ∧
      ((last = [] ∧ ∀ t, tokenRequest s input (OAuth.run libs s (.init (!forceOob && opens) requests) schedule) ≠ some (.ok t)) ∨
        ∃ t, tokenRequest s input (OAuth.run libs s (.init (!forceOob && opens) requests) schedule) = some (.ok t) ∧
          last = [.token c.tokenEndpoint
            [("grant_type".toList, "authorization_code".toList), ("redirect_uri".toList, t.redirectUri), ("code".toList, t.code),
             ("code_verifier".toList, s.codeVerifier)] (c.clientId, c.clientSecret)]) := by
  have hm := flow_machine libs c s (.init s forceOob opens requests) schedule
  have hno : ∀ e ∈ (flow libs c s (.init s forceOob opens requests) schedule).events, ∀ url form auth, e ≠ .token url form auth := by
    clear hm
    induction schedule using List.reverseRecOn with
    | nil =>
      intro e he url form auth
      revert he
      show e ∈ (if forceOob then [] else [Event.browser s.baseUri]) ++
        (if !forceOob && opens then [Event.stderr "Waiting for browser interaction...".toList] else []) → _
      rintro he rfl
      rcases List.mem_append.1 he with he | he <;> split at he
      · cases he
      · rcases List.mem_singleton.1 he with he; cases he
      · rcases List.mem_singleton.1 he with he; cases he
      · cases he
    | append_singleton schedule t ih =>
      intro e he url form auth
      rw [flow_snoc] at he
      generalize flow libs c s (.init s forceOob opens requests) schedule = f at ih he
      cases t with
      | server =>
        rcases List.mem_append.1 he with he | he
        · exact ih e he url form auth
        · rintro rfl
          unfold serverEvents at he
          split at he
          · split at he
            · cases he
            · split at he
              · simp at he
              · split at he
                · simp at he
                · split at he <;> simp at he
          · cases he
          · split at he <;> simp at he
          · simp at he
      | main =>
        rcases List.mem_append.1 he with he | he
        · exact ih e he url form auth
        · rintro rfl
          unfold mainEvents at he
          split at he <;> simp at he
  rw [show (Flow.init s forceOob opens requests).machine = Machine.init (!forceOob && opens) requests from rfl] at hm
  rw [← hm]
  generalize flow libs c s (.init s forceOob opens requests) schedule = f at hno
  unfold outputs written
  rw [List.filter_append]
  have hkeep : ∀ e ∈ f.events.filter (fun | .logged true _ => root | .logged false _ => package | _ => true),
      ∀ url form auth, e ≠ .token url form auth := fun e he => hno e (List.mem_of_mem_filter he)
  cases hr : OAuth.tokenRequest s input f.machine with
  | none => exact ⟨_, [], rfl, hkeep, .inl ⟨rfl, fun t => by simp⟩⟩
  | some r =>
    cases r with
    | error e => exact ⟨_, [], rfl, hkeep, .inl ⟨rfl, fun t => by simp⟩⟩
    | ok t =>
      have hv := tokenRequest_verifier hr
      dsimp only
      cases root with
      | false =>
        refine ⟨_, _, rfl, hkeep, .inr ⟨t, rfl, ?_⟩⟩
        rw [← hv]; rfl
      | true =>
        refine ⟨f.events.filter (fun | .logged true _ => true | .logged false _ => package | _ => true) ++
          [.logged true (.payload t.form)], _, ?_, ?_, .inr ⟨t, rfl, rfl⟩⟩
        · rw [List.append_assoc, ← hv]; rfl
        · intro e he
          rcases List.mem_append.1 he with he | he
          · exact hkeep e he
          · rw [List.mem_singleton] at he
            subst he
            intro _ _ _ h
            cases h

/-- **C117** is false with `-vv`: every flow that gets as far as the token request writes the code and the verifier – which is all that
is needed to get the token – to the log before it sends them. -/
theorem C117_verifier_logged (libs : Libs) (c : Client) (s : Session) (forceOob opens : Bool) (requests : List Str)
    (schedule : List Thread) (input : Str) (package : Bool) (t : TokenRequest)
    (h : tokenRequest s input (OAuth.run libs s (.init (!forceOob && opens) requests) schedule) = some (.ok t)) :
    ∃ before form after,
      written package true (outputs c s input (flow libs c s (.init s forceOob opens requests) schedule)) =
        before ++ .logged true (.payload form) :: .token c.tokenEndpoint form (c.clientId, c.clientSecret) :: after ∧
      ("code".toList, t.code) ∈ form ∧ ("code_verifier".toList, s.codeVerifier) ∈ form := by
  have hm := flow_machine libs c s (.init s forceOob opens requests) schedule
  rw [← show (Flow.init s forceOob opens requests).machine = Machine.init (!forceOob && opens) requests from rfl, ← hm] at h
  generalize flow libs c s (.init s forceOob opens requests) schedule = f at h
  unfold outputs written
  rw [h, List.filter_append]
  refine ⟨_, t.form, [], rfl, ?_, ?_⟩
  · simp [TokenRequest.form]
  · rw [← tokenRequest_verifier h]
    simp [TokenRequest.form]

/-! ## C118: the client's secret -/

/-- the authorization URL around the secret -/
theorem authUrl_secret (libs : Libs) (c c' : Client) (s : Session) (uri : Str) (hid : c.clientId = c'.clientId)
    (ha : c.authEndpoint = c'.authEndpoint) :
    ∃ before after, s.authUrl libs c uri = before ++ Url.quotePlus c.clientSecret ++ after ∧
      s.authUrl libs c' uri = before ++ Url.quotePlus c'.clientSecret ++ after := by
  unfold Session.authUrl
  obtain ⟨uri', ch, st⟩ := s.authParams libs uri
  have key : ∀ secret, Url.authUrl c.authEndpoint c.clientId secret ⟨uri', ch, st⟩ =
      (c.authEndpoint ++ '?' :: (Url.quotePlus "response_type".toList ++ '=' :: Url.quotePlus "code".toList ++ '&' ::
        (Url.quotePlus "client_id".toList ++ '=' :: Url.quotePlus c.clientId ++ '&' ::
          (Url.quotePlus "client_secret".toList ++ ['='])))) ++ Url.quotePlus secret ++
      ('&' :: Url.urlencode (Url.authQuery c.clientId secret ⟨uri', ch, st⟩ |>.drop 3)) := by
    intro secret
    unfold Url.authUrl Url.urlencode Url.authQuery
    simp only [List.map_cons, List.map_nil, List.drop_succ_cons, List.drop_zero, Url.joinWith, List.append_assoc, List.cons_append,
      List.nil_append]
  refine ⟨_, '&' :: Url.urlencode (Url.authQuery c.clientId c.clientSecret ⟨uri', ch, st⟩ |>.drop 3), key _, ?_⟩
  rw [← hid, ← ha]
  exact key _

theorem flowStep_secret {c c' : Client} (hid : c.clientId = c'.clientId) (ha : c.authEndpoint = c'.authEndpoint)
    (libs : Libs) (s : Session) {tok : Str} {f f' : Flow} (hm : f.machine = f'.machine)
    (he : List.Forall₂ (SameButSecret tok c.clientSecret c'.clientSecret) f.events f'.events) (t : Thread) :
    (flowStep libs c s f t).machine = (flowStep libs c' s f' t).machine ∧
    List.Forall₂ (SameButSecret tok c.clientSecret c'.clientSecret) (flowStep libs c s f t).events (flowStep libs c' s f' t).events := by
  cases t with
  | server =>
    refine ⟨by show serverStep libs s f.machine = serverStep libs s f'.machine; rw [hm], ?_⟩
    show List.Forall₂ _ (f.events ++ serverEvents libs c s f.machine) (f'.events ++ serverEvents libs c' s f'.machine)
    rw [← hm]
    refine List.rel_append he ?_
    cases hs : f.machine.server with
    | setting uri =>
      unfold serverEvents
      rw [hs]
      obtain ⟨before, after, h1, h2⟩ := authUrl_secret libs c c' s uri hid ha
      exact .cons (.inr (.inr ⟨before, after, _, _, .inl (by rw [h1]), .inl (by rw [h2]), formText_quotePlus _, formText_quotePlus _⟩)) .nil
    | _ =>
      unfold serverEvents
      rw [hs]
      exact forall₂_refl_filter (fun e => .inl rfl) _
  | main =>
    refine ⟨by show mainStep libs s f.machine = mainStep libs s f'.machine; rw [hm], ?_⟩
    show List.Forall₂ _ (f.events ++ mainEvents libs c s f.machine) (f'.events ++ mainEvents libs c' s f'.machine)
    rw [← hm]
    refine List.rel_append he ?_
    cases hs : f.machine.main with
    | setting uri =>
      unfold mainEvents
      rw [hs]
      obtain ⟨before, after, h1, h2⟩ := authUrl_secret libs c c' s uri hid ha
      exact .cons (.inr (.inr ⟨before, after, _, _, .inr (by rw [h1]), .inr (by rw [h2]), formText_quotePlus _, formText_quotePlus _⟩)) .nil
    | _ =>
      unfold mainEvents
      rw [hs]
      exact forall₂_refl_filter (fun e => .inl rfl) _

/-- **C118** (partial: but for the authorization URL, see `C118_secret_in_url`) In both flows, for every schedule, all requests to the
local server and every input: the client's secret is told to the token endpoint only. -/
theorem C118_secret_partial (libs : Libs) (c c' : Client) (hid : c.clientId = c'.clientId) (ha : c.authEndpoint = c'.authEndpoint)
    (ht : c.tokenEndpoint = c'.tokenEndpoint) (s : Session)
    (forceOob opens : Bool) (requests : List Str) (schedule : List Thread) (input : Str) :
    List.Forall₂ (SameButSecret c.tokenEndpoint c.clientSecret c'.clientSecret)
      (outputs c s input (flow libs c s (.init s forceOob opens requests) schedule))
      (outputs c' s input (flow libs c' s (.init s forceOob opens requests) schedule)) := by
  have key : (flow libs c s (.init s forceOob opens requests) schedule).machine =
      (flow libs c' s (.init s forceOob opens requests) schedule).machine ∧
      List.Forall₂ (SameButSecret c.tokenEndpoint c.clientSecret c'.clientSecret)
        (flow libs c s (.init s forceOob opens requests) schedule).events
        (flow libs c' s (.init s forceOob opens requests) schedule).events := by
    induction schedule using List.reverseRecOn with
    | nil => exact ⟨rfl, forall₂_refl_filter (fun e => .inl rfl) _⟩
    | append_singleton schedule t ih =>
      rw [flow_snoc, flow_snoc]
      exact flowStep_secret hid ha libs s ih.1 ih.2 t
  unfold outputs
  rw [← key.1]
  refine List.rel_append key.2 ?_
  cases hr : OAuth.tokenRequest s input (flow libs c s (.init s forceOob opens requests) schedule).machine with
  | none => exact .nil
  | some r =>
    cases r with
    | error e => exact .nil
    | ok t =>
      dsimp only
      rw [← hid, ← ht]
      exact .cons (.inl rfl) (.cons (.inr (.inl ⟨_, _, rfl, rfl⟩)) .nil)

theorem handsOut_server {libs : Libs} {c : Client} {s : Session} {m : Machine} {e : Event} {url : Str}
    (he : e ∈ serverEvents libs c s m) (h : HandsOut e url) : ∃ uri, m.server = .setting uri ∧ url = s.authUrl libs c uri := by
  unfold serverEvents at he
  rcases h with rfl | rfl
  · split at he
    · split at he
      · cases he
      · split at he
        · simp at he
        · split at he
          · simp at he
          · split at he <;> simp at he
    · cases he
    · split at he <;> simp at he
    · rename_i uri hs
      rw [List.mem_singleton] at he
      cases he
      exact ⟨uri, hs, rfl⟩
  · split at he
    · split at he
      · cases he
      · split at he
        · simp at he
        · split at he
          · simp at he
          · split at he <;> simp at he
    · cases he
    · split at he <;> simp at he
    · rw [List.mem_singleton] at he
      cases he

theorem handsOut_main {libs : Libs} {c : Client} {s : Session} {m : Machine} {e : Event} {url : Str}
    (he : e ∈ mainEvents libs c s m) (h : HandsOut e url) : ∃ uri, m.main = .setting uri ∧ url = s.authUrl libs c uri := by
  unfold mainEvents at he
  split at he
  · rw [List.mem_singleton] at he
    subst he
    rcases h with h | h <;> cases h
  · rename_i uri hs
    rw [List.mem_singleton] at he
    subst he
    rcases h with h | h
    · cases h
    · injection h with h
      exact ⟨uri, hs, (List.append_cancel_left h).symm⟩
  · cases he

/-- the URLs that are given away are authorization URLs of the session -/
theorem handsOut_url (libs : Libs) (c : Client) (s : Session) (forceOob opens : Bool) (requests : List Str)
    (schedule : List Thread) (input : Str) (e : Event) (url : Str) (h : HandsOut e url)
    (he : e ∈ outputs c s input (flow libs c s (.init s forceOob opens requests) schedule)) : ∃ uri, url = s.authUrl libs c uri := by
  have key : e ∈ (flow libs c s (.init s forceOob opens requests) schedule).events := by
    rcases List.mem_append.1 he with he | he
    · exact he
    · exfalso
      split at he
      · simp only [List.mem_cons, List.not_mem_nil, or_false] at he
        rcases he with rfl | rfl <;> rcases h with h | h <;> cases h
      · cases he
  clear he
  induction schedule using List.reverseRecOn with
  | nil =>
    exfalso
    change e ∈ (if forceOob then [] else [Event.browser s.baseUri]) ++
        (if !forceOob && opens then [Event.stderr "Waiting for browser interaction...".toList] else []) at key
    rcases List.mem_append.1 key with he | he <;> split at he
    · cases he
    · rw [List.mem_singleton] at he; subst he; rcases h with h | h <;> cases h
    · rw [List.mem_singleton] at he
      subst he
      rcases h with h | h
      · cases h
      · injection h with h
        have := congrArg List.head? h
        revert this
        simp
    · cases he
  | append_singleton schedule t ih =>
    rw [flow_snoc] at key
    cases t with
    | server =>
      rcases List.mem_append.1 key with he | he
      · exact ih he
      · obtain ⟨uri, -, hu⟩ := handsOut_server he h
        exact ⟨uri, hu⟩
    | main =>
      rcases List.mem_append.1 key with he | he
      · exact ih he
      · obtain ⟨uri, -, hu⟩ := handsOut_main he h
        exact ⟨uri, hu⟩

/-- **C118** is false of the authorization URL: whoever gets it gets the secret, which is one of its parameters (RFC 6749, section
4.1.1, knows no such parameter), whatever the session, the schedule and the requests are. -/
theorem C118_secret_in_url (libs : Libs) (c : Client) (h1 : '?' ∉ c.authEndpoint) (h2 : '#' ∉ c.authEndpoint) (s : Session)
    (forceOob opens : Bool) (requests : List Str) (schedule : List Thread) (input : Str) (e : Event) (url : Str) (h : HandsOut e url)
    (he : e ∈ outputs c s input (flow libs c s (.init s forceOob opens requests) schedule)) :
    ∃ q fields, QueryOf url q ∧ IsForm q fields ∧ ("client_secret".toList, c.clientSecret) ∈ fields := by
  obtain ⟨uri, rfl⟩ := handsOut_url _ _ _ _ _ _ _ _ _ _ h he
  obtain ⟨q, hq, hf⟩ := C98_authorization_url_partial c.authEndpoint c.clientId c.clientSecret (s.authParams libs uri) h1 h2
  refine ⟨q, _, hq, hf, ?_⟩
  unfold authorizationFields
  exact .tail _ (.tail _ (.head _))

/-- **C118** and somebody gets it: in the out-of-band flow it is on the screen as soon as the user is asked for the code. -/
theorem C118_url_printed (libs : Libs) (c : Client) (s : Session) (forceOob opens : Bool) (requests : List Str)
    (schedule : List Thread) (input : Str) (h : (OAuth.run libs s (.init (!forceOob && opens) requests) schedule).main = .printed) :
    ∃ e url, HandsOut e url ∧ e ∈ outputs c s input (flow libs c s (.init s forceOob opens requests) schedule) := by
  suffices key : ∃ e url, HandsOut e url ∧ e ∈ (flow libs c s (.init s forceOob opens requests) schedule).events by
    obtain ⟨e, url, h1, h2⟩ := key
    exact ⟨e, url, h1, List.mem_append_left _ h2⟩
  induction schedule using List.reverseRecOn with
  | nil =>
    exfalso
    change (if (!forceOob && opens) = true then MainPc.waiting else .start) = .printed at h
    split at h <;> cases h
  | append_singleton schedule t ih =>
    have hm := flow_machine libs c s (.init s forceOob opens requests) schedule
    rw [show (Flow.init s forceOob opens requests).machine = Machine.init (!forceOob && opens) requests from rfl] at hm
    rw [run_snoc] at h
    rw [flow_snoc]
    by_cases hp : (OAuth.run libs s (.init (!forceOob && opens) requests) schedule).main = .printed
    · obtain ⟨e, url, k1, k2⟩ := ih hp
      refine ⟨e, url, k1, ?_⟩
      cases t <;> exact List.mem_append_left _ k2
    · rw [← hm] at h hp
      generalize flow libs c s (.init s forceOob opens requests) schedule = f at h hp
      cases t with
      | server =>
        exfalso
        refine hp ?_
        rw [← h]
        show f.machine.main = (serverStep libs s f.machine).main
        unfold serverStep
        split
        · split
          · rfl
          · split
            · rfl
            · split
              · rfl
              · split <;> rfl
        · rfl
        · split <;> rfl
        · rfl
      | main =>
        change (mainStep libs s f.machine).main = .printed at h
        unfold mainStep at h
        split at h
        · rename_i hw; rw [hw] at h; cases h
        · cases h
        · cases h
        · split at h <;> cases h
        · rename_i uri hs
          refine ⟨.stderr ("Go to the following link in a browser:\n\n\t".toList ++ s.authUrl libs c uri), _, .inr rfl, ?_⟩
          refine List.mem_append_right _ ?_
          unfold mainEvents
          rw [hs]
          exact .head _
        · exact absurd h hp
        · rename_i hw; rw [hw] at h; cases h

/-! ## C119: the local server -/

theorem answersTo_snoc (callback start : Str → Prop) [DecidablePred callback] [DecidablePred start] (url x : Str) :
    ∀ before l, answersTo callback start url before (l ++ [x]) =
      answersTo callback start url before l ++ [answerTo callback start url (before ++ l) x]
  | before, [] => by simp [answersTo]
  | before, y :: l => by
    rw [List.cons_append, answersTo, answersTo, answersTo_snoc callback start url x (before ++ [y]) l, List.cons_append,
      List.append_assoc]
    rfl

/-- the request is the redirect of the identity provider -/
abbrev Callback (libs : Libs) (target : Str) : Prop := (libs.split target).1 = "/auth/callback".toList

/-- the request is for the start page -/
abbrev Start (libs : Libs) (target : Str) : Prop := (libs.split target).1 = "/".toList

/-- the authorization URL of the browser flow -/
def browserUrl (libs : Libs) (c : Client) (s : Session) : Str := s.authUrl libs c (s.baseUri ++ "/auth/callback".toList)

/-- the steps that the server thread still has to do -/
def stepsLeft (m : Machine) : Nat :=
  4 * m.requests.length +
    match m.server with
    | .idle => 0
    | .reading => 3
    | .testing _ => 2
    | .setting _ => 1

/-- the requests that were answered, and the one that is being answered -/
structure Serving (libs : Libs) (c : Client) (s : Session) (requests : List Str) (f : Flow) (done pending : List Str) : Prop where
  requests_eq : requests = done ++ pending ++ f.machine.requests
  answers : f.events.filter isAnswer = answersTo (Callback libs) (Start libs) (browserUrl libs c s) [] done
  response : f.machine.response ≠ none ↔ ∃ x ∈ done, Callback libs x
  poison : f.machine.response = none → (f.machine.poison = true ↔ ∃ x ∈ done, Start libs x)
  main : f.machine.main = .waiting
  oob : f.machine.oob = false
  idle : f.machine.server = .idle ↔ pending = []
  busy : pending ≠ [] → f.machine.response = none ∧ ∃ x, pending = [x] ∧ Start libs x ∧ ¬ Callback libs x
  uri : ∀ u, f.machine.server = .testing u ∨ f.machine.server = .setting u → u = s.baseUri ++ "/auth/callback".toList
  fresh : ∀ u, f.machine.server = .setting u → f.machine.poison = false

theorem serving (libs : Libs) (c : Client) (s : Session) (requests : List Str) (schedule : List Thread) :
    (∃ done pending, Serving libs c s requests (flow libs c s (.init s false true requests) schedule) done pending) ∧
      (stepsLeft (flow libs c s (.init s false true requests) schedule).machine = 0 ∨
        stepsLeft (flow libs c s (.init s false true requests) schedule).machine + schedule.count .server ≤ 4 * requests.length) := by
  induction schedule using List.reverseRecOn with
  | nil =>
    refine ⟨⟨[], [], ⟨rfl, rfl, ?_, ?_, rfl, rfl, ?_, by simp, ?_, ?_⟩⟩, .inr ?_⟩
    · simp [flow, Flow.init, Machine.init]
    · simp [flow, Flow.init, Machine.init]
    · simp [flow, Flow.init, Machine.init]
    · simp [flow, Flow.init, Machine.init]
    · simp [flow, Flow.init, Machine.init]
    · simp [flow, Flow.init, Machine.init, stepsLeft]
  | append_singleton schedule t ih =>
    rw [flow_snoc]
    obtain ⟨⟨done, pending, h⟩, hsteps⟩ := ih
    generalize flow libs c s (.init s false true requests) schedule = f at h hsteps
    obtain ⟨⟨poison, oob, response, queue, server, main, issued⟩, events⟩ := f
    obtain ⟨h1, h2, h3, h4, h5, h6, h7, h8, h9, h10⟩ := h
    dsimp only at h1 h2 h3 h4 h5 h6 h7 h8 h9 h10
    subst h5 h6
    rw [List.count_append]
    cases t with
    | main =>
      refine ⟨⟨done, pending, ⟨h1, ?_, h3, h4, rfl, rfl, h7, h8, h9, h10⟩⟩, ?_⟩
      · show (events ++ []).filter isAnswer = _
        rw [List.append_nil]; exact h2
      · have hz : List.count Thread.server [Thread.main] = 0 := rfl
        rw [hz]
        exact hsteps
    | server =>
      have hcount : List.count Thread.server [Thread.server] = 1 := rfl
      rw [hcount]
      cases server with
      | idle =>
        have hp : pending = [] := h7.1 rfl
        subst hp
        cases queue with
        | nil =>
          refine ⟨⟨done, [], ⟨h1, ?_, h3, h4, rfl, rfl, h7, h8, h9, h10⟩⟩, .inl rfl⟩
          show (events ++ []).filter isAnswer = _
          rw [List.append_nil]; exact h2
        | cons target rest =>
          have hleft : 4 * (rest.length + 1) + schedule.count .server ≤ 4 * requests.length := by
            rcases hsteps with hsteps | hsteps
            · simp [stepsLeft] at hsteps
            · simpa [stepsLeft] using hsteps
          have hreq : requests = (done ++ [target]) ++ [] ++ rest := by simpa using h1
          by_cases hr : response = none
          · subst hr
            have hnone : ¬ ∃ x ∈ done, Callback libs x := fun hx => h3.2 hx rfl
            by_cases hc : Callback libs target
            · have e1 : flowStep libs c s ⟨⟨poison, false, none, target :: rest, .idle, .waiting, issued⟩, events⟩ .server =
                  ⟨⟨poison, false, some (libs.parseQs (libs.split target).2), rest, .idle, .waiting, issued⟩,
                    events ++ [.logged false (.get target), .answer 200 none]⟩ := by
                unfold flowStep serverStep serverEvents
                simp only [ne_eq, not_true_eq_false, if_false, if_pos (show (libs.split target).1 = "/auth/callback".toList from hc)]
              rw [e1]
              refine ⟨⟨done ++ [target], [], ⟨hreq, ?_, ?_, ?_, rfl, rfl, ?_, ?_, ?_, ?_⟩⟩, ?_⟩
              · rw [List.filter_append, h2, answersTo_snoc, List.nil_append]
                unfold answerTo
                rw [if_neg hnone, if_pos hc]
                rfl
              · simp only [ne_eq, reduceCtorEq, not_false_eq_true, true_iff]
                exact ⟨target, by simp, hc⟩
              · intro h; cases h
              · simp
              · simp
              · rintro u (hu | hu) <;> cases hu
              · rintro u hu; cases hu
              · refine .inr ?_
                show 4 * rest.length + 0 + _ ≤ _
                omega
            · have hc' : ¬ (libs.split target).1 = "/auth/callback".toList := hc
              by_cases hs : Start libs target
              · have e1 : flowStep libs c s ⟨⟨poison, false, none, target :: rest, .idle, .waiting, issued⟩, events⟩ .server =
                    ⟨⟨poison, false, none, rest, .reading, .waiting, issued⟩, events ++ [.logged false (.get target)]⟩ := by
                  unfold flowStep serverStep serverEvents
                  simp only [ne_eq, not_true_eq_false, if_false, if_neg hc', if_pos (show (libs.split target).1 = "/".toList from hs)]
                rw [e1]
                refine ⟨⟨done, [target], ⟨by simpa using h1, ?_, h3, h4, rfl, rfl, ?_, ?_, ?_, ?_⟩⟩, ?_⟩
                · rw [List.filter_append, h2]
                  exact List.append_nil _
                · simp
                · exact fun _ => ⟨rfl, target, rfl, hs, hc⟩
                · rintro u (hu | hu) <;> cases hu
                · rintro u hu; cases hu
                · refine .inr ?_
                  show 4 * rest.length + 3 + _ ≤ _
                  omega
              · have hs' : ¬ (libs.split target).1 = "/".toList := hs
                have e1 : flowStep libs c s ⟨⟨poison, false, none, target :: rest, .idle, .waiting, issued⟩, events⟩ .server =
                    ⟨⟨poison, false, none, rest, .idle, .waiting, issued⟩,
                      events ++ [.logged false (.get target), .answer 404 none]⟩ := by
                  unfold flowStep serverStep serverEvents
                  simp only [ne_eq, not_true_eq_false, if_false, if_neg hc', if_neg hs']
                rw [e1]
                refine ⟨⟨done ++ [target], [], ⟨hreq, ?_, ?_, ?_, rfl, rfl, ?_, ?_, ?_, ?_⟩⟩, ?_⟩
                · rw [List.filter_append, h2, answersTo_snoc, List.nil_append]
                  unfold answerTo
                  rw [if_neg hnone, if_neg hc, if_neg hs]
                  rfl
                · simp only [ne_eq, not_true_eq_false, false_iff]
                  rintro ⟨x, hx, hcx⟩
                  rcases List.mem_append.1 hx with hx | hx
                  · exact hnone ⟨x, hx, hcx⟩
                  · rw [List.mem_singleton] at hx; subst hx; exact hc hcx
                · intro _
                  rw [h4 rfl]
                  constructor
                  · rintro ⟨x, hx, hsx⟩; exact ⟨x, List.mem_append_left _ hx, hsx⟩
                  · rintro ⟨x, hx, hsx⟩
                    rcases List.mem_append.1 hx with hx | hx
                    · exact ⟨x, hx, hsx⟩
                    · rw [List.mem_singleton] at hx; subst hx; exact absurd hsx hs
                · simp
                · simp
                · rintro u (hu | hu) <;> cases hu
                · rintro u hu; cases hu
                · refine .inr ?_
                  show 4 * rest.length + 0 + _ ≤ _
                  omega
          · have hsome := h3.1 hr
            have e1 : flowStep libs c s ⟨⟨poison, false, response, target :: rest, .idle, .waiting, issued⟩, events⟩ .server =
                ⟨⟨poison, false, response, rest, .idle, .waiting, issued⟩,
                  events ++ [.logged false (.get target), .logged false (.teardown target), .answer 404 none]⟩ := by
              unfold flowStep serverStep serverEvents
              simp only [if_pos hr]
            rw [e1]
            refine ⟨⟨done ++ [target], [], ⟨hreq, ?_, ?_, ?_, rfl, rfl, ?_, ?_, ?_, ?_⟩⟩, ?_⟩
            · rw [List.filter_append, h2, answersTo_snoc, List.nil_append]
              unfold answerTo
              rw [if_pos hsome]
              rfl
            · refine ⟨fun _ => ?_, fun _ => hr⟩
              obtain ⟨x, hx, hcx⟩ := hsome
              exact ⟨x, List.mem_append_left _ hx, hcx⟩
            · intro h; exact absurd h hr
            · simp
            · simp
            · rintro u (hu | hu) <;> cases hu
            · rintro u hu; cases hu
            · refine .inr ?_
              show 4 * rest.length + 0 + _ ≤ _
              omega
      | reading =>
        have hp : pending ≠ [] := fun h => by have := h7.2 h; cases this
        have hleft : 4 * queue.length + 3 + schedule.count .server ≤ 4 * requests.length := by
          rcases hsteps with hsteps | hsteps
          · simp [stepsLeft] at hsteps
          · simpa [stepsLeft] using hsteps
        refine ⟨⟨done, pending, ⟨h1, ?_, h3, h4, rfl, rfl, ?_, h8, ?_, ?_⟩⟩, ?_⟩
        · show (events ++ []).filter isAnswer = _
          rw [List.append_nil]; exact h2
        · exact ⟨(fun h => nomatch h), fun h => absurd h hp⟩
        · rintro u (hu | hu) <;> cases hu
          rfl
        · rintro u hu; cases hu
        · refine .inr ?_
          show 4 * queue.length + 2 + _ ≤ _
          omega
      | testing u =>
        have hp : pending ≠ [] := fun h => by have := h7.2 h; cases this
        have hu := h9 u (.inl rfl)
        have hleft : 4 * queue.length + 2 + schedule.count .server ≤ 4 * requests.length := by
          rcases hsteps with hsteps | hsteps
          · simp [stepsLeft] at hsteps
          · simpa [stepsLeft] using hsteps
        obtain ⟨rfl, x, rfl, hs, hc⟩ := h8 hp
        have hnone : ¬ ∃ x ∈ done, Callback libs x := fun hx => h3.2 hx rfl
        cases poison with
        | true =>
          refine ⟨⟨done ++ [x], [], ⟨h1.trans (by simp; rfl), ?_, ?_, ?_, rfl, rfl, ?_, ?_, ?_, ?_⟩⟩, ?_⟩
          · show (events ++ [Event.dropped]).filter isAnswer = _
            rw [List.filter_append, h2, answersTo_snoc, List.nil_append]
            unfold answerTo
            rw [if_neg hnone, if_neg hc, if_pos hs, if_pos ((h4 rfl).1 rfl)]
            rfl
          · refine ⟨fun h => absurd rfl h, ?_⟩
            rintro ⟨y, hy, hcy⟩
            exfalso
            rcases List.mem_append.1 hy with hy | hy
            · exact hnone ⟨y, hy, hcy⟩
            · rw [List.mem_singleton] at hy; subst hy; exact hc hcy
          · intro _
            refine ⟨fun _ => ⟨x, by simp, hs⟩, fun _ => rfl⟩
          · exact ⟨fun _ => rfl, fun _ => rfl⟩
          · simp
          · rintro u (hu | hu) <;> cases hu
          · rintro u hu; cases hu
          · refine .inr ?_
            show 4 * queue.length + 0 + _ ≤ _
            omega
        | false =>
          refine ⟨⟨done, [x], ⟨h1, ?_, h3, h4, rfl, rfl, ?_, h8, ?_, ?_⟩⟩, ?_⟩
          · show (events ++ []).filter isAnswer = _
            rw [List.append_nil]; exact h2
          · exact ⟨(fun h => nomatch h), fun h => absurd h hp⟩
          · rintro v (hv | hv) <;> cases hv
            exact hu
          · intro _ _; rfl
          · refine .inr ?_
            show 4 * queue.length + 1 + _ ≤ _
            omega
      | setting u =>
        have hp : pending ≠ [] := fun h => by have := h7.2 h; cases this
        have hu := h9 u (.inr rfl)
        have hleft : 4 * queue.length + 1 + schedule.count .server ≤ 4 * requests.length := by
          rcases hsteps with hsteps | hsteps
          · simp [stepsLeft] at hsteps
          · simpa [stepsLeft] using hsteps
        have hpoison := h10 u rfl
        subst hpoison
        obtain ⟨rfl, x, rfl, hs, hc⟩ := h8 hp
        have hnone : ¬ ∃ x ∈ done, Callback libs x := fun hx => h3.2 hx rfl
        have hnot : ¬ ∃ x ∈ done, Start libs x := fun hx => by have := (h4 rfl).2 hx; cases this
        refine ⟨⟨done ++ [x], [], ⟨h1.trans (by simp; rfl), ?_, ?_, ?_, rfl, rfl, ?_, ?_, ?_, ?_⟩⟩, ?_⟩
        · show (events ++ [Event.answer 302 (some (s.authUrl libs c u))]).filter isAnswer = _
          rw [List.filter_append, h2, answersTo_snoc, List.nil_append, hu]
          unfold answerTo
          rw [if_neg hnone, if_neg hc, if_pos hs, if_neg hnot]
          rfl
        · refine ⟨fun h => absurd rfl h, ?_⟩
          rintro ⟨y, hy, hcy⟩
          exfalso
          rcases List.mem_append.1 hy with hy | hy
          · exact hnone ⟨y, hy, hcy⟩
          · rw [List.mem_singleton] at hy; subst hy; exact hc hcy
        · intro _
          exact ⟨fun _ => ⟨x, by simp, hs⟩, fun _ => rfl⟩
        · exact ⟨fun _ => rfl, fun _ => rfl⟩
        · simp
        · rintro u (hu | hu) <;> cases hu
        · rintro u hu; cases hu
        · refine .inr ?_
          show 4 * queue.length + 0 + _ ≤ _
          omega

/-- the token request is no answer -/
theorem outputs_answers (c : Client) (s : Session) (input : Str) (f : Flow) :
    (outputs c s input f).filter isAnswer = f.events.filter isAnswer := by
  unfold outputs
  rw [List.filter_append]
  split
  · exact List.append_nil _
  · exact List.append_nil _

/-- **C119** In the browser flow, for every schedule: the local server answers the requests in order, each as the requests before it
determine; all but the one it is working on among those it has taken. -/
theorem C119_answers (libs : Libs) (c : Client) (s : Session) (requests : List Str) (schedule : List Thread) (input : Str) :
    ∃ done pending, pending.length ≤ 1 ∧
      requests = done ++ pending ++ (OAuth.run libs s (.init true requests) schedule).requests ∧
      (outputs c s input (flow libs c s (.init s false true requests) schedule)).filter isAnswer =
        answersTo (fun x => (libs.split x).1 = "/auth/callback".toList) (fun x => (libs.split x).1 = "/".toList)
          (Url.authUrl c.authEndpoint c.clientId c.clientSecret
            ⟨s.baseUri ++ "/auth/callback".toList, urlsafeB64 (libs.sha256 (utf8 s.codeVerifier)), s.state⟩) [] done := by
  obtain ⟨⟨done, pending, h⟩, -⟩ := serving libs c s requests schedule
  have hm := flow_machine libs c s (.init s false true requests) schedule
  refine ⟨done, pending, ?_, ?_, (outputs_answers _ _ _ _).trans h.answers⟩
  · by_cases hp : pending = []
    · rw [hp]; exact Nat.zero_le _
    · obtain ⟨-, x, hx, -⟩ := h.busy hp
      rw [hx]; exact Nat.le_refl _
  · have := h.requests_eq
    rw [hm] at this
    exact this

/-- **C119** If the server thread gets to run – four steps for each request are enough –, all requests are answered. -/
theorem C119_all_answered (libs : Libs) (c : Client) (s : Session) (requests : List Str) (schedule : List Thread) (input : Str)
    (h : 4 * requests.length ≤ schedule.count .server) :
    (outputs c s input (flow libs c s (.init s false true requests) schedule)).filter isAnswer =
      answersTo (fun x => (libs.split x).1 = "/auth/callback".toList) (fun x => (libs.split x).1 = "/".toList)
        (Url.authUrl c.authEndpoint c.clientId c.clientSecret
          ⟨s.baseUri ++ "/auth/callback".toList, urlsafeB64 (libs.sha256 (utf8 s.codeVerifier)), s.state⟩) [] requests := by
  obtain ⟨⟨done, pending, hs⟩, hsteps⟩ := serving libs c s requests schedule
  have h0 : stepsLeft (flow libs c s (.init s false true requests) schedule).machine = 0 := by
    rcases hsteps with hsteps | hsteps
    · exact hsteps
    · omega
  have hq : (flow libs c s (.init s false true requests) schedule).machine.requests = [] ∧
      (flow libs c s (.init s false true requests) schedule).machine.server = .idle := by
    unfold stepsLeft at h0
    constructor
    · refine List.length_eq_zero_iff.1 ?_
      omega
    · cases hsrv : (flow libs c s (.init s false true requests) schedule).machine.server <;> rw [hsrv] at h0 <;>
        first
          | rfl
          | (exfalso; dsimp only at h0; omega)
  have hp := hs.idle.1 hq.2
  have hr := hs.requests_eq
  rw [hp, hq.1, List.append_nil, List.append_nil] at hr
  rw [outputs_answers, hs.answers, ← hr]
  rfl

/-- **C119** The authorization URL, and with it the session's state, is given to one asker at most, and the redirect is confirmed to
one at most. -/
theorem C119_once (callback start : Str → Prop) [DecidablePred callback] [DecidablePred start] (url : Str) (requests : List Str) :
    (answersTo callback start url [] requests).countP (· = .answer 302 (some url)) ≤ 1 ∧
    (answersTo callback start url [] requests).countP (· = .answer 200 none) ≤ 1 := by
  have key : ∀ l before,
      (answersTo callback start url before l).countP (· = .answer 302 (some url)) ≤ (if ∃ x ∈ before, start x then 0 else 1) ∧
      (answersTo callback start url before l).countP (· = .answer 200 none) ≤ (if ∃ x ∈ before, callback x then 0 else 1) := by
    intro l
    induction l with
    | nil => intro before; simp [answersTo]
    | cons x l ih =>
      intro before
      obtain ⟨i1, i2⟩ := ih (before ++ [x])
      have m1 : ∀ p : Str → Prop, (∃ y ∈ before ++ [x], p y) ↔ (∃ y ∈ before, p y) ∨ p x := by
        intro p
        simp only [List.mem_append, List.mem_singleton]
        constructor
        · rintro ⟨y, hy | rfl, hp⟩
          · exact .inl ⟨y, hy, hp⟩
          · exact .inr hp
        · rintro (⟨y, hy, hp⟩ | hp)
          · exact ⟨y, .inl hy, hp⟩
          · exact ⟨x, .inr rfl, hp⟩
      simp only [m1] at i1 i2
      rw [answersTo, List.countP_cons, List.countP_cons]
      unfold answerTo
      by_cases hb : ∃ y ∈ before, callback y <;> by_cases hc : callback x <;> by_cases hs : start x <;>
        by_cases hbs : ∃ y ∈ before, start y <;>
        simp only [hb, hc, hs, hbs, if_true, if_false, or_true, or_self, or_false, decide_true, decide_false, reduceCtorEq,
          Event.answer.injEq, Option.some.injEq, Nat.reduceEqDiff, false_and, and_false, true_and, and_self, Bool.false_eq_true] at i1 i2 ⊢ <;>
        omega
  have := key requests []
  simpa using this

/-! ## Examples -/

/-- a client -/
def exOClient : Client := ⟨"sigstore".toList, "se cret".toList, "https://a".toList, "https://t".toList⟩

/-- the requests of a browser and of somebody else -/
def exORequests : List Str := ["/".toList, "/favicon.ico".toList, "/".toList, "/auth/callback?st".toList, "/auth/callback?zz".toList]

/-- a browser flow: the first request for the start page is redirected, the second one is dropped, the first redirect is confirmed -/
example : ((outputs exOClient exOSession [] (flow exOLibs exOClient exOSession (.init exOSession false true exORequests)
      (List.replicate 20 .server))).filter isAnswer).map (fun
        | .answer n _ => n
        | _ => 0) = [302, 404, 0, 200, 404] := by
  decide +kernel

/-- its token request -/
example : ∃ t, tokenRequest exOSession [] (OAuth.run exOLibs exOSession (.init (!false && true) exORequests)
    (List.replicate 20 .server)) = some (.ok t) ∧ t.code = "c".toList := by
  refine ⟨_, rfl, rfl⟩

/-- two verifiers with the same challenge, for different hash functions -/
example : SameChallenge exOLibs { exOLibs with sha256 := fun b => if b = utf8 "w".toList then utf8 "v".toList else [] }
    exOSession { exOSession with codeVerifier := "w".toList } :=
  ⟨rfl, rfl, rfl, rfl, by decide +kernel⟩

/-- an out-of-band flow in which the URL is printed, and the secret is in it -/
example : (OAuth.run exOLibs exOSession (.init (!true && true) []) [.main, .main, .main, .main]).main = .printed ∧
    (outputs exOClient exOSession [] (flow exOLibs exOClient exOSession (.init exOSession true true [])
      [.main, .main, .main, .main])).any (fun
        | .stderr t => decide ("client_secret=se+cret".toList <:+: t)
        | _ => false) = true := by
  decide +kernel

end Sigstore.Props
