import Verif.Model.OAuth
import Mathlib.Data.List.Induction

/-!
# C41, C67: the OAuth redirect flow
-/

namespace Sigstore.Props

open Sigstore.OAuth

theorem run_append (libs : Libs) (s : Session) (m : Machine) (a b : List Thread) :
    OAuth.run libs s m (a ++ b) = OAuth.run libs s (OAuth.run libs s m a) b := List.foldl_append ..

theorem run_snoc (libs : Libs) (s : Session) (m : Machine) (a : List Thread) (t : Thread) :
    OAuth.run libs s m (a ++ [t]) = step libs s (OAuth.run libs s m a) t := by rw [run_append]; rfl

/-- a request is the redirect of the authorization server -/
def isCallback (libs : Libs) (target : Str) : Bool := (libs.split target).1 = "/auth/callback".toList

/-- **C41** In both flows and for every schedule: the response is that of the first redirect request among the requests
served so far, whatever comes after it. -/
theorem C41_first_response (libs : Libs) (s : Session) (browser : Bool) (requests : List Str) (schedule : List Thread) :
    ∃ served, requests = served ++ (OAuth.run libs s (.init browser requests) schedule).requests ∧
      (OAuth.run libs s (.init browser requests) schedule).response =
        (served.find? (isCallback libs)).map fun t => libs.parseQs (libs.split t).2 := by
  induction schedule using List.reverseRecOn with
  | nil => exact ⟨[], rfl, rfl⟩
  | append_singleton schedule t ih =>
    rw [run_snoc]
    generalize OAuth.run libs s (.init browser requests) schedule = m at ih
    obtain ⟨served, h1, h2⟩ := ih
    cases t with
    | main =>
      refine ⟨served, ?_, ?_⟩
      · rw [h1]
        unfold step mainStep
        dsimp only
        split <;> first | rfl | (split <;> rfl)
      · rw [← h2]
        unfold step mainStep
        dsimp only
        split <;> first | rfl | (split <;> rfl)
    | server =>
      unfold step serverStep
      dsimp only
      cases hs : m.server with
      | idle =>
        dsimp only
        cases hr : m.requests with
        | nil => exact ⟨served, by simpa [hr] using h1, h2⟩
        | cons target rest =>
          dsimp only
          have h1' : requests = (served ++ [target]) ++ rest := by rw [h1, hr]; simp
          by_cases hn : m.response ≠ none
          · rw [if_pos hn]
            refine ⟨_, h1', ?_⟩
            dsimp only
            rw [List.find?_append, h2]
            cases hf : served.find? (isCallback libs) with
            | none => rw [hf] at h2; exact absurd h2 hn
            | some x => rfl
          · rw [if_neg hn]
            have hn : m.response = none := not_not.1 hn
            have hf : served.find? (isCallback libs) = none := by
              rw [hn] at h2
              cases hf : served.find? (isCallback libs) with
              | none => rfl
              | some x => rw [hf] at h2; cases h2
            by_cases hc : (libs.split target).1 = "/auth/callback".toList
            · rw [if_pos hc]
              refine ⟨_, h1', ?_⟩
              dsimp only
              rw [List.find?_append, hf, List.find?_cons_of_pos (show isCallback libs target = true from decide_eq_true hc)]
              rfl
            · rw [if_neg hc]
              have hnew : (served ++ [target]).find? (isCallback libs) = none := by
                rw [List.find?_append, hf, List.find?_cons_of_neg (by rw [Bool.not_eq_true]; exact decide_eq_false hc)]
                rfl
              split
              · refine ⟨_, h1', ?_⟩
                dsimp only
                rw [hnew, hn]; rfl
              · refine ⟨_, h1', ?_⟩
                dsimp only
                rw [hnew, hn]; rfl
      | reading => exact ⟨served, h1, h2⟩
      | testing uri => dsimp only; split <;> exact ⟨served, h1, h2⟩
      | setting uri => exact ⟨served, h1, h2⟩

/-- **C41** Once fixed, the response never changes. -/
theorem C41_response_stable (libs : Libs) (s : Session) (browser : Bool) (requests : List Str)
    (before after : List Thread) (q : Query)
    (h : (OAuth.run libs s (.init browser requests) before).response = some q) :
    (OAuth.run libs s (.init browser requests) (before ++ after)).response = some q := by
  induction after using List.reverseRecOn with
  | nil => rw [List.append_nil]; exact h
  | append_singleton l t ih =>
    rw [← List.append_assoc, run_snoc]
    generalize OAuth.run libs s (.init browser requests) (before ++ l) = m at ih
    cases t with
    | main =>
      rw [← ih]
      unfold step mainStep
      dsimp only
      split <;> first | rfl | (split <;> rfl)
    | server =>
      unfold step serverStep
      dsimp only
      split
      · split
        · exact ih
        · rw [if_pos (by rw [ih]; simp)]; exact ih
      · exact ih
      · split <;> exact ih
      · exact ih

theorem first_ok_iff (q : Query) (k v : Str) : first q k = .ok v ↔ ∃ l, q.get? k = some (v :: l) := by
  unfold first
  rcases q.get? k with _ | _ | ⟨a, l⟩ <;> simp [eq_comm]

/-- **C41** A code is taken from a response exactly if it reports no error and carries the session's state. -/
theorem C41_code_iff (state : Str) (q : Query) (code : Str) :
    checkResponse state q = .ok code ↔
      q.get? "error".toList = none ∧ (∃ l, q.get? "state".toList = some (state :: l)) ∧
      ∃ l, q.get? "code".toList = some (code :: l) := by
  unfold checkResponse
  rw [← first_ok_iff, ← first_ok_iff]
  rcases hq : q.get? "error".toList with _ | _ | ⟨a, l⟩
  · dsimp only
    simp only [true_and]
    cases hf : first q "state".toList with
    | error e => simp
    | ok st =>
      dsimp only
      by_cases h : st = state
      · subst h; simp
      · rw [if_pos h]; simp [h]
  · simp
  · simp

/-- the browser flow: what every reachable state satisfies -/
theorem browser_invariant (libs : Libs) (s : Session) (requests : List Str) (schedule : List Thread) :
    let m := OAuth.run libs s (.init true requests) schedule
    m.main = .waiting ∧ m.oob = false ∧
    (m.issued = [] ∨ m.issued = [s.authParams libs (s.baseUri ++ "/auth/callback".toList)] ∧ m.poison = true) ∧
    (∀ u, m.server = .testing u → u = s.baseUri ++ "/auth/callback".toList) ∧
    (∀ u, m.server = .setting u → u = s.baseUri ++ "/auth/callback".toList ∧ m.issued = []) := by
  induction schedule using List.reverseRecOn with
  | nil => exact ⟨rfl, rfl, .inl rfl, by simp [OAuth.run, Machine.init], by simp [OAuth.run, Machine.init]⟩
  | append_singleton schedule t ih =>
    dsimp only at ih ⊢
    rw [run_snoc]
    generalize OAuth.run libs s (.init true requests) schedule = m at ih
    obtain ⟨h1, h2, h3, h4, h5⟩ := ih
    cases t with
    | main =>
      have : step libs s m .main = m := by unfold step mainStep; rw [h1]
      rw [this]
      exact ⟨h1, h2, h3, h4, h5⟩
    | server =>
      unfold step serverStep
      dsimp only
      cases hs : m.server with
      | idle =>
        dsimp only
        split
        · exact ⟨h1, h2, h3, h4, h5⟩
        · split
          · exact ⟨h1, h2, h3, by simp, by simp⟩
          · split
            · exact ⟨h1, h2, h3, by simp, by simp⟩
            · split
              · exact ⟨h1, h2, h3, by simp, by simp⟩
              · exact ⟨h1, h2, h3, by simp, by simp⟩
      | reading =>
        refine ⟨h1, h2, h3, ?_, by simp⟩
        intro u hu
        simp only [ServerPc.testing.injEq] at hu
        rw [← hu, h2]; rfl
      | testing uri =>
        dsimp only
        split
        · exact ⟨h1, h2, h3, by simp, by simp⟩
        · rename_i hp
          refine ⟨h1, h2, h3, by simp, ?_⟩
          intro u hu
          simp only [ServerPc.setting.injEq] at hu
          refine ⟨hu ▸ h4 uri hs, ?_⟩
          rcases h3 with h3 | h3
          · exact h3
          · exact absurd h3.2 hp
      | setting uri =>
        obtain ⟨hu, hi⟩ := h5 uri hs
        dsimp only
        refine ⟨h1, h2, .inr ⟨by rw [hi, hu]; rfl, rfl⟩, by simp, by simp⟩

/-- **C41** Browser flow, for every schedule and all requests: the authorization URL is handed out at most once; a token
request is made only if the first redirect carried the session's state, with the code it carried; the redirect URI and
the state of the token request are those of the authorization request, whose challenge is that of the verifier. -/
theorem C41_browser_flow (libs : Libs) (s : Session) (requests : List Str) (schedule : List Thread) (input : Str) :
    (OAuth.run libs s (.init true requests) schedule).issued.length ≤ 1 ∧
    ∀ t, tokenRequest s input (OAuth.run libs s (.init true requests) schedule) = some (.ok t) →
      (∃ served target rest q, requests = served ++ target :: rest ∧ (∀ x ∈ served, isCallback libs x = false) ∧
        isCallback libs target = true ∧ q = libs.parseQs (libs.split target).2 ∧ q.get? "error".toList = none ∧
        (∃ l, q.get? "state".toList = some (s.state :: l)) ∧ ∃ l, q.get? "code".toList = some (t.code :: l)) ∧
      ∀ a ∈ (OAuth.run libs s (.init true requests) schedule).issued,
        a.redirectUri = t.redirectUri ∧ a.state = s.state ∧
        a.codeChallenge = urlsafeB64 (libs.sha256 (utf8 t.codeVerifier)) := by
  obtain ⟨h1, h2, h3, _, _⟩ := browser_invariant libs s requests schedule
  obtain ⟨served, hreq, hresp⟩ := C41_first_response libs s true requests schedule
  generalize OAuth.run libs s (.init true requests) schedule = m at h1 h2 h3 hreq hresp
  refine ⟨?_, fun t ht => ?_⟩
  · rcases h3 with h3 | h3
    · rw [h3]; simp
    · rw [h3.1]; simp
  · unfold tokenRequest at ht
    rw [h1] at ht
    dsimp only at ht
    cases hr : m.response with
    | none => rw [hr] at ht; simp at ht
    | some q =>
      rw [hr] at ht hresp
      dsimp only at ht
      cases hc : checkResponse s.state q with
      | error e => rw [hc] at ht; simp at ht
      | ok code =>
        rw [hc] at ht
        simp only [Option.some.injEq, Except.ok.injEq] at ht
        subst ht
        constructor
        · cases hf : served.find? (isCallback libs) with
          | none => rw [hf] at hresp; cases hresp
          | some target =>
            rw [hf] at hresp
            simp only [Option.map_some, Option.some.injEq] at hresp
            obtain ⟨hcb, x, y, hxy, hx⟩ := List.find?_eq_some_iff_append.1 hf
            obtain ⟨e1, e2, e3⟩ := (C41_code_iff _ _ _).1 hc
            refine ⟨x, target, y ++ m.requests, q, ?_, fun z hz => ?_, hcb, hresp, e1, e2, e3⟩
            · rw [hreq, hxy]; simp
            · have := hx z hz; simpa using this
        · intro a ha
          rcases h3 with h3 | h3
          · rw [h3] at ha; simp at ha
          · rw [h3.1, List.mem_singleton] at ha
            subst ha
            refine ⟨?_, rfl, rfl⟩
            show s.baseUri ++ "/auth/callback".toList = s.redirectUri m.oob
            rw [h2]; rfl

/-- the main thread tests or sets the flag while the server thread does -/
def Overlap (m : Machine) : Prop :=
  (∃ u, m.server = .testing u ∨ m.server = .setting u) ∧ (∃ u, m.main = .testing u ∨ m.main = .setting u)

/-- **C41** (partial for the out-of-band flow: excludes the race of `C41_out_of_band_race`) If no request is being answered
while the main thread tests and sets the flag, the URL is handed out at most once; and if the main thread got it, it is
the only one and has the redirect URI of the token request. -/
theorem C41_out_of_band_partial (libs : Libs) (s : Session) (requests : List Str) (schedule : List Thread)
    (hno : ∀ p, p <+: schedule → ¬ Overlap (OAuth.run libs s (.init false requests) p)) (input : Str) :
    (OAuth.run libs s (.init false requests) schedule).issued.length ≤ 1 ∧
    ∀ t, tokenRequest s input (OAuth.run libs s (.init false requests) schedule) = some (.ok t) →
      (OAuth.run libs s (.init false requests) schedule).issued =
        [⟨t.redirectUri, urlsafeB64 (libs.sha256 (utf8 t.codeVerifier)), s.state⟩] ∧
      t.redirectUri = "urn:ietf:wg:oauth:2.0:oob".toList ∧ t.code = input := by
  have key : ∀ schedule : List Thread, (∀ p, p <+: schedule → ¬ Overlap (OAuth.run libs s (.init false requests) p)) →
      let m := OAuth.run libs s (.init false requests) schedule
      m.main ≠ .waiting ∧ (m.main ≠ .start → m.oob = true) ∧ m.issued.length ≤ 1 ∧ (m.poison = false → m.issued = []) ∧
      (∀ u, m.server = .setting u → m.poison = false) ∧
      (∀ u, m.main = .testing u → u = "urn:ietf:wg:oauth:2.0:oob".toList) ∧
      (∀ u, m.main = .setting u → u = "urn:ietf:wg:oauth:2.0:oob".toList ∧ m.poison = false) ∧
      (m.main = .printed → m.poison = true ∧
        m.issued = [s.authParams libs "urn:ietf:wg:oauth:2.0:oob".toList]) := by
    intro schedule
    induction schedule using List.reverseRecOn with
    | nil => intro _; simp [OAuth.run, Machine.init]
    | append_singleton schedule t ih =>
      intro hno
      have hno' := hno (schedule ++ [t]) (List.prefix_refl _)
      have ih := ih fun p hp => hno p (hp.trans (List.prefix_append _ _))
      have hold := hno schedule (List.prefix_append _ _)
      dsimp only at ih ⊢
      rw [run_snoc] at hno' ⊢
      generalize OAuth.run libs s (.init false requests) schedule = m at ih hno' hold
      obtain ⟨h1, h2, h3, h4, h5, h6, h7, h8⟩ := ih
      cases t with
      | main =>
        unfold step mainStep at hno' ⊢
        dsimp only at hno' ⊢
        cases hm : m.main with
        | waiting => exact absurd hm h1
        | start => exact ⟨by simp, by simp, h3, h4, h5, by simp, by simp, by simp⟩
        | reading =>
          refine ⟨by simp, fun _ => h2 (by simp [hm]), h3, h4, h5, ?_, by simp, by simp⟩
          intro u hu
          simp only [MainPc.testing.injEq] at hu
          rw [← hu, h2 (by simp [hm])]; rfl
        | testing uri =>
          dsimp only
          split
          · exact ⟨by simp, fun _ => h2 (by simp [hm]), h3, h4, h5, by simp, by simp, by simp⟩
          · rename_i hp
            refine ⟨by simp, fun _ => h2 (by simp [hm]), h3, h4, h5, by simp, ?_, by simp⟩
            intro u hu
            simp only [MainPc.setting.injEq] at hu
            exact ⟨hu ▸ h6 uri hm, by simpa using hp⟩
        | setting uri =>
          obtain ⟨hu, hp⟩ := h7 uri hm
          have hi := h4 hp
          dsimp only
          refine ⟨by simp, fun _ => h2 (by simp [hm]), by simp [hi], by simp, ?_, by simp, by simp, ?_⟩
          · intro u hsu
            exact absurd ⟨⟨u, .inr hsu⟩, uri, .inr hm⟩ hold
          · intro _; exact ⟨rfl, by rw [hi, hu]; rfl⟩
        | printed => exact ⟨by simp [hm], fun _ => h2 (by simp [hm]), h3, h4, h5, by simp [hm], by simp [hm], fun _ => h8 hm⟩
        | failed => exact ⟨by simp [hm], fun _ => h2 (by simp [hm]), h3, h4, h5, by simp [hm], by simp [hm], by simp [hm]⟩
      | server =>
        unfold step serverStep at hno' ⊢
        dsimp only at hno' ⊢
        cases hs : m.server with
        | idle =>
          dsimp only
          split
          · exact ⟨h1, h2, h3, h4, h5, h6, h7, h8⟩
          · split
            · exact ⟨h1, h2, h3, h4, by simp, h6, h7, h8⟩
            · split
              · exact ⟨h1, h2, h3, h4, by simp, h6, h7, h8⟩
              · split
                · exact ⟨h1, h2, h3, h4, by simp, h6, h7, h8⟩
                · exact ⟨h1, h2, h3, h4, by simp, h6, h7, h8⟩
        | reading => exact ⟨h1, h2, h3, h4, by simp, h6, h7, h8⟩
        | testing uri =>
          dsimp only
          split
          · exact ⟨h1, h2, h3, h4, by simp, h6, h7, h8⟩
          · rename_i hp
            exact ⟨h1, h2, h3, h4, fun _ _ => by simpa using hp, h6, h7, h8⟩
        | setting uri =>
          have hp := h5 uri hs
          have hi := h4 hp
          have hnm : ∀ u, m.main ≠ .setting u := fun u hu => hold ⟨⟨uri, .inr hs⟩, u, .inr hu⟩
          dsimp only
          refine ⟨h1, h2, by simp [hi], by simp, by simp, h6, fun u hu => absurd hu (hnm u), ?_⟩
          intro hpr
          rw [(h8 hpr).1] at hp; cases hp
  obtain ⟨h1, h2, h3, _, _, _, _, h8⟩ := key schedule hno
  generalize OAuth.run libs s (.init false requests) schedule = m at h1 h2 h3 h8
  refine ⟨h3, fun t ht => ?_⟩
  unfold tokenRequest at ht
  cases hm : m.main with
  | waiting => exact absurd hm h1
  | printed =>
    rw [hm] at ht
    simp only [Option.some.injEq, Except.ok.injEq] at ht
    subst ht
    have ho : m.oob = true := h2 (by simp [hm])
    refine ⟨?_, by rw [ho]; rfl, rfl⟩
    rw [(h8 hm).2, ho]; rfl
  | failed => rw [hm] at ht; simp at ht
  | start => rw [hm] at ht; simp at ht
  | reading => rw [hm] at ht; simp at ht
  | testing u => rw [hm] at ht; simp at ht
  | setting u => rw [hm] at ht; simp at ht

/-- library functions for the examples: a path and a query separated by a question mark; a query names a state -/
def exOLibs : OAuth.Libs where
  split := fun t => (t.takeWhile (· ≠ '?'), (t.dropWhile (· ≠ '?')).drop 1)
  parseQs := fun q => if q = [] then [] else [("state".toList, [q]), ("code".toList, ["c".toList])]
  sha256 := id

/-- a session -/
def exOSession : Session := ⟨"st".toList, "v".toList, "b".toList⟩

/-- **C41** refuted for the out-of-band flow: a request to the local server that is answered while the main thread
fetches the URL gets a second authorization URL, with the same state and another redirect URI. -/
theorem C41_out_of_band_race : ∃ requests schedule input t,
    tokenRequest exOSession input (OAuth.run exOLibs exOSession (.init false requests) schedule) = some (.ok t) ∧
    ∃ a b, (OAuth.run exOLibs exOSession (.init false requests) schedule).issued = [a, b] ∧ a.state = b.state ∧
      a.redirectUri = t.redirectUri ∧ b.redirectUri ≠ t.redirectUri := by
  refine ⟨["/".toList], [.server, .server, .server, .main, .main, .main, .main, .server], [], _, rfl, _, _, rfl, rfl, rfl, ?_⟩
  decide

/-- a browser flow that succeeds: the start page, the redirect, and a late second redirect with another state -/
example : ∃ t, tokenRequest exOSession [] (OAuth.run exOLibs exOSession
      (.init true ["/".toList, "/auth/callback?st".toList, "/auth/callback?zz".toList])
      [.server, .server, .server, .server, .server, .main, .server]) = some (.ok t) ∧ t.code = "c".toList := by
  refine ⟨_, rfl, rfl⟩

/-- an out-of-band flow without overlap -/
example : ∃ t, tokenRequest exOSession "x".toList (OAuth.run exOLibs exOSession (.init false ["/".toList])
      [.main, .main, .main, .main, .server, .server, .server]) = some (.ok t) ∧ t.code = "x".toList := by
  refine ⟨_, rfl, rfl⟩

/-- **C67** refuted: a redirect without parameters, which any local program can send, ends the flow with `KeyError`. -/
theorem C67_empty_redirect_key_error : ∃ requests schedule,
    tokenRequest exOSession [] (OAuth.run exOLibs exOSession (.init true requests) schedule) =
      some (.error .keyError) := by
  exact ⟨["/auth/callback".toList], [.server], rfl⟩

/-- **C67** (partial: excludes redirects that lack a parameter) If the response has an error or both parameters, each with a
value, a failure is an `IdentityError`. -/
theorem C67_identity_error_partial (state : Str) (q : Query) (e : Exc) (h : checkResponse state q = .error e)
    (hq : (∃ v l, q.get? "error".toList = some (v :: l)) ∨
      (q.get? "error".toList = none ∧ (∃ v l, q.get? "state".toList = some (v :: l)) ∧
        ∃ v l, q.get? "code".toList = some (v :: l))) : e = .identity := by
  unfold checkResponse at h
  rcases hq with ⟨v, l, hq⟩ | ⟨h1, ⟨v, l, h2⟩, v', l', h3⟩
  · rw [hq] at h; cases h; rfl
  · rw [h1] at h
    dsimp only at h
    rw [(first_ok_iff _ _ _).2 ⟨l, h2⟩, (first_ok_iff _ _ _).2 ⟨l', h3⟩] at h
    dsimp only at h
    split at h <;> cases h
    rfl

/-- **C67** refuted for the out-of-band flow as well: a program that asks the local server for `/` first ends the flow with an
`IdentityError` of another package, which is no sigstore `Error`. -/
theorem C67_foreign_identity_error : ∃ requests schedule input e,
    tokenRequest exOSession input (OAuth.run exOLibs exOSession (.init false requests) schedule) = some (.error e) ∧
      e ≠ .identity ∧ e.isSigstoreError = false :=
  ⟨["/".toList], [.server, .server, .server, .server, .main, .main, .main], [], .idIdentity, rfl, by decide, rfl⟩

/-- **C67** (partial: excludes requests for `/` to the local server) For every schedule, the out-of-band flow fails before the
token request only if a request for `/` was made to the local server, which was given an authorization URL; the exception is then
that one. -/
theorem C67_out_of_band_partial (libs : Libs) (s : Session) (requests : List Str) (schedule : List Thread) (input : Str) (e : Exc)
    (h : tokenRequest s input (OAuth.run libs s (.init false requests) schedule) = some (.error e)) :
    e = .idIdentity ∧ (∃ target ∈ requests, (libs.split target).1 = "/".toList) ∧
      (OAuth.run libs s (.init false requests) schedule).issued ≠ [] := by
  have key : ∀ schedule : List Thread,
      let m := OAuth.run libs s (.init false requests) schedule
      let asked := ∃ target ∈ requests, (libs.split target).1 = "/".toList
      m.main ≠ .waiting ∧ (∀ x ∈ m.requests, x ∈ requests) ∧ (m.server ≠ .idle → asked) ∧
      (m.poison = true → (m.main = .printed ∨ asked) ∧ m.issued ≠ []) ∧ (m.main = .failed → asked ∧ m.issued ≠ []) := by
    intro schedule
    induction schedule using List.reverseRecOn with
    | nil => simp [OAuth.run, Machine.init]
    | append_singleton schedule t ih =>
      dsimp only at ih ⊢
      rw [run_snoc]
      generalize OAuth.run libs s (.init false requests) schedule = m at ih
      generalize hasked : (∃ target ∈ requests, (libs.split target).1 = "/".toList) = asked at ih ⊢
      obtain ⟨h1, h2, h3, h4, h5⟩ := ih
      cases t with
      | main =>
        unfold step mainStep
        dsimp only
        cases hm : m.main with
        | waiting => exact absurd hm h1
        | start => exact ⟨by simp, h2, h3, fun hp => ⟨.inr ((h4 hp).1.resolve_left (by simp [hm])), (h4 hp).2⟩, by simp⟩
        | reading => exact ⟨by simp, h2, h3, fun hp => ⟨.inr ((h4 hp).1.resolve_left (by simp [hm])), (h4 hp).2⟩, by simp⟩
        | testing uri =>
          dsimp only
          split
          · rename_i hp
            have ha := (h4 hp).1.resolve_left (by simp [hm])
            exact ⟨by simp, h2, h3, fun _ => ⟨.inr ha, (h4 hp).2⟩, fun _ => ⟨ha, (h4 hp).2⟩⟩
          · rename_i hp
            exact ⟨by simp, h2, h3, fun hp' => absurd hp' hp, by simp⟩
        | setting uri => exact ⟨by simp, h2, h3, fun _ => ⟨.inl rfl, by simp⟩, by simp⟩
        | printed => exact ⟨by simp [hm], h2, h3, fun hp => ⟨.inl hm, (h4 hp).2⟩, by simp [hm]⟩
        | failed => exact ⟨by simp [hm], h2, h3, fun hp => ⟨.inr (h5 hm).1, (h4 hp).2⟩, fun _ => h5 hm⟩
      | server =>
        unfold step serverStep
        dsimp only
        cases hs : m.server with
        | idle =>
          dsimp only
          cases hr : m.requests with
          | nil => exact ⟨h1, h2, by simp [hs], h4, h5⟩
          | cons target rest =>
            have h2' : ∀ x ∈ rest, x ∈ requests := fun x hx => h2 x (by rw [hr]; exact List.mem_cons_of_mem _ hx)
            dsimp only
            split
            · exact ⟨h1, h2', by simp [hs], h4, h5⟩
            · split
              · exact ⟨h1, h2', by simp [hs], h4, h5⟩
              · split
                · rename_i hroot
                  exact ⟨h1, h2', fun _ => hasked ▸ ⟨target, h2 _ (by rw [hr]; exact List.mem_cons_self), hroot⟩, h4, h5⟩
                · exact ⟨h1, h2', by simp [hs], h4, h5⟩
        | reading => exact ⟨h1, h2, fun _ => h3 (by simp [hs]), h4, h5⟩
        | testing uri =>
          dsimp only
          split
          · exact ⟨h1, h2, by simp, h4, h5⟩
          · exact ⟨h1, h2, fun _ => h3 (by simp [hs]), h4, h5⟩
        | setting uri =>
          have ha := h3 (by simp [hs])
          exact ⟨h1, h2, by simp, fun _ => ⟨.inr ha, by simp⟩, fun _ => ⟨ha, by simp⟩⟩
  obtain ⟨h1, _, _, _, h5⟩ := key schedule
  generalize OAuth.run libs s (.init false requests) schedule = m at h h1 h5
  unfold tokenRequest at h
  cases hm : m.main with
  | waiting => exact absurd hm h1
  | failed =>
    rw [hm] at h
    simp only [Option.some.injEq, Except.error.injEq] at h
    exact ⟨h.symm, h5 hm⟩
  | printed => rw [hm] at h; simp at h
  | start => rw [hm] at h; simp at h
  | reading => rw [hm] at h; simp at h
  | testing u => rw [hm] at h; simp at h
  | setting u => rw [hm] at h; simp at h

end Sigstore.Props
