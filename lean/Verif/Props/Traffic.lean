import Verif.Spec.Traffic
import Verif.Props.Url
import Verif.Props.HttpClients
import Verif.Props.Verifier

/-!
# C96, C97: what a signing session sends, and where
-/

namespace Sigstore.Props

open Sigstore.Trust Sigstore.LogEntry Sigstore.Dsse Sigstore.Rekor Sigstore.Signing Sigstore.Http Sigstore.Url Sigstore.Spec
  Sigstore.Traffic
open Sigstore.Config (ContextServices RekorHandle)

/-! ## C96: the token -/

/-- two computations that cannot be told apart, up to `S` on requests -/
def Indistinguishable {α : Type} (S : Request → Request → Prop) (srv srv' : Services) (x x' : Traffic.Action α) : Prop :=
  ∀ n n' : Net, n.world = n'.world → List.Forall₂ S n.sent n'.sent →
    (x srv n).1 = (x' srv' n').1 ∧ (x srv n).2.world = (x' srv' n').2.world ∧
      List.Forall₂ S (x srv n).2.sent (x' srv' n').2.sent

theorem ind_pure {α : Type} {S : Request → Request → Prop} {srv srv' : Services} (x : Py α) :
    Indistinguishable S srv srv' (Traffic.pure x) (Traffic.pure x) := fun _ _ hw hs => ⟨rfl, hw, hs⟩

theorem ind_andThen {α β : Type} {S : Request → Request → Prop} {srv srv' : Services} {x x' : Traffic.Action α}
    {f f' : α → Traffic.Action β} (hx : Indistinguishable S srv srv' x x') (hf : ∀ a, Indistinguishable S srv srv' (f a) (f' a)) :
    Indistinguishable S srv srv' (Traffic.andThen x f) (Traffic.andThen x' f') := by
  intro n n' hw hs
  obtain ⟨h1, h2, h3⟩ := hx n n' hw hs
  unfold Traffic.andThen
  cases hr : x srv n with
  | mk r m =>
    cases hr' : x' srv' n' with
    | mk r' m' =>
      rw [hr, hr'] at h1 h2 h3
      dsimp only at h1 h2 h3
      subst h1
      cases r with
      | error e => exact ⟨rfl, h2, h3⟩
      | ok a => exact hf a m m' h2 h3

theorem ind_andThen_pure {α β : Type} {S : Request → Request → Prop} {srv srv' : Services} {x : Py α}
    {f f' : α → Traffic.Action β} (hf : ∀ a, x = .ok a → Indistinguishable S srv srv' (f a) (f' a)) :
    Indistinguishable S srv srv' (Traffic.andThen (Traffic.pure x) f) (Traffic.andThen (Traffic.pure x) f') := by
  cases x with
  | error e => exact fun _ _ hw hs => ⟨rfl, hw, hs⟩
  | ok a => exact hf a rfl

theorem forall₂_snoc {S : Request → Request → Prop} {a b : List Request} {x y : Request} (h : List.Forall₂ S a b) (hx : S x y) :
    List.Forall₂ S (a ++ [x]) (b ++ [y]) := List.rel_append h (.cons hx .nil)

theorem ind_post {S : Request → Request → Prop} {srv srv' : Services}
    (hsrv : ∀ h h' r r', List.Forall₂ S h h' → S r r' → srv h r = srv' h' r') {r r' : Request} (hr : S r r') :
    Indistinguishable S srv srv' (Traffic.post r) (Traffic.post r') :=
  fun _ _ hw hs => ⟨hsrv _ _ _ _ hs hr, hw, forall₂_snoc hs hr⟩

section
variable {S : Request → Request → Prop} {srv srv' : Services} {ctx : Traffic.Context} {tok tok' : Str}

theorem ind_fulcioPost (hsrv : ∀ h h' r r', List.Forall₂ S h h' → S r r' → srv h r = srv' h' r') (libs : Traffic.Libs) (url : Str)
    (hS : ∀ endpoint r r', fulcioSigningCertUrl libs.urls url = .ok endpoint → DifferInToken endpoint tok tok' r r' → S r r')
    (csr : Csr) : Indistinguishable S srv srv' (Traffic.fulcioPost libs url tok csr) (Traffic.fulcioPost libs url tok' csr) := by
  unfold Traffic.fulcioPost
  refine ind_andThen_pure fun endpoint he => ?_
  refine ind_andThen (ind_post hsrv ?_) fun _ => ind_pure _
  exact hS endpoint _ _ he ⟨rfl, rfl, rfl, [("User-Agent".toList, libs.userAgent)],
    [("Content-Type".toList, "application/json".toList), ("Accept".toList, "application/pem-certificate-chain".toList)], rfl, rfl⟩

theorem ind_requestTimestamp (hsrv : ∀ h h' r r', List.Forall₂ S h h' → S r r' → srv h r = srv' h' r') (hrefl : ∀ r, S r r)
    (libs : Traffic.Libs) (url : Str) (sig : Bytes) :
    Indistinguishable S srv srv' (Traffic.requestTimestamp libs url sig) (Traffic.requestTimestamp libs url sig) := by
  intro n n' hw hs
  unfold Traffic.requestTimestamp
  cases libs.buildQuery sig with
  | none => exact ⟨rfl, hw, hs⟩
  | some der =>
    dsimp only
    refine ⟨?_, hw, forall₂_snoc hs (hrefl _)⟩
    rw [hsrv _ _ _ _ hs (hrefl _)]

theorem ind_collectTimestamps (hsrv : ∀ h h' r r', List.Forall₂ S h h' → S r r' → srv h r = srv' h' r') (hrefl : ∀ r, S r r)
    (libs : Traffic.Libs) (sig : Bytes) : ∀ urls : List Str,
    Indistinguishable S srv srv' (Traffic.collectTimestamps libs sig urls) (Traffic.collectTimestamps libs sig urls)
  | [] => ind_pure _
  | url :: rest => by
    have ih := ind_collectTimestamps hsrv hrefl libs sig rest
    intro n n' hw hs
    obtain ⟨h1, h2, h3⟩ := ind_requestTimestamp hsrv hrefl libs url sig n n' hw hs
    unfold Traffic.collectTimestamps
    cases hr : Traffic.requestTimestamp libs url sig srv n with
    | mk r m =>
      cases hr' : Traffic.requestTimestamp libs url sig srv' n' with
      | mk r' m' =>
        rw [hr, hr'] at h1 h2 h3
        dsimp only at h1 h2 h3 ⊢
        subst h1
        cases r with
        | error e =>
          dsimp only
          split
          · exact ih m m' h2 h3
          · exact ⟨rfl, h2, h3⟩
        | ok t => exact ind_andThen ih (fun _ => ind_pure _) m m' h2 h3

theorem ind_createEntry (hsrv : ∀ h h' r r', List.Forall₂ S h h' → S r r' → srv h r = srv' h' r') (hrefl : ∀ r, S r r)
    (libs : Traffic.Libs) (rekor : RekorHandle) (e : EntryRequest) :
    Indistinguishable S srv srv' (Traffic.createEntry libs rekor e) (Traffic.createEntry libs rekor e) := by
  cases rekor with
  | v1 url => exact ind_andThen (ind_post hsrv (hrefl _)) fun _ => ind_pure _
  | v2 url => exact ind_andThen (ind_post hsrv (hrefl _)) fun _ => ind_pure _

theorem ind_privateKey (s : Signer) : Indistinguishable S srv srv' (Traffic.privateKey s) (Traffic.privateKey s) := by
  intro n n' hw hs
  unfold Traffic.privateKey
  dsimp only
  rw [hw]
  exact ⟨rfl, rfl, hs⟩

theorem ind_signingCert (hsrv : ∀ h h' r r', List.Forall₂ S h h' → S r r' → srv h r = srv' h' r')
    (hS : ∀ endpoint r r', fulcioSigningCertUrl ctx.libs.urls ctx.services.fulcio = .ok endpoint → DifferInToken endpoint tok tok' r r' → S r r')
    (now : Time) (valid : Bool) (s : Signer) :
    Indistinguishable S srv srv' (Traffic.signingCert ctx now ⟨tok, valid⟩ s) (Traffic.signingCert ctx now ⟨tok', valid⟩ s) := by
  unfold Traffic.signingCert
  cases s.cachedCert with
  | some cert => exact ind_pure _
  | none =>
    dsimp only
    split
    · exact ind_pure _
    · unfold Traffic.requestCert
      refine ind_andThen (ind_privateKey s) fun k => ind_andThen ?_ fun _ =>
        ind_andThen (ind_fulcioPost hsrv _ _ hS _) fun _ => ind_andThen (ind_pure _) fun _ => ind_pure _
      intro n n' hw hs
      exact ⟨rfl, by dsimp only; rw [hw], hs⟩

theorem ind_finalizeSign (hsrv : ∀ h h' r r', List.Forall₂ S h h' → S r r' → srv h r = srv' h' r') (hrefl : ∀ r, S r r)
    (cert : Cert) (content : Content) (sig : Bytes) (request : EntryRequest) :
    Indistinguishable S srv srv' (Traffic.finalizeSign ctx cert content sig request) (Traffic.finalizeSign ctx cert content sig request) :=
  ind_andThen (ind_collectTimestamps hsrv hrefl _ _ _) fun _ =>
    ind_andThen (ind_createEntry hsrv hrefl _ _ _) fun _ => ind_pure _

theorem ind_sign (hsrv : ∀ h h' r r', List.Forall₂ S h h' → S r r' → srv h r = srv' h' r') (hrefl : ∀ r, S r r)
    (hS : ∀ endpoint r r', fulcioSigningCertUrl ctx.libs.urls ctx.services.fulcio = .ok endpoint → DifferInToken endpoint tok tok' r r' → S r r')
    (now : Time) (valid : Bool) (nonce : Nat) (s : Signer) (call : Call) :
    Indistinguishable S srv srv' (Traffic.sign ctx now ⟨tok, valid⟩ nonce s call) (Traffic.sign ctx now ⟨tok', valid⟩ nonce s call) := by
  cases call with
  | artifact input =>
    exact ind_andThen (ind_signingCert hsrv hS now valid s) fun _ => ind_andThen (ind_privateKey s) fun _ =>
      ind_andThen (ind_pure _) fun _ => ind_andThen (ind_pure _) fun _ => ind_finalizeSign hsrv hrefl _ _ _ _
  | dsse stmt =>
    exact ind_andThen (ind_signingCert hsrv hS now valid s) fun _ => ind_andThen (ind_privateKey s) fun _ =>
      ind_andThen (ind_pure _) fun _ => ind_andThen (ind_pure _) fun _ => ind_andThen (ind_pure _) fun _ =>
        ind_finalizeSign hsrv hrefl _ _ _ _

theorem ind_init (hsrv : ∀ h h' r r', List.Forall₂ S h h' → S r r' → srv h r = srv' h' r')
    (hS : ∀ endpoint r r', fulcioSigningCertUrl ctx.libs.urls ctx.services.fulcio = .ok endpoint → DifferInToken endpoint tok tok' r r' → S r r')
    (now : Time) (valid cache : Bool) :
    Indistinguishable S srv srv' (Traffic.init ctx now ⟨tok, valid⟩ cache) (Traffic.init ctx now ⟨tok', valid⟩ cache) := by
  unfold Traffic.init
  split
  · refine ind_andThen ?_ fun _ => ind_andThen (ind_signingCert hsrv hS now valid _) fun _ => ind_pure _
    intro n n' hw hs
    exact ⟨by dsimp only; rw [hw], by dsimp only; rw [hw], hs⟩
  · exact ind_pure _

theorem ind_run (hsrv : ∀ h h' r r', List.Forall₂ S h h' → S r r' → srv h r = srv' h' r') (hrefl : ∀ r, S r r)
    (hS : ∀ endpoint r r', fulcioSigningCertUrl ctx.libs.urls ctx.services.fulcio = .ok endpoint → DifferInToken endpoint tok tok' r r' → S r r')
    (s : Signer) : ∀ (jobs : List Job) (n n' : Net), n.world = n'.world → List.Forall₂ S n.sent n'.sent →
    (Traffic.run ctx tok s srv n jobs).1 = (Traffic.run ctx tok' s srv' n' jobs).1 ∧
      (Traffic.run ctx tok s srv n jobs).2.world = (Traffic.run ctx tok' s srv' n' jobs).2.world ∧
      List.Forall₂ S (Traffic.run ctx tok s srv n jobs).2.sent (Traffic.run ctx tok' s srv' n' jobs).2.sent
  | [], n, n', hw, hs => ⟨rfl, hw, hs⟩
  | j :: jobs, n, n', hw, hs => by
    obtain ⟨h1, h2, h3⟩ := ind_sign (ctx := ctx) hsrv hrefl hS j.now j.tokenValid j.nonce s j.call n n' hw hs
    obtain ⟨g1, g2, g3⟩ := ind_run hsrv hrefl hS s jobs _ _ h2 h3
    unfold Traffic.run
    dsimp only
    rw [h1, g1]
    exact ⟨rfl, g2, g3⟩

end

/-- **C96** The identity token goes to Fulcio only, and only as the bearer token of the certificate requests: two sessions
that differ in nothing but the token send the same requests in the same order, but for that token in the requests to
Fulcio's endpoint – which is at the configured origin – and give the same results, whatever the services do that do
not distinguish the tokens. -/
theorem C96_token_only_to_fulcio (ctx : Traffic.Context) (o : Origin) (ho : o.WF) (rest : Str) (hrest : FollowsAuthority rest)
    (hf : ctx.services.fulcio = o.text ++ rest) (token token' : Str) (now : Time) (valid cache : Bool) (jobs : List Job)
    (srv srv' : Services) (hsrv : SameAnswers (o.text ++ "/api/v2/signingCert".toList) token token' srv srv') (n : Net) :
    (Traffic.session ctx token now valid cache jobs srv n).1 = (Traffic.session ctx token' now valid cache jobs srv' n).1 ∧
    List.Forall₂ (SameButToken (o.text ++ "/api/v2/signingCert".toList) token token')
      (Traffic.session ctx token now valid cache jobs srv n).2.sent (Traffic.session ctx token' now valid cache jobs srv' n).2.sent := by
  have hS : ∀ endpoint r r', fulcioSigningCertUrl ctx.libs.urls ctx.services.fulcio = .ok endpoint →
      DifferInToken endpoint token token' r r' → SameButToken (o.text ++ "/api/v2/signingCert".toList) token token' r r' := by
    intro endpoint r r' he hd
    rw [hf, (C99_fulcio_origin _ o ho rest hrest).1] at he
    injection he with he
    subst he
    exact .inr hd
  have hrefl : ∀ r, SameButToken (o.text ++ "/api/v2/signingCert".toList) token token' r r := fun _ => .inl rfl
  have hn : List.Forall₂ (SameButToken (o.text ++ "/api/v2/signingCert".toList) token token') n.sent n.sent :=
    List.forall₂_same.mpr fun r _ => hrefl r
  obtain ⟨h1, h2, h3⟩ := ind_init (ctx := ctx) hsrv hS now valid cache n n rfl hn
  unfold Traffic.session
  cases hr : Traffic.init ctx now ⟨token, valid⟩ cache srv n with
  | mk r m =>
    cases hr' : Traffic.init ctx now ⟨token', valid⟩ cache srv' n with
    | mk r' m' =>
      rw [hr, hr'] at h1 h2 h3
      dsimp only at h1 h2 h3 ⊢
      subst h1
      cases r with
      | error e => exact ⟨rfl, h3⟩
      | ok s =>
        obtain ⟨g1, g2, g3⟩ := ind_run (ctx := ctx) hsrv hrefl hS s jobs m m' h2 h3
        dsimp only
        rw [g1]
        exact ⟨rfl, g3⟩

/-! ## C97: the order of things -/

theorem getTlogKeys_sign (now : Time) (ms : List PublicKeyMsg) : getTlogKeys now ms .sign = currentKeys now ms := by
  unfold getTlogKeys currentKeys
  congr 1
  funext m
  unfold isTimerangeValid
  cases m.validFor with
  | none => rfl
  | some r =>
    dsimp only
    by_cases h : now < r.start
    · rw [if_pos h]
      have : ¬ r.start ≤ now := by omega
      simp [this]
    · rw [if_neg h]
      have : r.start ≤ now := by omega
      cases r.stop <;> simp [this]

/-- the check of a new certificate -/
theorem checkNewCert_ok_iff (env : Env) (ctx : Signing.Context) (now : Time) (cert : Cert) (chain : List Cert) :
    checkNewCert env ctx now cert chain = .ok () ↔ SctCurrent env.crypto now ctx.root cert chain := by
  unfold checkNewCert SctCurrent ctKeyring
  dsimp only
  rw [getTlogKeys_sign]
  by_cases hne : currentKeys now ctx.root.ctlogs = []
  · simp [hne]
  · have he : (currentKeys now ctx.root.ctlogs).isEmpty = false := by
      cases h : currentKeys now ctx.root.ctlogs with
      | nil => exact absurd h hne
      | cons => rfl
    rw [he]
    obtain ⟨kr, hkr⟩ := C10_keyring_total env.crypto (currentKeys now ctx.root.ctlogs)
    rw [hkr]
    simp only [← C10_keyring_iff _ _ kr hkr]
    rw [← C27_verify_sct_iff]
    simp only [Bool.false_eq_true, if_false, ne_eq, hne, not_false_eq_true, true_and]

/-- single characters are no certificates -/
def PemLoader (libs : Traffic.Libs) : Prop := ∀ c : Char, libs.loadPem (utf8 [c]) = none

/-- `andThen`, by whether the first part succeeds -/
theorem andThen_cases {α β : Type} {x : Traffic.Action α} {f : α → Traffic.Action β} {srv : Services} {n n' : Net} {r : Py β}
    (h : Traffic.andThen x f srv n = (r, n')) :
    (∃ e, x srv n = (.error e, n') ∧ r = .error e) ∨ ∃ a m, x srv n = (.ok a, m) ∧ f a srv m = (r, n') := by
  unfold Traffic.andThen at h
  cases hx : x srv n with
  | mk y m =>
    rw [hx] at h
    cases y with
    | error e =>
      dsimp only at h
      cases h
      exact .inl ⟨e, rfl, rfl⟩
    | ok a => exact .inr ⟨a, m, rfl, h⟩

theorem pure_cases {α : Type} {x r : Py α} {srv : Services} {n n' : Net} (h : Traffic.pure x srv n = (r, n')) : x = r ∧ n = n' := by
  cases h; exact ⟨rfl, rfl⟩

/-- the request for a certificate -/
def certificateRequest (libs : Traffic.Libs) (endpoint token : Str) (csr : Csr) : Request :=
  ⟨endpoint, [("User-Agent".toList, libs.userAgent), ("Authorization".toList, "Bearer ".toList ++ token),
    ("Content-Type".toList, "application/json".toList), ("Accept".toList, "application/pem-certificate-chain".toList)], .csr csr⟩

theorem certificateRequest_carries (libs : Traffic.Libs) (url token : Str) (csr : Csr) :
    Carries ["Authorization".toList, "Content-Type".toList, "Accept".toList, "User-Agent".toList] "application/json".toList
      (certificateRequest libs url token csr) := by
  have h : ¬ "Content-Type".toList = "User-Agent".toList := by decide
  have h' : ¬ "Content-Type".toList = "Accept".toList := by decide
  have h2 : ¬ "Content-Type".toList = "Authorization".toList := by decide
  refine ⟨rfl, fun x => ?_, fun v => ?_⟩
  · simp only [certificateRequest, List.map_cons, List.map_nil, List.mem_cons, List.not_mem_nil, or_false]
    generalize "Authorization".toList = a, "Content-Type".toList = b, "Accept".toList = c, "User-Agent".toList = d
    constructor <;> (rintro (h | h | h | h) <;> subst h <;> simp)
  · simp only [certificateRequest, List.mem_cons, Prod.mk.injEq, h, h', h2, true_and, false_and, List.not_mem_nil, or_false, false_or]

/-- what `_signing_cert` sends, and what it checks -/
theorem signingCert_trace (ctx : Traffic.Context) (hp : PemLoader ctx.libs) (o : Origin) (ho : o.WF) (rest : Str) (hrest : FollowsAuthority rest)
    (hf : ctx.services.fulcio = o.text ++ rest) (now : Time) (token : Token) (s : Signer) (srv : Services) (n n' : Net) (r : Py Cert)
    (h : Traffic.signingCert ctx now token s srv n = (r, n')) :
    (∃ cert, s.cachedCert = some cert ∧ n'.sent = n.sent ∧ ∀ c, r = .ok c → c = cert ∧ now ≤ cert.notAfter) ∨
    (s.cachedCert = none ∧ n'.sent = n.sent ∧ (∃ e, r = .error e) ∧ token.valid = false) ∨
    (s.cachedCert = none ∧ token.valid = true ∧ ∃ c, CertificateRequest (o.text ++ "/api/v2/signingCert".toList) c ∧ n'.sent = n.sent ++ [c] ∧
      ∀ cert, r = .ok cert → ∃ chain, IssuedBy ctx.libs (srv n.sent c) cert chain ∧ SctCurrent ctx.env.crypto now ctx.root cert chain) := by
  unfold Traffic.signingCert at h
  cases hc : s.cachedCert with
  | some cert =>
    rw [hc] at h
    obtain ⟨h1, h2⟩ := pure_cases h
    refine .inl ⟨cert, rfl, by rw [h2], fun c hr => ?_⟩
    rw [hr] at h1
    by_cases hn : now > cert.notAfter
    · rw [if_pos hn] at h1; cases h1
    · rw [if_neg hn] at h1
      cases h1
      exact ⟨rfl, by omega⟩
  | none =>
    rw [hc] at h
    dsimp only at h
    cases hv : token.valid with
    | false =>
      rw [hv] at h
      obtain ⟨h1, h2⟩ := pure_cases (srv := srv) h
      exact .inr (.inl ⟨rfl, by rw [h2], ⟨_, h1.symm⟩, rfl⟩)
    | true =>
      rw [hv] at h
      refine .inr (.inr ⟨rfl, rfl, ?_⟩)
      change Traffic.requestCert ctx now token s srv n = (r, n') at h
      unfold Traffic.requestCert at h
      rcases andThen_cases h with ⟨e, h1, -⟩ | ⟨k, m, h1, h⟩
      · cases h1
      have hm : m.sent = n.sent := by
        unfold Traffic.privateKey at h1
        dsimp only at h1
        cases h1
        rfl
      rcases andThen_cases h with ⟨e, h2, -⟩ | ⟨⟨⟩, m2, h2, h⟩
      · cases h2
      have hm2 : m2.sent = n.sent := by cases h2; exact hm
      clear h1 h2
      have hep := (C99_fulcio_origin ctx.libs.urls o ho rest hrest).1
      rw [← hf] at hep
      have hpost : ∀ y m3, Traffic.fulcioPost ctx.libs ctx.services.fulcio token.raw ⟨ctx.keys.pub k⟩ srv m2 = (y, m3) →
          ∃ c, CertificateRequest (o.text ++ "/api/v2/signingCert".toList) c ∧ m3.sent = n.sent ++ [c] ∧
            ∀ cert chain, y = .ok (cert, chain) → IssuedBy ctx.libs (srv n.sent c) cert chain := by
        intro y m3 hy
        unfold Traffic.fulcioPost at hy
        rw [hep] at hy
        rcases andThen_cases hy with ⟨e, h3, -⟩ | ⟨ep, m4, h3, hy⟩
        · cases h3
        obtain ⟨h3, rfl⟩ := pure_cases h3
        cases h3
        rcases andThen_cases hy with ⟨e, h4, rfl⟩ | ⟨resp, m5, h4, hy⟩
        · refine ⟨certificateRequest ctx.libs (o.text ++ "/api/v2/signingCert".toList) token.raw ⟨ctx.keys.pub k⟩, ⟨rfl, _, rfl, certificateRequest_carries _ _ _ _⟩, ?_, ?_⟩
          rotate_left
          · intro cert chain he; cases he
          · unfold Traffic.post at h4
            rw [Prod.mk.injEq] at h4
            rw [← h4.2]
            dsimp only
            rw [hm2]
            rfl
        · obtain ⟨h5, rfl⟩ := pure_cases hy
          unfold Traffic.post at h4
          rw [Prod.mk.injEq] at h4
          refine ⟨certificateRequest ctx.libs (o.text ++ "/api/v2/signingCert".toList) token.raw ⟨ctx.keys.pub k⟩, ⟨rfl, _, rfl, certificateRequest_carries _ _ _ _⟩, ?_, ?_⟩
          rotate_left
          · intro cert chain he
            rw [he, ← h4.1, hm2] at h5
            exact (C64_fulcio_http_iff ctx.libs.loads ctx.libs.loadPem hp _ cert chain).mp h5
          · rw [← h4.2]
            dsimp only
            rw [hm2]
            rfl
      rcases andThen_cases h with ⟨e, h3, rfl⟩ | ⟨⟨cert, chain⟩, m3, h3, h⟩
      · obtain ⟨c, h4, h5, -⟩ := hpost _ _ h3
        exact ⟨c, h4, h5, fun cert he => by cases he⟩
      · obtain ⟨c, h4, h5, h6⟩ := hpost _ _ h3
        rcases andThen_cases h with ⟨e, h7, rfl⟩ | ⟨⟨⟩, m4, h7, h⟩
        · obtain ⟨-, rfl⟩ := pure_cases h7
          exact ⟨c, h4, h5, fun cert he => by cases he⟩
        · obtain ⟨h9, rfl⟩ := pure_cases h7
          obtain ⟨h8, rfl⟩ := pure_cases h
          refine ⟨c, h4, h5, fun cert' he => ?_⟩
          rw [he] at h8
          cases h8
          exact ⟨chain, h6 _ _ rfl, (checkNewCert_ok_iff _ _ _ _ _).mp h9⟩

theorem collectTimestamps_none (libs : Traffic.Libs) (sig : Bytes) (hb : libs.buildQuery sig = none) (srv : Services) :
    ∀ (urls : List Str) (n : Net), Traffic.collectTimestamps libs sig urls srv n = (.ok [], n)
  | [], _ => rfl
  | url :: rest, n => by
    unfold Traffic.collectTimestamps Traffic.requestTimestamp
    rw [hb]
    dsimp only
    rw [if_pos rfl, collectTimestamps_none libs sig hb srv rest n]

/-- the query to one authority -/
def timestampRequest (libs : Traffic.Libs) (url : Str) (der : Bytes) : Request :=
  ⟨url, [("Content-Type".toList, "application/timestamp-query".toList), ("User-Agent".toList, libs.userAgent)], .query der⟩

theorem queryHeaders (libs : Traffic.Libs) (url : Str) (der : Bytes) : QueryHeaders (timestampRequest libs url der) := by
  refine ⟨rfl, fun x => Iff.rfl, fun v => ?_⟩
  have h : ¬ "Content-Type".toList = "User-Agent".toList := by decide
  simp only [timestampRequest, List.mem_cons, Prod.mk.injEq, h, true_and, false_and, List.not_mem_nil, or_false]

/-- the loop over the timestamp authorities: it asks them in order, up to some point -/
theorem collectTimestamps_trace (libs : Traffic.Libs) (sig : Bytes) (srv : Services) : ∀ (urls : List Str) (n n' : Net) (r : Py (List Tsr)),
    Traffic.collectTimestamps libs sig urls srv n = (r, n') →
    ∃ qs : List Request, n' = { n with sent := n.sent ++ qs } ∧ (∀ q ∈ qs, ∃ der, libs.buildQuery sig = some der ∧ q.payload = .query der ∧ QueryHeaders q) ∧
      (qs.map Request.url <+: urls) ∧ (libs.buildQuery sig ≠ none → (∃ ts, r = .ok ts) → qs.map Request.url = urls) := by
  intro urls
  cases hb : libs.buildQuery sig with
  | none =>
    intro n n' r h
    rw [collectTimestamps_none libs sig hb] at h
    cases h
    exact ⟨[], by simp, by simp, by simp, fun h => absurd rfl h⟩
  | some der =>
    induction urls with
    | nil =>
      intro n n' r h
      obtain ⟨-, rfl⟩ := pure_cases h
      exact ⟨[], by simp, by simp, by simp, by simp⟩
    | cons url rest ih =>
      intro n n' r h
      unfold Traffic.collectTimestamps at h
      have hreq : (Traffic.requestTimestamp libs url sig srv n).2 = { n with sent := n.sent ++ [timestampRequest libs url der] } := by
        unfold Traffic.requestTimestamp
        rw [hb]
        rfl
      cases hx : Traffic.requestTimestamp libs url sig srv n with
      | mk y m =>
        rw [hx] at hreq h
        dsimp only at hreq
        have step : ∀ r' m', Traffic.collectTimestamps libs sig rest srv m = (r', m') →
            ∃ qs : List Request, m' = { n with sent := n.sent ++ qs } ∧ (∀ q ∈ qs, ∃ d, some der = some d ∧ q.payload = .query d ∧ QueryHeaders q) ∧
              (qs.map Request.url <+: url :: rest) ∧ ((∃ ts, r' = .ok ts) → qs.map Request.url = url :: rest) := by
          intro r' m' h'
          obtain ⟨qs, h1, h2, h3, h4⟩ := ih m m' r' h'
          refine ⟨timestampRequest libs url der :: qs, ?_, ?_, ?_, ?_⟩
          · rw [h1, hreq]; simp
          · intro q hq
            rcases List.mem_cons.mp hq with rfl | hq
            · exact ⟨der, rfl, rfl, queryHeaders libs url der⟩
            · exact h2 q hq
          · obtain ⟨t, ht⟩ := h3
            exact ⟨t, by rw [List.map_cons, List.cons_append, ht]; rfl⟩
          · intro ht
            rw [List.map_cons, h4 (by simp) ht]; rfl
        cases y with
        | error e =>
          dsimp only at h
          split at h
          · obtain ⟨qs, h1, h2, h3, h4⟩ := step _ _ h
            exact ⟨qs, h1, h2, h3, fun _ => h4⟩
          · cases h
            refine ⟨[timestampRequest libs url der], hreq, ?_, ?_, ?_⟩
            · intro q hq
              rw [List.mem_singleton] at hq
              subst hq
              exact ⟨der, rfl, rfl, queryHeaders libs url der⟩
            · exact ⟨rest, rfl⟩
            · rintro - ⟨ts, hts⟩; cases hts
        | ok t =>
          dsimp only at h
          rcases andThen_cases h with ⟨e, h1, rfl⟩ | ⟨ts, m2, h1, h⟩
          · obtain ⟨qs, g1, g2, g3, -⟩ := step _ _ h1
            exact ⟨qs, g1, g2, g3, by rintro - ⟨ts, hts⟩; cases hts⟩
          · obtain ⟨qs, g1, g2, g3, g4⟩ := step _ _ h1
            obtain ⟨-, rfl⟩ := pure_cases h
            exact ⟨qs, g1, g2, g3, fun _ _ => g4 ⟨ts, rfl⟩⟩

theorem entryHeaders (libs : Traffic.Libs) (url : Str) (x : Payload) : EntryHeaders ⟨url, rekorHeaders libs, x⟩ := by
  refine ⟨rfl, fun x => Iff.rfl, fun v => ?_⟩
  have h : ¬ "Content-Type".toList = "User-Agent".toList := by decide
  have h' : ¬ "Content-Type".toList = "Accept".toList := by decide
  simp only [rekorHeaders, List.mem_cons, Prod.mk.injEq, h, h', true_and, false_and, List.not_mem_nil, or_false]

/-- the submission of an entry -/
theorem createEntry_trace (libs : Traffic.Libs) (rekor : RekorHandle) (request : EntryRequest) (srv : Services) (n n' : Net) (r : Py LogEntry)
    (h : Traffic.createEntry libs rekor request srv n = (r, n')) :
    ∃ e, Submission rekor e ∧ e.payload = .entry request ∧ n' = { n with sent := n.sent ++ [e] } := by
  cases rekor with
  | v1 url =>
    rcases andThen_cases h with ⟨e, h1, -⟩ | ⟨resp, m, h1, h⟩
    · unfold Traffic.post at h1
      rw [Prod.mk.injEq] at h1
      exact ⟨⟨rekorEntriesUrl url, rekorHeaders libs, .entry request⟩, ⟨(C99_endpoint url).1, _, rfl, entryHeaders libs _ _⟩, rfl, h1.2.symm⟩
    · obtain ⟨-, rfl⟩ := pure_cases h
      unfold Traffic.post at h1
      rw [Prod.mk.injEq] at h1
      exact ⟨⟨rekorEntriesUrl url, rekorHeaders libs, .entry request⟩, ⟨(C99_endpoint url).1, _, rfl, entryHeaders libs _ _⟩, rfl, h1.2.symm⟩
  | v2 url =>
    rcases andThen_cases h with ⟨e, h1, -⟩ | ⟨resp, m, h1, h⟩
    · unfold Traffic.post at h1
      rw [Prod.mk.injEq] at h1
      exact ⟨⟨rekorV2EntriesUrl url, rekorHeaders libs, .entry request⟩, ⟨(C99_endpoint url).2, _, rfl, entryHeaders libs _ _⟩, rfl, h1.2.symm⟩
    · obtain ⟨-, rfl⟩ := pure_cases h
      unfold Traffic.post at h1
      rw [Prod.mk.injEq] at h1
      exact ⟨⟨rekorV2EntriesUrl url, rekorHeaders libs, .entry request⟩, ⟨(C99_endpoint url).2, _, rfl, entryHeaders libs _ _⟩, rfl, h1.2.symm⟩
where
  C99_endpoint (url : Str) : rekorEntriesUrl url = entriesEndpoint (.v1 url) ∧ rekorV2EntriesUrl url = entriesEndpoint (.v2 url) := by
    constructor
    · unfold rekorEntriesUrl rekorLogUrl entriesEndpoint
      simp only [List.append_assoc]
      rfl
    · unfold rekorV2EntriesUrl entriesEndpoint
      simp only [List.append_assoc]
      rfl

/-- what `_finalize_sign` sends -/
theorem finalizeSign_trace (ctx : Traffic.Context) (cert : Cert) (content : Content) (sig : Bytes) (request : EntryRequest)
    (srv : Services) (n n' : Net) (r : Py Bundle) (h : Traffic.finalizeSign ctx cert content sig request srv n = (r, n')) :
    ∃ qs es, n' = { n with sent := n.sent ++ qs ++ es } ∧ (∀ q ∈ qs, ∃ der, q.payload = .query der ∧ QueryHeaders q) ∧
      qs.map Request.url <+: ctx.services.tsas ∧
      (∀ e ∈ es, Submission ctx.services.rekor e ∧ e.payload = .entry request) ∧ es.length ≤ 1 ∧
      ∀ b, r = .ok b → es ≠ [] ∧ b.inner.certificate = some cert.der ∧
        (qs.map Request.url = ctx.services.tsas ∨ ctx.libs.buildQuery sig = none) := by
  unfold Traffic.finalizeSign at h
  rcases andThen_cases h with ⟨e, h1, rfl⟩ | ⟨ts, m, h1, h⟩
  · obtain ⟨qs, g1, g2, g3, -⟩ := collectTimestamps_trace _ _ _ _ _ _ _ h1
    refine ⟨qs, [], by rw [g1]; simp, ?_, g3, by simp, by simp, fun b hb => by cases hb⟩
    intro q hq
    obtain ⟨der, -, h⟩ := g2 q hq
    exact ⟨der, h⟩
  · obtain ⟨qs, g1, g2, g3, g4⟩ := collectTimestamps_trace _ _ _ _ _ _ _ h1
    have g2' : ∀ q ∈ qs, ∃ der, q.payload = .query der ∧ QueryHeaders q := by
      intro q hq
      obtain ⟨der, -, h⟩ := g2 q hq
      exact ⟨der, h⟩
    have hall : qs.map Request.url = ctx.services.tsas ∨ ctx.libs.buildQuery sig = none := by
      by_cases hb : ctx.libs.buildQuery sig = none
      · exact .inr hb
      · exact .inl (g4 hb ⟨ts, rfl⟩)
    rcases andThen_cases h with ⟨e, h2, rfl⟩ | ⟨entry, m2, h2, h⟩
    · obtain ⟨e', k1, k2, k3⟩ := createEntry_trace _ _ _ _ _ _ _ h2
      refine ⟨qs, [e'], by rw [k3, g1], g2', g3, ?_, by simp, fun b hb => by cases hb⟩
      intro x hx
      rw [List.mem_singleton] at hx
      subst hx
      exact ⟨k1, k2⟩
    · obtain ⟨e', k1, k2, k3⟩ := createEntry_trace _ _ _ _ _ _ _ h2
      obtain ⟨h3, rfl⟩ := pure_cases h
      refine ⟨qs, [e'], by rw [k3, g1], g2', g3, ?_, by simp, fun b hb => ⟨by simp, ?_, hall⟩⟩
      · intro x hx
        rw [List.mem_singleton] at hx
        subst hx
        exact ⟨k1, k2⟩
      · rw [hb] at h3
        exact (fromParts_ok_iff _ _ _ _ _ _).1 h3 |>.2.1

theorem requestFor_names {v : ApiVersion} {h : Hashed} {sig : Bytes} {cert : Cert} {request : EntryRequest}
    (hr : hashedRekordRequest v h sig cert = .ok request) : NamesCertificate cert request := by
  cases v with
  | v1 =>
    change hashedRekordRequestV1 h sig cert = .ok request at hr
    unfold hashedRekordRequestV1 at hr
    split at hr
    · cases hr; rfl
    · cases hr
  | v2 =>
    change hashedRekordRequestV2 h sig cert = .ok request at hr
    unfold hashedRekordRequestV2 at hr
    split at hr
    · cases hr
    · cases hr; rfl

theorem dsseRequest_names {c : Crypto} {v : ApiVersion} {e : EnvelopeMsg} {cert : Cert} {request : EntryRequest}
    (hr : dsseRequest c v e cert = .ok request) : NamesCertificate cert request := by
  cases v with
  | v1 =>
    unfold dsseRequest dsseRequestV1 at hr
    cases hr; rfl
  | v2 =>
    change dsseRequestV2 c e cert = .ok request at hr
    unfold dsseRequestV2 at hr
    split at hr
    · cases hr
    · split at hr
      · cases hr
      · split at hr
        · cases hr
        · cases hr; rfl

theorem privateKey_trace {s : Signer} {srv : Services} {n m : Net} {r : Py Nat} (h : Traffic.privateKey s srv n = (r, m)) :
    m.sent = n.sent ∧ ∃ k, r = .ok k := by
  unfold Traffic.privateKey at h
  dsimp only at h
  cases h
  exact ⟨rfl, _, rfl⟩

/-- what follows the certificate in a call -/
theorem sign_tail (ctx : Traffic.Context) (now : Time) (token : Token) (nonce : Nat) (s : Signer) (call : Call)
    (srv : Services) (n n' : Net) (r : Py Bundle) (h : Traffic.sign ctx now token nonce s call srv n = (r, n')) :
    (∃ e, Traffic.signingCert ctx now token s srv n = (.error e, n') ∧ r = .error e) ∨
    ∃ cert m, Traffic.signingCert ctx now token s srv n = (.ok cert, m) ∧
      ∃ qs es, n'.sent = m.sent ++ qs ++ es ∧ (∀ q ∈ qs, ∃ der, q.payload = .query der ∧ QueryHeaders q) ∧
        qs.map Request.url <+: ctx.services.tsas ∧
        (∀ e ∈ es, Submission ctx.services.rekor e ∧ ∀ x, e.payload = .entry x → NamesCertificate cert x) ∧ es.length ≤ 1 ∧
        ∀ b, r = .ok b → es ≠ [] ∧ b.inner.certificate = some cert.der ∧
          (qs.map Request.url = ctx.services.tsas ∨ ∃ sig, ctx.libs.buildQuery sig = none) := by
  have nothing : ∀ (cert : Cert) (m : Net) (e : Exc), n'.sent = m.sent → r = .error e →
      ∃ qs es, n'.sent = m.sent ++ qs ++ es ∧ (∀ q ∈ qs, ∃ der, q.payload = .query der ∧ QueryHeaders q) ∧
        qs.map Request.url <+: ctx.services.tsas ∧
        (∀ e ∈ es, Submission ctx.services.rekor e ∧ ∀ x, e.payload = .entry x → NamesCertificate cert x) ∧ es.length ≤ 1 ∧
        ∀ b, r = .ok b → es ≠ [] ∧ b.inner.certificate = some cert.der ∧
          (qs.map Request.url = ctx.services.tsas ∨ ∃ sig, ctx.libs.buildQuery sig = none) := by
    rintro cert m e hs rfl
    exact ⟨[], [], by simp [hs], by simp, by simp, by simp, by simp, fun b hb => by cases hb⟩
  have last : ∀ (cert : Cert) (content : Content) (sig : Bytes) (request : EntryRequest) (m m' : Net), NamesCertificate cert request →
      m'.sent = m.sent → Traffic.finalizeSign ctx cert content sig request srv m' = (r, n') →
      ∃ qs es, n'.sent = m.sent ++ qs ++ es ∧ (∀ q ∈ qs, ∃ der, q.payload = .query der ∧ QueryHeaders q) ∧
        qs.map Request.url <+: ctx.services.tsas ∧
        (∀ e ∈ es, Submission ctx.services.rekor e ∧ ∀ x, e.payload = .entry x → NamesCertificate cert x) ∧ es.length ≤ 1 ∧
        ∀ b, r = .ok b → es ≠ [] ∧ b.inner.certificate = some cert.der ∧
          (qs.map Request.url = ctx.services.tsas ∨ ∃ sig, ctx.libs.buildQuery sig = none) := by
    intro cert content sig request m m' hn hm hf
    obtain ⟨qs, es, h1, h2, h3, h4, h5, h6⟩ := finalizeSign_trace _ _ _ _ _ _ _ _ _ hf
    refine ⟨qs, es, by rw [h1, ← hm], h2, h3, ?_, h5, ?_⟩
    · intro e he
      refine ⟨(h4 e he).1, fun x hx => ?_⟩
      rw [(h4 e he).2] at hx
      cases hx
      exact hn
    · intro b hb
      obtain ⟨a1, a2, a3⟩ := h6 b hb
      exact ⟨a1, a2, a3.imp_right fun h => ⟨sig, h⟩⟩
  cases call with
  | artifact input =>
    unfold Traffic.sign Traffic.signArtifact at h
    rcases andThen_cases h with h | ⟨cert, m, h1, h⟩
    · exact .inl h
    refine .inr ⟨cert, m, h1, ?_⟩
    rcases andThen_cases h with ⟨e, h2, -⟩ | ⟨k, m2, h2, h⟩
    · obtain ⟨-, k, hk⟩ := privateKey_trace h2; cases hk
    have hm2 := (privateKey_trace h2).1
    rcases andThen_cases h with ⟨e, h3, he⟩ | ⟨sig, m3, h3, h⟩
    · obtain ⟨-, rfl⟩ := pure_cases h3
      exact nothing cert m e hm2 he
    obtain ⟨-, rfl⟩ := pure_cases h3
    rcases andThen_cases h with ⟨e, h4, he⟩ | ⟨request, m4, h4, h⟩
    · obtain ⟨-, rfl⟩ := pure_cases h4
      exact nothing cert m e hm2 he
    obtain ⟨h5, rfl⟩ := pure_cases h4
    exact last _ _ _ _ _ _ (requestFor_names h5) hm2 h
  | dsse stmt =>
    unfold Traffic.sign Traffic.signDsse at h
    rcases andThen_cases h with h | ⟨cert, m, h1, h⟩
    · exact .inl h
    refine .inr ⟨cert, m, h1, ?_⟩
    rcases andThen_cases h with ⟨e, h2, -⟩ | ⟨k, m2, h2, h⟩
    · obtain ⟨-, k, hk⟩ := privateKey_trace h2; cases hk
    have hm2 := (privateKey_trace h2).1
    rcases andThen_cases h with ⟨e, h3, he⟩ | ⟨env, m3, h3, h⟩
    · obtain ⟨-, rfl⟩ := pure_cases h3
      exact nothing cert m e hm2 he
    obtain ⟨-, rfl⟩ := pure_cases h3
    rcases andThen_cases h with ⟨e, h4, he⟩ | ⟨request, m4, h4, h⟩
    · obtain ⟨-, rfl⟩ := pure_cases h4
      exact nothing cert m e hm2 he
    obtain ⟨h5, rfl⟩ := pure_cases h4
    rcases andThen_cases h with ⟨e, h6, he⟩ | ⟨sig, m6, h6, h⟩
    · obtain ⟨-, rfl⟩ := pure_cases h6
      exact nothing cert m e hm2 he
    obtain ⟨-, rfl⟩ := pure_cases h6
    exact last _ _ _ _ _ _ (dsseRequest_names h5) hm2 h

/-- **C97** A call sends at most one request for a certificate (none if it has one), then queries to the configured
timestamp authorities in order, then at most one entry to the configured log, and nothing else; each with the headers of its
kind (`Spec.Carries`).  Signatures leave the
machine – in queries and entries – only if the certificate has been checked, and the entry names that certificate.
A call that returns a bundle has asked all authorities and published one entry. -/
theorem C97_call (ctx : Traffic.Context) (hp : PemLoader ctx.libs) (o : Origin) (ho : o.WF) (rest : Str) (hrest : FollowsAuthority rest)
    (hf : ctx.services.fulcio = o.text ++ rest) (now : Time) (token : Token) (nonce : Nat) (s : Signer) (call : Call)
    (srv : Services) (n n' : Net) (r : Py Bundle) (h : Traffic.sign ctx now token nonce s call srv n = (r, n')) :
    ∃ cs qs es, n'.sent = n.sent ++ cs ++ qs ++ es ∧
      (∀ c ∈ cs, CertificateRequest (o.text ++ "/api/v2/signingCert".toList) c) ∧ cs.length ≤ 1 ∧ (s.cachedCert ≠ none → cs = []) ∧
      (∀ q ∈ qs, TimestampQuery ctx.services.tsas q) ∧ qs.map Request.url <+: ctx.services.tsas ∧
      (∀ e ∈ es, Submission ctx.services.rekor e) ∧ es.length ≤ 1 ∧
      (qs ++ es ≠ [] → ∃ cert, CheckedCertificate ctx now token.valid s srv n.sent cs cert ∧
        ∀ e ∈ es, ∀ x, e.payload = .entry x → NamesCertificate cert x) ∧
      ∀ b, r = .ok b → (∃ cert, CheckedCertificate ctx now token.valid s srv n.sent cs cert ∧ b.inner.certificate = some cert.der) ∧
        es.length = 1 ∧ (qs.map Request.url = ctx.services.tsas ∨ ∃ sig, ctx.libs.buildQuery sig = none) := by
  have hcert := signingCert_trace ctx hp o ho rest hrest hf now token s srv n
  rcases sign_tail _ _ _ _ _ _ _ _ _ _ h with ⟨e, h1, rfl⟩ | ⟨cert, m, h1, qs, es, h2, h3, h4, h5, h6, h7⟩
  · rcases hcert _ _ h1 with ⟨cert, hc, hs, -⟩ | ⟨hc, hs, -, -⟩ | ⟨hc, -, c, hcr, hs, -⟩
    · exact ⟨[], [], [], by simp [hs], by simp, by simp, by simp, by simp, by simp, by simp, by simp, by simp, fun b hb => by cases hb⟩
    · exact ⟨[], [], [], by simp [hs], by simp, by simp, by simp, by simp, by simp, by simp, by simp, by simp, fun b hb => by cases hb⟩
    · exact ⟨[c], [], [], by simp [hs], by simpa using hcr, by simp, fun h => absurd hc h, by simp, by simp, by simp, by simp, by simp,
        fun b hb => by cases hb⟩
  · have hq : ∀ q ∈ qs, TimestampQuery ctx.services.tsas q := fun q hq =>
      ⟨h4.subset (List.mem_map_of_mem hq), h3 q hq⟩
    have key : ∃ cs, m.sent = n.sent ++ cs ∧ (∀ c ∈ cs, CertificateRequest (o.text ++ "/api/v2/signingCert".toList) c) ∧ cs.length ≤ 1 ∧
        (s.cachedCert ≠ none → cs = []) ∧ CheckedCertificate ctx now token.valid s srv n.sent cs cert := by
      rcases hcert _ _ h1 with ⟨cert', hc, hs, hk⟩ | ⟨-, -, ⟨e, he⟩, -⟩ | ⟨hc, hv, c, hcr, hs, hk⟩
      · obtain ⟨rfl, hk⟩ := hk cert rfl
        exact ⟨[], by simp [hs], by simp, by simp, by simp, .inl ⟨hc, hk⟩⟩
      · cases he
      · obtain ⟨chain, k1, k2⟩ := hk cert rfl
        exact ⟨[c], hs, by simpa using hcr, by simp, fun h => absurd hc h, .inr ⟨hc, hv, c, chain, rfl, k1, k2⟩⟩
    obtain ⟨cs, k1, k2, k3, k4, k5⟩ := key
    refine ⟨cs, qs, es, by rw [h2, k1], k2, k3, k4, hq, h4, fun e he => (h5 e he).1, h6, fun _ => ⟨cert, k5, fun e he => (h5 e he).2⟩, ?_⟩
    intro b hb
    obtain ⟨a1, a2, a3⟩ := h7 b hb
    refine ⟨⟨cert, k5, a2⟩, ?_, a3⟩
    have : es.length ≠ 0 := fun h0 => a1 (List.length_eq_zero_iff.mp h0)
    omega

theorem certificateRequests_append (a b : List Request) :
    certificateRequests (a ++ b) = certificateRequests a + certificateRequests b := List.countP_append

theorem submissions_append (a b : List Request) : submissions (a ++ b) = submissions a + submissions b := List.countP_append

/-- the counts of the three parts of a call -/
theorem call_counts {endpoint : Str} {ctx : Traffic.Context} {cs qs es : List Request}
    (h1 : ∀ c ∈ cs, CertificateRequest endpoint c) (h2 : ∀ q ∈ qs, TimestampQuery ctx.services.tsas q)
    (h3 : ∀ e ∈ es, Submission ctx.services.rekor e) :
    (∀ r ∈ cs ++ qs ++ es, Expected ctx endpoint r) ∧ certificateRequests (cs ++ qs ++ es) = cs.length ∧
      submissions (cs ++ qs ++ es) = es.length := by
  refine ⟨?_, ?_, ?_⟩
  · intro r hr
    rcases List.mem_append.1 hr with hr | hr
    · rcases List.mem_append.1 hr with hr | hr
      · exact .inl (h1 r hr)
      · exact .inr (.inl (h2 r hr))
    · exact .inr (.inr (h3 r hr))
  · rw [certificateRequests_append, certificateRequests_append]
    have a : certificateRequests cs = cs.length := List.countP_eq_length.2 fun r hr => by
      obtain ⟨-, csr, hp, -⟩ := h1 r hr
      rw [hp]
    have b : certificateRequests qs = 0 := List.countP_eq_zero.2 fun r hr => by
      obtain ⟨-, der, hp, -⟩ := h2 r hr
      rw [hp]; simp
    have c : certificateRequests es = 0 := List.countP_eq_zero.2 fun r hr => by
      obtain ⟨-, e, hp, -⟩ := h3 r hr
      rw [hp]; simp
    omega
  · rw [submissions_append, submissions_append]
    have a : submissions cs = 0 := List.countP_eq_zero.2 fun r hr => by
      obtain ⟨-, csr, hp, -⟩ := h1 r hr
      rw [hp]; simp
    have b : submissions qs = 0 := List.countP_eq_zero.2 fun r hr => by
      obtain ⟨-, der, hp, -⟩ := h2 r hr
      rw [hp]; simp
    have c : submissions es = es.length := List.countP_eq_length.2 fun r hr => by
      obtain ⟨-, e, hp, -⟩ := h3 r hr
      rw [hp]
    omega

theorem run_trace (ctx : Traffic.Context) (hp : PemLoader ctx.libs) (o : Origin) (ho : o.WF) (rest : Str) (hrest : FollowsAuthority rest)
    (hf : ctx.services.fulcio = o.text ++ rest) (token : Str) (s : Signer) (srv : Services) (jobs : List Job) (n : Net) :
    ∃ new, (Traffic.run ctx token s srv n jobs).2.sent = n.sent ++ new ∧
      (∀ r ∈ new, Expected ctx (o.text ++ "/api/v2/signingCert".toList) r) ∧
      certificateRequests new ≤ jobs.length ∧ (s.cachedCert ≠ none → certificateRequests new = 0) ∧
      submissions new ≤ jobs.length ∧
      ((Traffic.run ctx token s srv n jobs).1.filter Except.isOk).length ≤ submissions new := by
  induction jobs generalizing n with
  | nil => exact ⟨[], by simp [Traffic.run], by simp, by simp [certificateRequests], by simp [certificateRequests],
      by simp [submissions], by simp [Traffic.run]⟩
  | cons j jobs ih =>
    cases hs : Traffic.sign ctx j.now ⟨token, j.tokenValid⟩ j.nonce s j.call srv n with
    | mk r m =>
      obtain ⟨cs, qs, es, h1, h2, h3, h4, h5, -, h6, h7, -, h8⟩ := C97_call ctx hp o ho rest hrest hf _ _ _ _ _ _ _ _ _ hs
      obtain ⟨new, i1, i2, i3, i4, i5, i6⟩ := ih m
      obtain ⟨k1, k2, k3⟩ := call_counts (ctx := ctx) h2 h5 h6
      cases hr : Traffic.run ctx token s srv m jobs with
      | mk rs m' =>
        rw [hr] at i1 i6
        have he : Traffic.run ctx token s srv n (j :: jobs) = (r :: rs, m') := by
          rw [Traffic.run, hs]
          dsimp only
          rw [hr]
        rw [he]
        refine ⟨cs ++ qs ++ es ++ new, ?_, ?_, ?_, ?_, ?_, ?_⟩
        · dsimp only at i1 ⊢
          rw [i1, h1]; simp
        · intro x hx
          rcases List.mem_append.1 hx with hx | hx
          · exact k1 x hx
          · exact i2 x hx
        · rw [certificateRequests_append, k2, List.length_cons]; omega
        · intro hc
          rw [certificateRequests_append, k2, i4 hc, h4 hc, List.length_nil]
        · rw [submissions_append, k3, List.length_cons]; omega
        · rw [submissions_append, k3]
          cases r with
          | error e => simp only [List.filter_cons, Except.isOk, Except.toBool] at *; simpa using Nat.le_add_left_of_le i6
          | ok b =>
            have := (h8 b rfl).2.1
            simp only [List.filter_cons, Except.isOk, Except.toBool] at *
            simp only [if_true, List.length_cons]
            omega

/-- **C97** All requests of a session go to the configured services: certificate requests to Fulcio, queries to the
timestamp authorities, entries to the log.  A session that caches the certificate asks for at most one, a session that
does not for at most one per call; at most one entry is published per call, and at least one per bundle returned.  If the
first certificate is not accepted, nothing is published. -/
theorem C97_session (ctx : Traffic.Context) (hp : PemLoader ctx.libs) (o : Origin) (ho : o.WF) (rest : Str)
    (hrest : FollowsAuthority rest) (hf : ctx.services.fulcio = o.text ++ rest) (token : Str) (now : Time) (valid cache : Bool)
    (jobs : List Job) (srv : Services) (n n' : Net) (res : Py (List (Py Bundle)))
    (h : Traffic.session ctx token now valid cache jobs srv n = (res, n')) :
    ∃ new, n'.sent = n.sent ++ new ∧ (∀ r ∈ new, Expected ctx (o.text ++ "/api/v2/signingCert".toList) r) ∧
      certificateRequests new ≤ (if cache then 1 else jobs.length) ∧ submissions new ≤ jobs.length ∧
      (∀ rs, res = .ok rs → rs.length = jobs.length ∧ (rs.filter Except.isOk).length ≤ submissions new) ∧
      (∀ e, res = .error e → ∀ r ∈ new, CertificateRequest (o.text ++ "/api/v2/signingCert".toList) r) := by
  have hlen : ∀ (s : Signer) (js : List Job) (m : Net), (Traffic.run ctx token s srv m js).1.length = js.length := by
    intro s js
    induction js with
    | nil => intro m; rfl
    | cons j js ih =>
      intro m
      rw [Traffic.run]
      cases hs : Traffic.sign ctx j.now ⟨token, j.tokenValid⟩ j.nonce s j.call srv m with
      | mk r m2 =>
        have := ih m2
        dsimp only
        cases hr : Traffic.run ctx token s srv m2 js with
        | mk rs m3 =>
          rw [hr] at this
          dsimp only at this ⊢
          rw [List.length_cons, List.length_cons, this]
  unfold Traffic.session at h
  cases cache with
  | false =>
    change (match Traffic.run ctx token ⟨none, none⟩ srv n jobs with | (rs, n) => (Except.ok rs, n)) = (res, n') at h
    obtain ⟨new, h1, h2, h3, -, h5, h6⟩ := run_trace ctx hp o ho rest hrest hf token ⟨none, none⟩ srv jobs n
    have hl := hlen ⟨none, none⟩ jobs n
    cases hr : Traffic.run ctx token ⟨none, none⟩ srv n jobs with
    | mk rs m =>
      rw [hr] at h h1 h6 hl
      cases h
      refine ⟨new, h1, h2, by simpa using h3, h5, ?_, fun e he => by cases he⟩
      intro rs' hrs
      cases hrs
      exact ⟨hl, h6⟩
  | true =>
    cases hi : Traffic.init ctx now ⟨token, valid⟩ true srv n with
    | mk r m =>
      rw [hi] at h
      unfold Traffic.init at hi
      rw [if_pos rfl] at hi
      rcases andThen_cases hi with ⟨e, h1, -⟩ | ⟨k, m1, h1, hi⟩
      · cases h1
      have hm1 : m1.sent = n.sent := by cases h1; rfl
      -- the certificate of the constructor
      have cert : ∀ (x : Py Cert) (m2 : Net),
          Traffic.signingCert ctx now ⟨token, valid⟩ { cachedKey := some k, cachedCert := none } srv m1 = (x, m2) →
          ∃ cs, m2.sent = n.sent ++ cs ∧ cs.length ≤ 1 ∧
            ∀ c ∈ cs, CertificateRequest (o.text ++ "/api/v2/signingCert".toList) c := by
        intro x m2 hx
        rcases signingCert_trace ctx hp o ho rest hrest hf now ⟨token, valid⟩ _ srv m1 _ _ hx with
          ⟨cert', hc, -, -⟩ | ⟨-, hs, -, -⟩ | ⟨-, -, c, hcr, hs, -⟩
        · cases hc
        · exact ⟨[], by rw [hs, hm1]; simp, by simp, by simp⟩
        · exact ⟨[c], by rw [hs, hm1], by simp, by simpa using hcr⟩
      rcases andThen_cases hi with ⟨e, h2, rfl⟩ | ⟨ct, m2, h2, hi⟩
      · obtain ⟨cs, c1, c2, c3⟩ := cert _ _ h2
        cases h
        obtain ⟨a1, a2, a3⟩ := call_counts (ctx := ctx) (qs := []) (es := []) c3 (by simp) (by simp)
        simp only [List.append_nil, List.length_nil] at a1 a2 a3
        refine ⟨cs, c1, a1, ?_, ?_, fun rs hrs => (by cases hrs), fun _ _ => c3⟩
        · rw [a2]; simpa using c2
        · rw [a3]; exact Nat.zero_le _
      · obtain ⟨cs, c1, c2, c3⟩ := cert _ _ h2
        obtain ⟨rfl, rfl⟩ := pure_cases hi
        dsimp only at h
        obtain ⟨new, h1, h2, -, h4, h5, h6⟩ :=
          run_trace ctx hp o ho rest hrest hf token { cachedKey := some k, cachedCert := some ct } srv jobs m2
        have hl := hlen { cachedKey := some k, cachedCert := some ct } jobs m2
        cases hr : Traffic.run ctx token { cachedKey := some k, cachedCert := some ct } srv m2 jobs with
        | mk rs m3 =>
          rw [hr] at h h1 h6 hl
          cases h
          obtain ⟨a1, a2, a3⟩ := call_counts (ctx := ctx) (qs := []) (es := []) c3 (by simp) (by simp)
          simp only [List.append_nil, List.length_nil] at a1 a2 a3
          refine ⟨cs ++ new, ?_, ?_, ?_, ?_, ?_, fun e he => by cases he⟩
          · dsimp only at h1
            rw [h1, c1]; simp
          · intro x hx
            rcases List.mem_append.1 hx with hx | hx
            · exact a1 x hx
            · exact h2 x hx
          · rw [certificateRequests_append, a2, h4 (by simp)]; simpa using c2
          · rw [submissions_append, a3]; omega
          · intro rs' hrs
            cases hrs
            refine ⟨hl, ?_⟩
            rw [submissions_append, a3, Nat.zero_add]
            exact h6

/-! ## The traced model and the model of `Signer` -/

/-- the timestamp clients, as seen by the loop: each one is asked after the earlier ones -/
def tsaAnswers (libs : Traffic.Libs) (srv : Services) : (Bytes → Net) → List Str → List (Bytes → Py Tsr)
  | _, [] => []
  | m, url :: rest =>
    (fun sig => (Traffic.requestTimestamp libs url sig srv (m sig)).1) ::
      tsaAnswers libs srv (fun sig => (Traffic.requestTimestamp libs url sig srv (m sig)).2) rest

/-- what a call sees from outside, when the services are `srv` -/
def answersAt (ctx : Traffic.Context) (now : Time) (token : Token) (nonce : Nat) (s : Signer) (call : Call) (srv : Services)
    (n : Net) : Answers :=
  let m := (Traffic.signingCert ctx now token s srv n).2
  let m2 : Net := { m with world := (s.privateKey m.world).2 }
  { now := now, tokenValid := token.valid, nonce := nonce
    fulcio := fun csr => (Traffic.fulcioPost ctx.libs ctx.services.fulcio token.raw csr srv n).1
    tsas := tsaAnswers ctx.libs srv (fun _ => m2) ctx.services.tsas
    rekor := fun request =>
      (Traffic.createEntry ctx.libs ctx.services.rekor request srv
        (Traffic.collectTimestamps ctx.libs (signatureFor ctx.env.crypto ctx.keys (s.privateKey m.world).1 nonce call)
          ctx.services.tsas srv m2).2).1 }

theorem requestTimestamp_world (libs : Traffic.Libs) (url : Str) (sig : Bytes) (srv : Services) (n : Net) :
    (Traffic.requestTimestamp libs url sig srv n).2.world = n.world := by
  unfold Traffic.requestTimestamp
  split <;> rfl

theorem collectTimestamps_refines (libs : Traffic.Libs) (srv : Services) (sig : Bytes) (urls : List Str) (m : Bytes → Net) :
    (Traffic.collectTimestamps libs sig urls srv (m sig)).1 = Signing.collectTimestamps sig (tsaAnswers libs srv m urls) ∧
      (Traffic.collectTimestamps libs sig urls srv (m sig)).2.world = (m sig).world := by
  induction urls generalizing m with
  | nil => exact ⟨rfl, rfl⟩
  | cons url rest ih =>
    have hw := requestTimestamp_world libs url sig srv (m sig)
    obtain ⟨i1, i2⟩ := ih (fun sig => (Traffic.requestTimestamp libs url sig srv (m sig)).2)
    rw [Traffic.collectTimestamps, tsaAnswers, Signing.collectTimestamps]
    cases h : Traffic.requestTimestamp libs url sig srv (m sig) with
    | mk r m1 =>
      rw [h] at hw
      dsimp only at i1 i2 hw ⊢
      rw [h] at i1 i2
      rw [h]
      dsimp only at i1 i2 ⊢
      cases r with
      | error e =>
        dsimp only
        by_cases he : e = .timestamp
        · rw [if_pos he, if_pos he]
          exact ⟨i1, i2.trans hw⟩
        · rw [if_neg he, if_neg he]
          exact ⟨rfl, hw⟩
      | ok t =>
        dsimp only [Traffic.andThen]
        cases h2 : Traffic.collectTimestamps libs sig rest srv m1 with
        | mk r2 m2 =>
          rw [h2] at i1 i2
          dsimp only at i1 i2
          rw [← i1]
          cases r2 with
          | error e => exact ⟨rfl, i2.trans hw⟩
          | ok ts => exact ⟨rfl, i2.trans hw⟩

theorem post_pure {α : Type} (r : Request) (f : Response → Py α) (srv : Services) (n : Net) :
    Traffic.andThen (Traffic.post r) (fun x => Traffic.pure (f x)) srv n =
      ((match srv n.sent r with | .error e => .error e | .ok x => f x), { n with sent := n.sent ++ [r] }) := by
  unfold Traffic.andThen Traffic.post Traffic.pure
  cases srv n.sent r <;> rfl

theorem createEntry_world (libs : Traffic.Libs) (rekor : RekorHandle) (request : EntryRequest) (srv : Services) (n : Net) :
    (Traffic.createEntry libs rekor request srv n).2.world = n.world := by
  cases rekor <;>
  · unfold Traffic.createEntry
    dsimp only
    rw [post_pure]

theorem fulcioPost_world (libs : Traffic.Libs) (url token : Str) (csr : Csr) (srv : Services) (n : Net) :
    (Traffic.fulcioPost libs url token csr srv n).2.world = n.world := by
  unfold Traffic.fulcioPost
  cases fulcioSigningCertUrl libs.urls url with
  | error e => rfl
  | ok endpoint =>
    change (Traffic.andThen (Traffic.post _) (fun r => Traffic.pure (fulcioSigningCert libs.loads libs.loadPem (.ok r))) srv n).2.world = _
    rw [post_pure]

theorem fulcioPost_sent (libs : Traffic.Libs) (url token : Str) (csr : Csr) (srv : Services) (n n' : Net) (h : n.sent = n'.sent) :
    (Traffic.fulcioPost libs url token csr srv n).1 = (Traffic.fulcioPost libs url token csr srv n').1 := by
  unfold Traffic.fulcioPost
  cases fulcioSigningCertUrl libs.urls url with
  | error e => rfl
  | ok endpoint =>
    change (Traffic.andThen (Traffic.post _) (fun r => Traffic.pure (fulcioSigningCert libs.loads libs.loadPem (.ok r))) srv n).1 =
      (Traffic.andThen (Traffic.post _) (fun r => Traffic.pure (fulcioSigningCert libs.loads libs.loadPem (.ok r))) srv n').1
    rw [post_pure, post_pure, h]

theorem signingCert_refines (ctx : Traffic.Context) (now : Time) (token : Token) (s : Signer) (srv : Services) (n : Net) (a : Answers)
    (h1 : a.now = now) (h2 : a.tokenValid = token.valid)
    (h3 : a.fulcio = fun csr => (Traffic.fulcioPost ctx.libs ctx.services.fulcio token.raw csr srv n).1) :
    s.signingCert ctx.env ⟨ctx.root, apiVersion ctx.services.rekor⟩ ctx.keys a n.world =
      ((Traffic.signingCert ctx now token s srv n).1, (Traffic.signingCert ctx now token s srv n).2.world) := by
  unfold Signer.signingCert Traffic.signingCert
  subst h1
  cases hc : s.cachedCert with
  | some cert => rfl
  | none =>
    dsimp only
    rw [h2]
    cases hv : token.valid with
    | false => rfl
    | true =>
      simp only [Bool.not_true, Bool.false_eq_true, if_false]
      unfold Signer.buildCsr Traffic.requestCert Traffic.privateKey Traffic.andThen
      cases hk : s.privateKey n.world with
      | mk k w =>
        rw [h3]
        simp only [hk]
        have e1 := fulcioPost_sent ctx.libs ctx.services.fulcio token.raw ⟨ctx.keys.pub k⟩ srv n
          { world := { w with posts := w.posts ++ [⟨ctx.keys.pub k⟩] }, sent := n.sent } rfl
        have e2 := fulcioPost_world ctx.libs ctx.services.fulcio token.raw ⟨ctx.keys.pub k⟩ srv
          { world := { w with posts := w.posts ++ [⟨ctx.keys.pub k⟩] }, sent := n.sent }
        rw [e1]
        cases hf : Traffic.fulcioPost ctx.libs ctx.services.fulcio token.raw ⟨ctx.keys.pub k⟩ srv
          { world := { w with posts := w.posts ++ [⟨ctx.keys.pub k⟩] }, sent := n.sent } with
        | mk r m =>
          rw [hf] at e2
          dsimp only at e2
          dsimp only
          cases r with
          | error e => dsimp only; rw [e2]
          | ok answer =>
            obtain ⟨cert, chain⟩ := answer
            dsimp only [Traffic.pure]
            cases checkNewCert ctx.env ⟨ctx.root, apiVersion ctx.services.rekor⟩ a.now cert chain with
            | error e => dsimp only; rw [e2]
            | ok u => dsimp only; rw [e2]

theorem finalizeSign_refines (ctx : Traffic.Context) (cert : Cert) (content : Content) (sig : Bytes) (request : EntryRequest)
    (srv : Services) (m : Net) (a : Answers) (h1 : a.tsas = tsaAnswers ctx.libs srv (fun _ => m) ctx.services.tsas)
    (h2 : a.rekor = fun request => (Traffic.createEntry ctx.libs ctx.services.rekor request srv
        (Traffic.collectTimestamps ctx.libs sig ctx.services.tsas srv m).2).1) :
    (Traffic.finalizeSign ctx cert content sig request srv m).1 = Signing.finalizeSign ctx.env a cert content sig request ∧
      (Traffic.finalizeSign ctx cert content sig request srv m).2.world = m.world := by
  obtain ⟨c1, c2⟩ := collectTimestamps_refines ctx.libs srv sig ctx.services.tsas fun _ => m
  unfold Traffic.finalizeSign Signing.finalizeSign Traffic.andThen
  rw [h1, ← c1, h2]
  dsimp only
  cases hc : Traffic.collectTimestamps ctx.libs sig ctx.services.tsas srv m with
  | mk r m1 =>
    rw [hc] at c2
    dsimp only at c2 ⊢
    cases r with
    | error e => exact ⟨rfl, c2⟩
    | ok ts =>
      dsimp only
      have hw := createEntry_world ctx.libs ctx.services.rekor request srv m1
      cases he : Traffic.createEntry ctx.libs ctx.services.rekor request srv m1 with
      | mk r2 m2 =>
        rw [he] at hw
        dsimp only at hw ⊢
        cases r2 with
        | error e => exact ⟨rfl, hw.trans c2⟩
        | ok entry => exact ⟨rfl, hw.trans c2⟩

/-- A call of the traced model is a call of `Signer.sign` with the answers of the services, so C35–C38 are about these
calls as well. -/
theorem C97_refines (ctx : Traffic.Context) (now : Time) (token : Token) (nonce : Nat) (s : Signer) (call : Call)
    (srv : Services) (n n' : Net) (r : Py Bundle) (h : Traffic.sign ctx now token nonce s call srv n = (r, n')) :
    s.sign ctx.env ⟨ctx.root, apiVersion ctx.services.rekor⟩ ctx.keys (answersAt ctx now token nonce s call srv n) n.world call =
      (r, n'.world) := by
  have hcert := signingCert_refines ctx now token s srv n (answersAt ctx now token nonce s call srv n) rfl rfl rfl
  have hfin := fun cert content request => finalizeSign_refines ctx cert content
    (signatureFor ctx.env.crypto ctx.keys (s.privateKey (Traffic.signingCert ctx now token s srv n).2.world).1 nonce call) request srv
    { (Traffic.signingCert ctx now token s srv n).2 with
      world := (s.privateKey (Traffic.signingCert ctx now token s srv n).2.world).2 }
    (answersAt ctx now token nonce s call srv n) rfl rfl
  have hn : (answersAt ctx now token nonce s call srv n).nonce = nonce := rfl
  cases hc : Traffic.signingCert ctx now token s srv n with
  | mk rc m =>
    rw [hc] at hcert hfin
    dsimp only at hcert hfin
    cases hk : s.privateKey m.world with
    | mk k w =>
      rw [hk] at hfin
      dsimp only at hfin
      cases call with
      | artifact input =>
        unfold Traffic.sign Traffic.signArtifact Traffic.privateKey Traffic.andThen Traffic.pure at h
        dsimp only at h
        rw [hc] at h
        unfold Signer.sign Signer.signArtifact
        rw [hcert]
        cases rc with
        | error e => dsimp only at h ⊢; cases h; rfl
        | ok cert =>
          dsimp only at h ⊢
          rw [hk] at h ⊢
          dsimp only at h ⊢
          rw [hn]
          cases hs : signPrehashed ctx.keys k nonce (sha256Digest ctx.env.crypto input) with
          | error e => rw [hs] at h; dsimp only at h ⊢; cases h; rfl
          | ok sig =>
            rw [hs] at h
            dsimp only at h ⊢
            have hsig := ((signPrehashed_ok_iff _ _ _ _ _).1 hs).2.2
            cases hr : hashedRekordRequest (apiVersion ctx.services.rekor) (sha256Digest ctx.env.crypto input) sig cert with
            | error e => rw [hr] at h; dsimp only at h ⊢; cases h; rfl
            | ok request =>
              rw [hr] at h
              dsimp only at h ⊢
              obtain ⟨f1, f2⟩ := hfin cert
                (.message { digest := some (sha256Digest ctx.env.crypto input).digest, signature := sig }) request
              change (Traffic.finalizeSign ctx cert _ (ctx.keys.sign k nonce (sha256Digest ctx.env.crypto input).digest) request srv _).1 = _ at f1
              change (Traffic.finalizeSign ctx cert _ (ctx.keys.sign k nonce (sha256Digest ctx.env.crypto input).digest) request srv _).2.world = _ at f2
              change _ = Signing.finalizeSign ctx.env _ cert _ (ctx.keys.sign k nonce (sha256Digest ctx.env.crypto input).digest) request at f1
              rw [← hsig, h] at f1 f2
              rw [← f1]
              exact Prod.ext rfl f2.symm
      | dsse stmt =>
        unfold Traffic.sign Traffic.signDsse Traffic.privateKey Traffic.andThen Traffic.pure at h
        dsimp only at h
        rw [hc] at h
        unfold Signer.sign Signer.signDsse
        rw [hcert]
        cases rc with
        | error e => dsimp only at h ⊢; cases h; rfl
        | ok cert =>
          dsimp only at h ⊢
          rw [hk] at h ⊢
          dsimp only at h ⊢
          rw [hn]
          cases hs : dsseSign (fun data => ctx.keys.sign k nonce (ctx.env.crypto.sha256 data)) stmt with
          | error e => rw [hs] at h; dsimp only at h ⊢; cases h; rfl
          | ok envelope =>
            rw [hs] at h
            dsimp only at h ⊢
            cases hr : dsseRequest ctx.env.crypto (apiVersion ctx.services.rekor) envelope cert with
            | error e => rw [hr] at h; dsimp only at h ⊢; cases h; rfl
            | ok request =>
              rw [hr] at h
              dsimp only at h ⊢
              cases hi : envelopeInit envelope with
              | error e => rw [hi] at h; dsimp only at h ⊢; cases h; rfl
              | ok sig =>
                rw [hi] at h
                dsimp only at h ⊢
                have hsig : sig = ctx.keys.sign k nonce (ctx.env.crypto.sha256 (pae inTotoType stmt.contents)) := by
                  obtain ⟨-, rfl⟩ := (dsseSign_ok_iff _ _ _).1 hs
                  unfold envelopeInit at hi
                  dsimp only at hi
                  split at hi
                  · cases hi
                  · cases hi; rfl
                obtain ⟨f1, f2⟩ := hfin cert (.envelope envelope) request
                change (Traffic.finalizeSign ctx cert _ (ctx.keys.sign k nonce (ctx.env.crypto.sha256 (pae inTotoType stmt.contents))) request srv _).1 = _ at f1
                change (Traffic.finalizeSign ctx cert _ (ctx.keys.sign k nonce (ctx.env.crypto.sha256 (pae inTotoType stmt.contents))) request srv _).2.world = _ at f2
                change _ = Signing.finalizeSign ctx.env _ cert _ (ctx.keys.sign k nonce (ctx.env.crypto.sha256 (pae inTotoType stmt.contents))) request at f1
                rw [← hsig, h] at f1 f2
                rw [← f1]
                exact Prod.ext rfl f2.symm

end Sigstore.Props
