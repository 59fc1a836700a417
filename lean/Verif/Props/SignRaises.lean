import Verif.Spec.SignRaises
import Verif.Lemmas.Raises
import Verif.Props.HttpErrors
import Verif.Props.TrafficExamples

/-!
# C109: exactly which exceptions signing raises
-/

namespace Sigstore.SignRaises

open Sigstore.Trust Sigstore.LogEntry Sigstore.Dsse Sigstore.Rekor Sigstore.Signing Sigstore.Http Sigstore.Url Sigstore.Sct
  Sigstore.Traffic Sigstore.Props

theorem keyVerify (c : Crypto) (k : Key) (s d : Bytes) :
    Key.verify c k s d = .error x → x = .invalidSignature ∨ x ∈ Spec.certRaises := by
  intro h; unfold Key.verify at h; rz [] h

theorem tryCandidates (c : Crypto) (s d : Bytes) (ks : List Key) :
    Trust.tryCandidates c s d ks = .error x → x ∈ Spec.certRaises := by
  induction ks with
  | nil => intro h; simp [Trust.tryCandidates] at h
  | cons k ks ih =>
    intro h; rw [Trust.tryCandidates] at h
    split at h
    · simp at h
    · exact ih h
    · next e hne hk =>
      rw [Except.error.injEq] at h; subst h
      rcases keyVerify c k s d hk with rfl | h
      · exact absurd rfl hne
      · exact h

theorem keyringVerify (c : Crypto) (kr : Keyring) (i s d : Bytes) : kr.verify c i s d = .error x → x ∈ Spec.certRaises := by
  intro h; unfold Keyring.verify at h; rz [tryCandidates] h

theorem keyringInit (c : Crypto) (ms : List PublicKeyMsg) : Keyring.init c ms = .error x → x ∈ Spec.certRaises := by
  intro h
  obtain ⟨kr, hk⟩ := C10_keyring_total c ms
  rw [hk] at h; simp at h

theorem ctKeyring (c : Crypto) (now : Time) (r : TrustedRoot Cert) (p : Purpose) :
    Trust.ctKeyring c now r p = .error x → x ∈ Spec.certRaises := by
  intro h; unfold Trust.ctKeyring at h; dsimp only at h; rz [keyringInit] h

theorem getSct (cert : Cert) : Sct.getSct cert = .error x → x ∈ Spec.certRaises := by
  intro h; unfold Sct.getSct at h; rz [] h

theorem getIssuerCert (chain : List Cert) : Sct.getIssuerCert chain = .error x → x ∈ Spec.certRaises := by
  intro h; unfold Sct.getIssuerCert at h; rz [] h

theorem certIsCa (cert : Cert) : Sigstore.certIsCa cert = .error x → x ∈ Spec.certRaises := by
  intro h; unfold Sigstore.certIsCa at h; rz [] h

theorem sctCertIsCa (cert : Cert) : Sct.sctCertIsCa cert = .error x → x ∈ Spec.certRaises := by
  intro h; unfold Sct.sctCertIsCa at h; rz [certIsCa] h

theorem issuerKeyIdFor (c : Crypto) (sct : Sct) (chain : List Cert) :
    Sct.issuerKeyIdFor c sct chain = .error x → x ∈ Spec.certRaises := by
  intro h; unfold Sct.issuerKeyIdFor at h; rz [getIssuerCert, sctCertIsCa] h

theorem packOpaque24 (der : Bytes) : Sct.packOpaque24 der = .error x → x ∈ Spec.certRaises := by
  intro h; unfold Sct.packOpaque24 at h; rz [] h

theorem packSignedEntry (sct : Sct) (cert : Cert) (i : Option Bytes) :
    Sct.packSignedEntry sct cert i = .error x → x ∈ Spec.certRaises := by
  intro h; unfold Sct.packSignedEntry at h; rz [packOpaque24] h

theorem packDigitallySigned (sct : Sct) (cert : Cert) (i : Option Bytes) :
    Sct.packDigitallySigned sct cert i = .error x → x ∈ Spec.certRaises := by
  intro h; unfold Sct.packDigitallySigned at h; rz [packSignedEntry] h

theorem verifySct (c : Crypto) (cert : Cert) (chain : List Cert) (kr : Keyring) :
    Sct.verifySct c cert chain kr = .error x → x ∈ Spec.certRaises := by
  intro h; unfold Sct.verifySct at h
  rz [getSct, issuerKeyIdFor, packDigitallySigned, keyringVerify] h

theorem checkNewCert (env : Env) (ctx : Signing.Context) (now : Time) (cert : Cert) (chain : List Cert) :
    Signing.checkNewCert env ctx now cert chain = .error x → x ∈ Spec.certRaises := by
  intro h; unfold Signing.checkNewCert at h; rz [ctKeyring, verifySct] h

/-! ## Fulcio -/

theorem checkNetloc (libs : UrlLibs) (s : Str) : Url.checkNetloc libs s = .error x → x ∈ Spec.certRaises := by
  intro h; unfold Url.checkNetloc at h; rz [] h

theorem urlsplit (libs : UrlLibs) (s d : Str) : Url.urlsplit libs s d = .error x → x ∈ Spec.certRaises := by
  intro h; unfold Url.urlsplit at h; rz [checkNetloc] h

theorem urlparse (libs : UrlLibs) (s d : Str) : Url.urlparse libs s d = .error x → x ∈ Spec.certRaises := by
  intro h; unfold Url.urlparse at h; rz [urlsplit] h

theorem urljoin (libs : UrlLibs) (s base : Str) : Url.urljoin libs s base = .error x → x ∈ Spec.certRaises := by
  intro h; unfold Url.urljoin at h; rz [urlparse] h

/-- an exception of `requests`, or one on a list -/
def In (l : List Exc) (e : Exc) : Prop := e.isRequestException = true ∨ e ∈ l

theorem bind_in {α β : Type} {x : Py α} {f : α → Py β} {l : List Exc} (h1 : x = .error e → In l e)
    (h2 : ∀ a, f a = .error e → In l e) (h : (x >>= f) = .error e) : In l e := by
  rcases (Props.bind_error_iff _ _ _).1 h with h | ⟨a, _, h⟩
  · exact h1 h
  · exact h2 a h

theorem json_in {r : Response} (l : List Exc) (h : r.json = .error e) : In l e := by
  unfold Response.json at h
  split at h <;> cases h
  exact .inl rfl

theorem loadCertJson_in {loadPem : Bytes → Option Cert} {c : Json} (h : loadCertJson loadPem c = .error e) : In Spec.certRaises e := by
  unfold loadCertJson at h
  refine bind_in (fun h => ?_) (fun b h => ?_) h
  · unfold encode at h
    split at h <;> cases h
    exact .inr (by decide)
  · split at h <;> cases h
    exact .inr (by decide)

theorem fulcioCertificates_in {r : Response} (h : fulcioCertificates r = .error e) : In Spec.certRaises e := by
  unfold fulcioCertificates keyErrorToFulcio at h
  split at h
  · next x hx =>
    cases h
    by_cases hk : x = .keyError
    · subst hk; exact .inr (by decide)
    · rw [if_neg hk]
      have hi : ∀ {j : Json} {k : Str}, item j k = .error x → In Spec.certRaises x := fun h => by
        rcases item_error h with rfl | rfl <;> exact .inr (by decide)
      exact bind_in (json_in _) (fun _ => bind_in hi fun _ => bind_in hi fun _ => hi) hx
  · cases h

theorem fulcioSigningCert_in {loads : Str → Option Json} {loadPem : Bytes → Option Cert} {r : Response}
    (h : fulcioSigningCert loads loadPem (.ok r) = .error e) : In Spec.certRaises e := by
  by_cases hs : Spec.ErrorStatus r.status
  · rw [(C80_error_status_raises r hs).2.2.2.2.2.1 loads loadPem] at h
    cases h
    exact .inr (by decide)
  · unfold fulcioSigningCert at h
    change Response.checked r _ _ = _ at h
    rw [checked_ok hs] at h
    refine bind_in fulcioCertificates_in (fun certificates => bind_in (fun h => ?_) fun n h => ?_) h
    · unfold len at h
      split at h <;> cases h
      exact .inr (by decide)
    · split at h
      · cases h; exact .inr (by decide)
      · refine bind_in (fun h => ?_) (fun c => bind_in loadCertJson_in fun cert => bind_in (fun h => ?_) fun others =>
          bind_in (fun h => ?_) fun chain h => (by cases h)) h
        · unfold first at h
          split at h <;> cases h <;> exact .inr (by decide)
        · unfold rest at h
          split at h <;> cases h
          exact .inr (by decide)
        · obtain ⟨x, _, h⟩ := forEach_error h
          exact loadCertJson_in h

/-! ## Actions -/

theorem andThen_in {α β : Type} {x : Traffic.Action α} {f : α → Traffic.Action β} {srv : Services} {n : Net} {P : Prop}
    (h1 : (x srv n).1 = .error e → P) (h2 : ∀ a m, (f a srv m).1 = .error e → P)
    (h : (Traffic.andThen x f srv n).1 = .error e) : P := by
  unfold Traffic.andThen at h
  cases hx : x srv n with
  | mk y m =>
    rw [hx] at h
    cases y with
    | error e' => cases h; exact h1 (by rw [hx])
    | ok a => exact h2 a m h

theorem andThen_in' {α β : Type} {x : Traffic.Action α} {f : α → Traffic.Action β} {srv : Services} {n : Net} {P : Prop} {r : Py α}
    (hr : (x srv n).1 = r) (h1 : ∀ e', r = .error e' → e' = e → P) (h2 : ∀ a m, r = .ok a → (f a srv m).1 = .error e → P)
    (h : (Traffic.andThen x f srv n).1 = .error e) : P := by
  unfold Traffic.andThen at h
  cases hx : x srv n with
  | mk y m =>
    rw [hx] at h hr
    cases y with
    | error e' => cases h; exact h1 _ hr.symm rfl
    | ok a => exact h2 a m hr.symm h

theorem post_in {srv : Services} (hs : Spec.RequestsOnly srv) {r : Request} {n : Net} (l : List Exc)
    (h : (Traffic.post r srv n).1 = .error e) : In l e := .inl (hs _ _ _ h)

theorem fulcioPost_in {srv : Services} (hs : Spec.RequestsOnly srv) {libs : Libs} {url token : Str} {csr : Csr} {n : Net}
    (h : (Traffic.fulcioPost libs url token csr srv n).1 = .error e) : In Spec.certRaises e := by
  unfold Traffic.fulcioPost at h
  exact andThen_in (fun h => .inr (urljoin _ _ _ h)) (fun _ _ => andThen_in (post_in hs _) fun _ _ h => fulcioSigningCert_in h) h

theorem requestCert_in {srv : Services} (hs : Spec.RequestsOnly srv) {ctx : Traffic.Context} {now : Time} {token : Token} {s : Signer}
    {n : Net} (h : (requestCert ctx now token s srv n).1 = .error e) : In Spec.certRaises e := by
  unfold requestCert at h
  refine andThen_in (fun h => ?_) (fun k _ => andThen_in (fun h => ?_) fun _ _ => andThen_in (fulcioPost_in hs) fun _ _ =>
    andThen_in (fun h => .inr (checkNewCert _ _ _ _ _ h)) fun _ _ h => ?_) h
  · cases h
  · cases h
  · cases h

theorem signingCert_in {srv : Services} (hs : Spec.RequestsOnly srv) {ctx : Traffic.Context} {now : Time} {token : Token} {s : Signer}
    {n : Net} (hc : s.cachedCert = none) (h : (Traffic.signingCert ctx now token s srv n).1 = .error e) : In Spec.certRaises e := by
  unfold Traffic.signingCert at h
  rw [hc] at h
  dsimp only at h
  split at h
  · cases h; exact .inr (by decide)
  · exact requestCert_in hs h

theorem signingCert_cached {srv : Services} {ctx : Traffic.Context} {now : Time} {token : Token} {s : Signer} {cert : Cert}
    {n : Net} (hc : s.cachedCert = some cert) (h : (Traffic.signingCert ctx now token s srv n).1 = .error e) :
    e = .expiredCertificate := by
  unfold Traffic.signingCert Traffic.pure at h
  rw [hc] at h
  dsimp only at h
  split at h <;> cases h
  rfl

theorem requestTimestamp_only {srv : Services} (hs : Spec.RequestsOnly srv) {libs : Libs} {url : Str} {sig : Bytes} {n : Net}
    (h : (Traffic.requestTimestamp libs url sig srv n).1 = .error e) : e = .timestamp := by
  unfold Traffic.requestTimestamp at h
  split at h
  · cases h; rfl
  · exact C82_timestamp_error_only _ _ _ (fun _ _ h => hs _ _ _ h) _ _ h

theorem requestTimestamp_ok {srv : Services} {libs : Libs} {url : Str} {sig : Bytes} {n : Net} {t : Tsr}
    (h : (Traffic.requestTimestamp libs url sig srv n).1 = .ok t) : ∃ b, libs.decodeTsr b = some t := by
  unfold Traffic.requestTimestamp at h
  split at h
  · cases h
  · obtain ⟨_, r, _, _, _, h⟩ := (C82_timestamp_ok_iff _ _ _ _ _).1 h
    exact ⟨_, h⟩

/-- the loop never fails, and gives only responses that were decoded -/
theorem collectTimestamps_ok {srv : Services} (hs : Spec.RequestsOnly srv) (libs : Libs) (sig : Bytes) (urls : List Str) : ∀ (n : Net),
    ∃ ts, (Traffic.collectTimestamps libs sig urls srv n).1 = .ok ts ∧ ∀ t ∈ ts, ∃ b, libs.decodeTsr b = some t := by
  induction urls with
  | nil => intro n; exact ⟨[], rfl, nofun⟩
  | cons url rest ih =>
    intro n
    simp only [Traffic.collectTimestamps]
    have h2 := fun t => @requestTimestamp_ok srv libs url sig n t
    cases hx : Traffic.requestTimestamp libs url sig srv n with
    | mk r m =>
      rw [hx] at h2
      cases r with
      | error e =>
        dsimp only
        rw [if_pos (requestTimestamp_only hs (by rw [hx]))]
        exact ih m
      | ok t =>
        dsimp only
        obtain ⟨ts, k1, k2⟩ := ih m
        refine ⟨t :: ts, ?_, ?_⟩
        · unfold Traffic.andThen
          cases hy : Traffic.collectTimestamps libs sig rest srv m with
          | mk r m' =>
            rw [hy] at k1
            dsimp only at k1
            subst k1
            rfl
        · intro u hu
          rcases List.mem_cons.1 hu with rfl | hu
          · exact h2 u rfl
          · exact k2 u hu

theorem malformed_in (h : MalformedError e) : In Spec.dsseRaises e := by
  rcases h with rfl | rfl | rfl | rfl | rfl | rfl | rfl | rfl
  · exact .inl rfl
  all_goals exact .inr (by decide)

theorem createEntry_in {srv : Services} (hs : Spec.RequestsOnly srv) {libs : Libs} {rekor : Config.RekorHandle} {request : EntryRequest}
    {n : Net} (h : (Traffic.createEntry libs rekor request srv n).1 = .error e) : In Spec.dsseRaises e := by
  unfold Traffic.createEntry at h
  split at h
  · refine andThen_in (post_in hs _) (fun r _ h => ?_) h
    by_cases he : Spec.ErrorStatus r.status
    · rw [show e = .rekorClient from ?_]
      · exact .inr (by decide)
      · have := ((C101_rekor_error_iff_partial r).2.1 libs.entryV1).2 he
        exact Except.error.inj (h.symm.trans this)
    · exact malformed_in ((C101_malformed r he e).2.1 _ h)
  · refine andThen_in (post_in hs _) (fun r _ h => ?_) h
    by_cases he : Spec.ErrorStatus r.status
    · rw [show e = .rekorClient from ?_]
      · exact .inr (by decide)
      · have := ((C101_rekor_error_iff_partial r).2.2.2.2 libs.entryV2).2 he
        exact Except.error.inj (h.symm.trans this)
    · exact malformed_in ((C101_malformed r he e).2.2.2.2 _ h)

theorem fromParts_in {env : Env} {cert : Cert} {content : Content} {entry : LogEntry} {ts : List Tsr}
    (ht : ∀ t ∈ ts, env.decodeTsr t.raw ≠ none) (h : Bundle.fromParts env cert (some content) entry (some ts) = .error e) :
    In Spec.dsseRaises e := by
  have key : ∀ m : BundleMsg, m.chain = none → m.timestamps = ts.map Tsr.raw → Bundle.init env m = .error e → In Spec.dsseRaises e := by
    intro m hc hm h
    rcases C62_init_errors_partial env m e h with h | ⟨rfl, _⟩ | ⟨_, raw, raws, c, h, _⟩ | ⟨_, ⟨_, _, _, h, _⟩ | ⟨b, hb, h⟩⟩
    · cases e <;> first | (exact .inr (by decide)) | (cases h)
    · exact .inr (by decide)
    · rw [hc] at h; cases h
    · rw [hc] at h; cases h
    · rw [hm] at hb
      obtain ⟨t, h1, rfl⟩ := List.mem_map.1 hb
      exact absurd h (ht t h1)
  unfold Bundle.fromParts at h
  cases content with
  | message m => exact key _ rfl rfl h
  | envelope m => exact key _ rfl rfl h

theorem finalizeSign_in {srv : Services} (hs : Spec.RequestsOnly srv) {ctx : Traffic.Context} (hl : Spec.SaneLibs ctx) {cert : Cert}
    {content : Content} {sig : Bytes} {request : EntryRequest} {n : Net}
    (h : (Traffic.finalizeSign ctx cert content sig request srv n).1 = .error e) : In Spec.dsseRaises e := by
  unfold Traffic.finalizeSign at h
  obtain ⟨ts, h1, h2⟩ := collectTimestamps_ok hs ctx.libs sig ctx.services.tsas n
  refine andThen_in' h1 (fun _ h => (by cases h)) (fun ts' m hts => andThen_in (createEntry_in hs) fun entry _ h => ?_) h
  cases hts
  refine fromParts_in ?_ h
  intro t ht
  obtain ⟨b, hb⟩ := h2 t ht
  exact hl.timestamp b t hb

end Sigstore.SignRaises

namespace Sigstore.Props

open Sigstore.Trust Sigstore.LogEntry Sigstore.Dsse Sigstore.Rekor Sigstore.Signing Sigstore.Http Sigstore.Url Sigstore.Sct
  Sigstore.Traffic Sigstore.SignRaises

theorem in_mono {l l' : List Exc} (h : ∀ e ∈ l, e ∈ l') (hi : In l e) : In l' e := hi.imp id (h e)

/-- **C109** Creating a `Signer` raises nothing but what `requests` raises and the exceptions on the list. -/
theorem C109_init_bound (ctx : Traffic.Context) (now : Time) (token : Token) (cache : Bool) (srv : Services) (n : Net)
    (hs : Spec.RequestsOnly srv) (e : Exc) (h : (Traffic.init ctx now token cache srv n).1 = .error e) :
    e.isRequestException = true ∨ e ∈ Spec.certRaises := by
  unfold Traffic.init at h
  split at h
  · exact andThen_in (fun h => (by cases h)) (fun k _ => andThen_in (signingCert_in hs rfl) fun _ _ h => (by cases h)) h
  · cases h

/-- what the first step of a signing call raises -/
theorem firstStep_in {srv : Services} (hs : Spec.RequestsOnly srv) {ctx : Traffic.Context} {now : Time} {token : Token} {s : Signer}
    {n : Net} {l : List Exc} (hl : Exc.expiredCertificate ∈ l) (h : (Traffic.signingCert ctx now token s srv n).1 = .error e) :
    In l e ∨ (s.cachedCert = none ∧ e ∈ Spec.certRaises) := by
  cases hc : s.cachedCert with
  | none => exact (signingCert_in hs hc h).elim (fun h => .inl (.inl h)) (fun h => .inr ⟨rfl, h⟩)
  | some cert => exact .inl (.inr (SignRaises.signingCert_cached hc h ▸ hl))

theorem keyDetails_in {cert : Cert} (h : getKeyDetails cert = .error e) : e ∈ Spec.dsseRaises := by
  unfold getKeyDetails at h; rz [] h

theorem prehash_in {kd : KeyDetails} (h : getPrehash kd = .error e) : e ∈ Spec.dsseRaises := by
  unfold getPrehash at h
  have hd : ∀ x, getAlgorithmDetails kd = .error x → x ∈ Spec.dsseRaises := by
    intro x hx; unfold getAlgorithmDetails at hx; rz [] hx
  rz [hd] h

theorem prehashed_in {kp : KeyPairs} {k nonce : Nat} {hd : Hashed} (h : signPrehashed kp k nonce hd = .error e) :
    e ∈ Spec.artifactRaises := by
  unfold signPrehashed at h; rz [] h

theorem hashedRekord_in {v : ApiVersion} {hd : Hashed} {sig : Bytes} {cert : Cert}
    (h : hashedRekordRequest v hd sig cert = .error e) : e ∈ Spec.artifactRaises := by
  cases v with
  | v1 => unfold hashedRekordRequest hashedRekordRequestV1 at h; rz [] h
  | v2 =>
    unfold hashedRekordRequest hashedRekordRequestV2 at h
    dsimp only at h
    split at h
    · next x hx => cases h; exact List.mem_cons_of_mem _ (keyDetails_in hx)
    · cases h

theorem envelope_ok {p sig : Bytes} {ty : Str} (h : sig ≠ []) :
    envelopeInit { payload := p, payloadType := ty, signatures := [sig] } = .ok sig := by
  unfold envelopeInit
  dsimp only
  rw [if_neg h]

theorem dsseSign_ok {sign : Bytes → Bytes} (h : ∀ b, sign b ≠ []) (stmt : Statement) : dsseSign sign stmt =
    .ok { payload := stmt.contents, payloadType := inTotoType, signatures := [sign (pae inTotoType stmt.contents)] } := by
  unfold dsseSign
  dsimp only
  rw [envelope_ok (h _)]

/-- **C109** `sign_artifact` raises nothing but what `requests` raises and the exceptions on the list, to which those of requesting a
certificate are added if the `Signer` does not hold one. -/
theorem C109_artifact_bound (ctx : Traffic.Context) (hl : Spec.SaneLibs ctx) (now : Time) (token : Token) (nonce : Nat) (s : Signer)
    (input : HashInput) (srv : Services) (n : Net) (hs : Spec.RequestsOnly srv) (e : Exc)
    (h : (Traffic.sign ctx now token nonce s (.artifact input) srv n).1 = .error e) :
    (e.isRequestException = true ∨ e ∈ Spec.artifactRaises) ∨ (s.cachedCert = none ∧ e ∈ Spec.certRaises) := by
  unfold Traffic.sign Traffic.signArtifact at h
  refine andThen_in (firstStep_in hs (by decide)) (fun cert _ h => .inl ?_) h
  refine andThen_in (fun h => (by cases h)) (fun k _ => andThen_in (fun h => .inr (prehashed_in h)) fun sig _ =>
    andThen_in (fun h => .inr (hashedRekord_in h)) fun request _ h => ?_) h
  exact in_mono (fun e he => List.mem_cons_of_mem _ he) (finalizeSign_in hs hl h)

/-- **C109** The same for `sign_dsse`. -/
theorem C109_dsse_bound (ctx : Traffic.Context) (hl : Spec.SaneLibs ctx) (now : Time) (token : Token) (nonce : Nat) (s : Signer)
    (stmt : Statement) (srv : Services) (n : Net) (hs : Spec.RequestsOnly srv) (e : Exc)
    (h : (Traffic.sign ctx now token nonce s (.dsse stmt) srv n).1 = .error e) :
    (e.isRequestException = true ∨ e ∈ Spec.dsseRaises) ∨ (s.cachedCert = none ∧ e ∈ Spec.certRaises) := by
  unfold Traffic.sign Traffic.signDsse at h
  refine andThen_in (firstStep_in hs (by decide)) (fun cert _ h => .inl ?_) h
  refine andThen_in (fun h => (by cases h)) (fun k _ => andThen_in' (dsseSign_ok (fun _ => hl.signature _ _ _) stmt) (fun _ h => ?_) fun envelope _ he => ?_) h
  · cases h
  · cases he
    refine andThen_in (fun h => .inr ?_) fun request _ => andThen_in' (envelope_ok (p := stmt.contents) (ty := inTotoType) (hl.signature _ _ _)) (fun _ h => ?_) fun sig _ _ h => ?_
    · change dsseRequest ctx.env.crypto (apiVersion ctx.services.rekor) _ cert = .error e at h
      cases hv : apiVersion ctx.services.rekor with
      | v1 => rw [hv] at h; cases h
      | v2 =>
        rw [hv] at h
        change dsseRequestV2 _ _ cert = .error e at h
        unfold dsseRequestV2 at h
        split at h
        · next x hx => cases h; exact keyDetails_in hx
        · split at h
          · next x hx => cases h; exact prehash_in hx
          · rw [envelope_ok (hl.signature _ _ _)] at h
            cases h
    · cases h
    · exact finalizeSign_in hs hl h

end Sigstore.Props
